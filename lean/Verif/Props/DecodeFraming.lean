import Verif.Lemmas.Bridge
import Verif.Props.Demo
/-!
# What `decode` consumes and reports (C04-C08, C24)
-/

namespace Iso8583

/-- **C04**: a successful decode accounts for every input byte. -/
theorem decode_wire {env : PyEnv} {spec : Spec} {s : Bytes} {dec : DecDoc} {enc : EncDoc}
    (h : decode env spec s = .ok (dec, enc)) : wire enc = s := by
  obtain ⟨items, _, rfl, _, rfl⟩ := decode_ok_iff.1 h
  simp

example : wire demoEnc = demoMsg := decode_wire demo_decode

/-! ## Failure -/

/-- **C05**: the partial result of a failed decode. The partial encoded dict is a prefix of the
input, both partial dicts have the same, distinct keys, and the reported field is the last one. -/
theorem decode_error_result {env : PyEnv} {spec : Spec} {s : Bytes} {e : DecodeError}
    (h : decode env spec s = .error (.decodeError e)) :
    e.s = s ∧ wire e.docEnc <+: s ∧ e.docDec.keys = e.docEnc.keys ∧ e.docEnc.keys.Nodup ∧
      e.docEnc.keys.getLast? = some e.field := by
  rcases decode_error_cases h with ⟨items, last, hr, hp, _, hl, hx⟩ | ⟨m, pos, its, it, hnd, hp, _, _, _, _, hx⟩ | ⟨k, _, _, hx⟩
  · cases hx
    refine ⟨rfl, by simpa using hp, by simp, ?_, by simpa [keysOf] using hl⟩
    simp only [keys_encOf]
    obtain ⟨hdr, ty, bms, flds, F, rfl, hh, ht, hb, hf⟩ := hr
    obtain ⟨hF, h1, _, _⟩ := hb.fields
    have := nodup_msg_keys (F := sortedNat F) hh.keys hb.keys (sortedNat_nodup hF) (by simpa using h1)
    simpa [hf.keys, ht.choose_spec.2.1] using this
  · cases hx
    exact ⟨rfl, by rw [wire_encOf]; exact hp, by simp, by rw [keys_encOf]; exact hnd, by rw [keys_encOf]; simp⟩
  · cases hx

/-- The message cut inside field 70. -/
theorem demo_decode_cut : decode cpython demoSpec (demoMsg.take 57) =
    .error (.decodeError ⟨.dataShort 1 py"bytes" 3, demoMsg.take 57, demoDec.take 6 ++ [(py"70", [])],
      demoEnc.take 6 ++ [(py"70", ⟨[0xF0, 0xF3], [0xA7]⟩)], 56, py"70"⟩) := by decide +kernel

example : wire (demoEnc.take 6 ++ [(py"70", ⟨[0xF0, 0xF3], [0xA7]⟩)]) <+: demoMsg.take 57 :=
  (decode_error_result demo_decode_cut).2.1

theorem itemOk_says {env : PyEnv} {spec : Spec} {it : Item} (h : ItemOk env spec it) :
    EntrySays env spec it.key it.entry it.val := by
  have plain : ∀ {fs : FieldSpec} {D : Bytes} {v : Str}, D ≠ [] → plainValue env fs D = .ok v → PlainSays env fs D v := by
    intro fs D v hD h
    unfold plainValue at h
    unfold PlainSays
    split at h
    · next hb => rw [if_pos (show fs.isBinary from hb), ← hexText_eq]; simpa using h.symm
    · next hb =>
      rw [if_neg (show ¬ fs.isBinary from hb)]
      rw [bytesDecode, if_neg hD] at h
      cases he : env.codec fs.dataEnc with
      | none => simp [he] at h
      | some c =>
        simp only [he] at h
        cases hd : c.decode D with
        | none => simp [hd] at h
        | some t => simp only [hd, Except.ok.injEq] at h; exact ⟨c, rfl, by rw [hd, h]⟩
  have hw : ∀ fs, bitmapWidth fs = bitmapBytes fs := fun _ => rfl
  have hpos : ∀ fs, 0 < bitmapBytes fs := by intro fs; unfold bitmapBytes; split <;> omega
  have ne : ∀ {fs : FieldSpec} {D bm : Bytes} {t : Str}, BitmapReads env fs D t bm → D ≠ [] := by
    rintro fs _ bm t hr rfl
    have := hr.width; rw [hw] at this; have h0 := hpos fs; rw [List.length_nil] at this; omega
  have hp1 : ∀ k : Str, (k = py"p" ∨ k = py"1") → k ≠ py"t" := by
    rintro k (rfl | rfl) <;> simp
  cases h with
  | field hs h1 h2 h3 hr =>
    refine ⟨_, hs, ?_⟩
    rw [if_neg h1, if_neg (by simp [h2, h3])]
    obtain ⟨ha, hb, hc⟩ := hr.says
    exact ⟨_, ha, hb, hc⟩
  | type ht =>
    obtain ⟨fs, hs, hk, hl, hr⟩ := ht
    refine ⟨fs, by rw [hk]; exact hs, ?_⟩
    rw [if_pos hk]
    refine ⟨hl, hr.width, plain ?_ hr.data⟩
    intro h0
    have := hr.width
    rw [show it.data = [] from h0, List.length_nil, typeWidth] at this
    split at this <;> omega
  | bitmap hs hk hr =>
    refine ⟨_, hs, ?_⟩
    rw [if_neg (hp1 _ hk), if_pos hk]
    exact ⟨rfl, Or.inl ⟨hr.width, plain (ne hr) hr.data⟩⟩
  | @bitmap2 key fs D1 D2 bm1 bm2 t1 t2 hs hk hr1 hr2 =>
    refine ⟨_, hs, ?_⟩
    rw [if_neg (hp1 _ hk), if_pos hk]
    refine ⟨rfl, Or.inr ⟨?_, t1, t2, rfl, ?_, ?_⟩⟩
    · simp only [Item.entry, List.length_append, hr1.width, hr2.width, hw]; omega
    · simp only [Item.entry]; rw [← hw, ← hr1.width, List.take_left]; exact plain (ne hr1) hr1.data
    · simp only [Item.entry]; rw [← hw, ← hr1.width, List.drop_left]; exact plain (ne hr2) hr2.data

/-- **C05**, second half: every field before the reported one was decoded in full: its entry and
its text in the partial dicts belong together. -/
theorem decode_error_before {env : PyEnv} {spec : Spec} {s : Bytes} {e : DecodeError}
    (h : decode env spec s = .error (.decodeError e)) {k : Str} {ent : EncEntry}
    (hk : e.docEnc.get? k = some ent) (hne : k ≠ e.field) :
    ∃ v, e.docDec.get? k = some v ∧ EntrySays env spec k ent v := by
  have key : ∀ items : List Item, (∀ x ∈ items, x.key ≠ e.field → ItemOk env spec x) → (encOf items).get? k = some ent →
      ∃ v, (decOf items).get? k = some v ∧ EntrySays env spec k ent v := by
    intro items
    induction items with
    | nil => intro _ h; simp [encOf] at h
    | cons a t ih =>
      intro hok hget
      simp only [encOf, decOf, List.map_cons, Dict.get?] at hget ⊢
      by_cases ha : a.key = k
      · rw [if_pos ha] at hget ⊢
        cases hget
        refine ⟨a.val, rfl, ?_⟩
        have := itemOk_says (hok a (by simp) (by rw [ha]; exact hne))
        rwa [ha] at this
      · rw [if_neg ha] at hget ⊢
        exact ih (fun x hx => hok x (by simp [hx])) hget
  rcases decode_error_cases h with ⟨items, last, hr, hp, _, hl, hx⟩ | ⟨m, pos, its, it, hnd, hp, _, _, _, hok, hx⟩ | ⟨k, _, _, hx⟩
  · cases hx
    exact key items (fun x hx _ => hr.ok x hx) hk
  · cases hx
    refine key (its ++ [it]) (fun x hx hne => ?_) hk
    rcases List.mem_append.1 hx with hx | hx
    · exact hok x hx
    · simp only [List.mem_singleton] at hx; subst hx; exact absurd rfl hne
  · cases hx

example : ∃ v, Dict.get? (demoDec.take 6 ++ [(py"70", ([] : Str))]) py"3" = some v ∧
    EntrySays cpython demoSpec py"3" ⟨[0x03], [0x0A, 0xBC]⟩ v :=
  decode_error_before demo_decode_cut (k := py"3") (by decide) (by decide)

theorem not_readable_of_bitmapOut {env : PyEnv} {s : Bytes} {idx pos : Nat} {fs : FieldSpec} {old mult : Nat} {t : Str}
    {D : Bytes} {m : DecMsg} (h : bitmapOut env s idx fs old mult = (.error (m, pos), t, D)) :
    D.length ≤ bitmapBytes fs ∧ ¬ ReadableBitmap env fs D := by
  have hD : D = (s.drop idx).take (bitmapWidth fs) := by
    have : (bitmapOut env s idx fs old mult).2.2 = (s.drop idx).take (bitmapWidth fs) := by
      simp only [bitmapOut, slice_nat]
      split
      · rfl
      · cases plainValue env fs ((s.drop idx).take (bitmapWidth fs)) with
        | error m => rfl
        | ok t => simp only; cases bitmapBits fs ((s.drop idx).take (bitmapWidth fs)) t <;> rfl
    rw [h] at this; exact this
  refine ⟨by rw [hD]; exact List.length_take_le _ _, ?_⟩
  rintro ⟨hl, t', ht, hh⟩
  have hw : D.length = bitmapWidth fs := hl
  have hne : D ≠ [] := by
    rintro rfl
    simp only [List.length_nil, bitmapWidth] at hw; split at hw <;> omega
  have hpl : plainValue env fs D = .ok t' := by
    unfold plainValue
    unfold PlainSays at ht
    by_cases hb : fs.isBinary
    · rw [if_pos hb] at ht; rw [if_pos (show fs.dataEnc = py"b" from hb), hexText_eq, ht]
    · rw [if_neg hb] at ht
      obtain ⟨c, hc, hd⟩ := ht
      rw [if_neg (show ¬ fs.dataEnc = py"b" from hb), bytesDecode, if_neg hne]
      simp [hc, hd]
  have hbits : ∃ bm, bitmapBits fs D t' = some bm := by
    unfold bitmapBits
    by_cases hb : fs.isBinary
    · rw [if_pos (show fs.dataEnc = py"b" from hb)]; exact ⟨_, rfl⟩
    · rw [if_neg (show ¬ fs.dataEnc = py"b" from hb)]; exact Option.isSome_iff_exists.1 (hh hb)
  obtain ⟨bm, hbits⟩ := hbits
  have := (bitmapOut_ok_iff (old := old) (mult := mult)).2
    ⟨(⟨hw, hpl, hbits⟩ : BitmapReads env fs D t' bm), (by rw [hD]; exact List.take_prefix _ _ : D <+: s.drop idx), rfl⟩
  rw [this] at h
  simp at h

/-- **C06**: the reported position lies within the input and is the size of the entries before the
reported field, plus the size of its length prefix when the data is at fault, plus one bitmap when
the reported field is a bitmap whose first half was readable (the tertiary bitmap is at fault).
For extra data it is the number of bytes consumed, less than the input. -/
theorem decode_error_pos {env : PyEnv} {spec : Spec} {s : Bytes} {e : DecodeError}
    (h : decode env spec s = .error (.decodeError e)) :
    e.pos ≤ s.length ∧
    (e.msg = .extraData → e.pos = (wire e.docEnc).length ∧ e.pos < s.length) ∧
    (e.msg ≠ .extraData → ∃ pre ent fs, e.docEnc = pre ++ [(e.field, ent)] ∧ spec.get? e.field = some fs ∧
      (((e.field = py"p" ∨ e.field = py"1") ∧ ReadableBitmap env fs (ent.data.take (bitmapBytes fs))) →
        e.pos = (wire pre).length + bitmapBytes fs) ∧
      (¬ ((e.field = py"p" ∨ e.field = py"1") ∧ ReadableBitmap env fs (ent.data.take (bitmapBytes fs))) →
        e.pos = (wire pre).length + if e.msg.aboutData then ent.len.length else 0)) := by
  rcases decode_error_cases h with ⟨items, last, hr, hp, hne, hl, hx⟩ | ⟨m, pos, its, it, hnd, hp, hpos, hm, hf, _, hx⟩ | ⟨k, _, _, hx⟩
  · cases hx
    refine ⟨hp.length_le, fun _ => ⟨by simp, ?_⟩, fun h => absurd rfl h⟩
    have := hp.length_le
    rcases Nat.lt_or_ge (wireOf items).length s.length with h | h
    · exact h
    · exact absurd (hp.eq_of_length (by omega)) hne
  · cases hx
    refine ⟨hpos, fun h => absurd h hm, fun _ => ?_⟩
    refine ⟨encOf its, it.entry, ?_⟩
    simp only [encOf_append, wire_encOf]
    have hi : (wireOf its).length ≤ s.length := by
      have := hp.length_le; simp at this; omega
    cases hf with
    | field hs h1 h2 h3 hf =>
      refine ⟨_, by simp [encOf], hs, ?_⟩
      refine ⟨fun h => absurd h.1 (by simp [h2, h3]), fun _ => ?_⟩
      obtain ⟨_, _, _, h4⟩ := fieldOut_error hi hf
      split at h4 <;> rename_i hd <;> simp only [hd, if_true]
      · exact h4
      · simpa using h4.1
    | type hs h1 hf =>
      refine ⟨_, by simp [encOf], hs, ?_⟩
      refine ⟨fun h => absurd h.1 (by simp [h1]), fun _ => ?_⟩
      obtain ⟨hl, _, h4, _⟩ := typeOut_error hf
      rw [h4, hl]; simp
    | @bitmap key fs D t hs h1 hf =>
      refine ⟨fs, by simp [encOf], hs, ?_⟩
      obtain ⟨hle, hnr⟩ := not_readable_of_bitmapOut hf
      constructor
      · rintro ⟨_, hr⟩
        simp only [Item.entry] at hr
        rw [List.take_of_length_le hle] at hr
        exact absurd hr hnr
      · intro _
        obtain ⟨_, h4, _⟩ := bitmapOut_error hf
        simp [h4, Item.entry]
    | @tertiary key fs D1 D2 bm1 t1 t2 hs h1 hr _ hf =>
      refine ⟨fs, by simp [encOf], hs, ?_⟩
      obtain ⟨_, h4, _⟩ := bitmapOut_error hf
      have hw : D1.length = bitmapBytes fs := hr.width
      refine ⟨fun _ => by rw [h4, hw], fun hn => absurd ?_ hn⟩
      · refine ⟨h1, ?_⟩
        simp only [Item.entry]
        rw [← hw, List.take_left]
        have := itemOk_says (.bitmap hs h1 hr)
        obtain ⟨fs', hs', hh⟩ := this
        simp only at hs'
        rw [hs] at hs'
        cases hs'
        have hkt : key ≠ py"t" := by rcases h1 with rfl | rfl <;> simp
        rw [if_neg hkt, if_pos h1] at hh
        rcases hh.2 with ⟨_, hpl⟩ | ⟨hlen, _⟩
        · refine ⟨hw, t1, hpl, fun hnb => ?_⟩
          have := hr.bits
          unfold bitmapBits at this
          rw [if_neg (show ¬ fs.dataEnc = py"b" from hnb)] at this
          rw [this]; rfl
        · simp only [Item.entry, hw] at hlen
          have : 0 < bitmapBytes fs := by unfold bitmapBytes; split <;> omega
          omega
  · cases hx

/-- The data of field 70 starts at offset 56 = 54 bytes of fields before it + 2 bytes of prefix. -/
example : (56 : Nat) = (wire (demoEnc.take 6)).length + 2 := by decide

example : (56 : Nat) ≤ (demoMsg.take 57).length := (decode_error_pos demo_decode_cut).1

/-- A fault in the tertiary bitmap is reported at its own offset, 16 bytes into field `1`. -/
example : ∃ e, decode cpython demoSpec (demoMsg.take 30) = .error (.decodeError e) ∧ e.field = py"1" ∧
    e.pos = (wire (demoEnc.take 3)).length + 16 := by
  refine ⟨_, rfl, ?_⟩
  decide +kernel

/-! ## Truncation and extension -/

/-- **C07**: extending an accepted message is an error at the point where it ended. -/
theorem decode_extended {env : PyEnv} {spec : Spec} {s x : Bytes} {dec : DecDoc} {enc : EncDoc}
    (h : decode env spec s = .ok (dec, enc)) (hx : x ≠ []) :
    ∃ k, decode env spec (s ++ x) = .error (.decodeError ⟨.extraData, s ++ x, dec, enc, s.length, k⟩) ∧
      dec.keys.getLast? = some k := by
  obtain ⟨items, hr, rfl, rfl, rfl⟩ := decode_ok_iff.1 h
  cases hd : decode env spec (wireOf items ++ x) with
  | ok r =>
    obtain ⟨dec', enc'⟩ := r
    obtain ⟨items', hr', hw, _, _⟩ := decode_ok_iff.1 hd
    have := hr.unique hr' (r := x) (r' := []) (by simp [hw])
    subst this
    exact absurd (List.append_cancel_left (as := wireOf items) (bs := x) (cs := []) (by simp [← hw])) hx
  | error e =>
    obtain ⟨last, hrun⟩ := decodeCore_of_reads (s := wireOf items ++ x) hr (List.prefix_append _ _)
    rcases decode_error_cases hd with ⟨items', last', hr', hp', _, hl, hx⟩ | ⟨m, pos, its, it, _, _, _, hm, _, _, hx⟩ | ⟨k, _, _, hx⟩
    · obtain ⟨r, hr2⟩ := hp'
      have := hr.unique hr' (r := x) (r' := r) hr2.symm
      subst this
      exact ⟨last', by rw [hx], by simpa [keysOf] using hl⟩
    · exfalso
      unfold decode at hd
      rw [decodeBody_eq, ← of_nil, hrun] at hd
      subst hx
      simp only at hd
      split at hd <;> simp at hd
      rename_i heq
      split at heq
      · cases heq; exact hm hd.1.symm
      · cases heq
    · exfalso
      unfold decode at hd
      rw [decodeBody_eq, ← of_nil, hrun] at hd
      subst hx
      simp only at hd
      split at hd <;> simp at hd
      rename_i heq
      split at heq <;> cases heq

example : ∃ k, decode cpython demoSpec (demoMsg ++ [0]) =
    .error (.decodeError ⟨.extraData, demoMsg ++ [0], demoDec, demoEnc, 61, k⟩) ∧ demoDec.keys.getLast? = some k :=
  decode_extended (x := [0]) demo_decode (by decide)

/-- **C07**, corollary: no accepted message is a proper prefix of another. -/
theorem decode_prefix_free {env : PyEnv} {spec : Spec} {s s' : Bytes} {r r' : DecDoc × EncDoc}
    (h : decode env spec s = .ok r) (h' : decode env spec s' = .ok r') (hp : s <+: s') : s = s' := by
  obtain ⟨x, rfl⟩ := hp
  by_cases hx : x = []
  · simp [hx]
  · obtain ⟨k, hk, _⟩ := decode_extended h hx
    rw [hk] at h'; cases h'

/-- **C08**: every proper prefix of an accepted message is rejected with `DecodeError`. -/
theorem decode_truncated {env : PyEnv} {spec : Spec} {s s' : Bytes} {r : DecDoc × EncDoc}
    (h : decode env spec s = .ok r) (hp : s' <+: s) (hne : s' ≠ s) :
    ∃ e, decode env spec s' = .error (.decodeError e) := by
  cases hd : decode env spec s' with
  | ok r' => exact absurd (decode_prefix_free hd h hp) hne
  | error x =>
    rcases decode_error_cases hd with ⟨_, _, _, _, _, _, hx⟩ | ⟨_, _, _, _, _, _, _, _, _, _, hx⟩ | ⟨k, _, _, hx⟩
    · exact ⟨_, by rw [hx]⟩
    · exact ⟨_, by rw [hx]⟩
    · exfalso
      obtain ⟨dec, enc⟩ := r
      obtain ⟨items, hr, rfl, _, _⟩ := decode_ok_iff.1 h
      obtain ⟨last, hrun⟩ := decodeCore_of_reads (s := wireOf items) hr (List.prefix_refl _)
      unfold decode at hd
      rw [decodeBody_eq, ← of_nil] at hd
      subst hx
      rcases hc : decodeCore env spec s' (.of []) with ⟨e | a, st⟩
      · rw [hc] at hd
        cases e with
        | err m p f => simp at hd
        | keyError k' =>
          have := stable_decodeCore env spec _ _ _ _ _ hp hc (by simp)
          simp only [hrun] at this
          simp at this
      · rw [hc] at hd
        simp only at hd
        split at hd <;> simp at hd
        rename_i heq
        split at heq <;> cases heq

example (n : Nat) (h : n < 61) : ∃ e, decode cpython demoSpec (demoMsg.take n) = .error (.decodeError e) := by
  refine decode_truncated demo_decode (List.take_prefix _ _) ?_
  intro he
  have := congrArg List.length he
  have hl : demoMsg.length = 61 := by decide
  rw [List.length_take, hl] at this
  omega

/-- An instance of `decode_prefix_free`. -/
example (x : Bytes) (r : DecDoc × EncDoc) (h : decode cpython demoSpec (demoMsg ++ x) = .ok r) : x = [] := by
  simpa using decode_prefix_free demo_decode h (List.prefix_append _ _)

end Iso8583
