import Verif.Spec.Salvage
import Verif.Props.Normalise
import Verif.Props.DecodeFraming
import Verif.Props.DecodeTotal
/-! # What can still be sent after a failed decode -/

namespace Iso8583

theorem filter_last {d : DecDoc} {k v : Str} (h : (d ++ [(k, v)]).keys.Nodup) :
    ((d ++ [(k, v)]).filter fun p => p.1 ≠ k) = d := by
  have hk : k ∉ d.keys := by
    intro hk
    simp only [Dict.keys, List.map_append, List.map_cons, List.map_nil] at h
    exact (List.nodup_append.1 h).2.2 k hk k (by simp) rfl
  rw [List.filter_append]
  have h1 : d.filter (fun p => p.1 ≠ k) = d := by
    rw [List.filter_eq_self]
    intro p hp
    have : p.1 ≠ k := by rintro rfl; exact hk (List.mem_map.2 ⟨p, hp, rfl⟩)
    simpa using this
  rw [h1]
  simp

/-- The parts before the place where a decode failed, and the values read there. -/
theorem salvaged_parts {env : PyEnv} {spec : Spec} {s : Bytes} {e : DecodeError}
    (h : decode env spec s = .error (.decodeError e)) :
    (∃ ps, Message env spec ps ∧ salvaged e = partsDec ps ∧ (ps.map Part.key).Nodup ∧ ps.getLast?.map Part.key = some e.field) ∨
    (∃ ps, Expects env spec ps e.field ∧ salvaged e = partsDec ps ∧ (ps.map Part.key).Nodup ∧ e.field ∉ ps.map Part.key ∧
      ∃ fs, spec.get? e.field = some fs) ∨
    (∃ ps q, ExpectsSecondHalf env spec ps q ∧ e.field = q.key ∧ salvaged e = partsDec ps ∧ (ps.map Part.key).Nodup ∧
      e.field ∉ ps.map Part.key) := by
  obtain ⟨_, _, hk, hn, _⟩ := decode_error_result h
  rw [← hk] at hn
  obtain ⟨_, ⟨ps, hm, _, _, hx, hd, _, _, hl⟩ | ⟨ps, fs, ent, v, off, hx, _, hfs, hf, hd, _, _⟩ |
    ⟨ps, q, fs, D, v, hx, _, _, hf, hq, hd, _, _⟩⟩ := decode_error_iff.1 h
  · rw [hd, partsDec_keys] at hn
    exact .inl ⟨ps, hm, by rw [salvaged, if_pos hx, hd], hn, hl⟩
  · rw [hd] at hn
    have hne : e.msg ≠ .extraData := by
      intro he
      rw [he] at hf
      unfold DecSimpleFault at hf
      split at hf
      · exact hf.1.elim
      · split at hf
        · exact hf.2.1.elim
        · exact hf.1.elim
    have hn' := hn
    simp only [Dict.keys, List.map_append, List.map_cons, List.map_nil] at hn'
    obtain ⟨h1, _, h2⟩ := List.nodup_append.1 hn'
    have ek : ((partsDec ps).map Prod.fst) = ps.map Part.key := partsDec_keys ps
    rw [ek] at h1 h2
    exact .inr (.inl ⟨ps, hx, by rw [salvaged, if_neg hne, hd, filter_last hn], h1, fun hm => h2 _ hm _ (by simp) rfl, fs, hfs⟩)
  · rw [hd] at hn
    have hne : e.msg ≠ .extraData := by
      intro he
      rw [he] at hf
      exact hf.elim
    have hn' := hn
    simp only [Dict.keys, List.map_append, List.map_cons, List.map_nil] at hn'
    obtain ⟨h1, _, h2⟩ := List.nodup_append.1 hn'
    have ek : ((partsDec ps).map Prod.fst) = ps.map Part.key := partsDec_keys ps
    rw [ek] at h1 h2
    exact .inr (.inr ⟨ps, q, hx, hq, by rw [salvaged, if_neg hne, hd, hq, filter_last hn], h1,
      fun hm => h2 _ hm q.key (by simp) hq⟩)

/-- **C74**: what `decode` has read before it failed can be written, and is read back unchanged, if
the header and the type were read and the primary bitmap is of a known encoding. -/
theorem salvage {env : PyEnv} {spec : Spec} {s : Bytes} {e : DecodeError} (hn : AsciiNumeric env)
    (hdg : env.maxStrDigits = 0 ∨ 3 ≤ env.maxStrDigits) (hs : SpecNormal env spec)
    (h : decode env spec s = .error (.decodeError e)) (h1 : e.field ≠ py"h") (h2 : e.field ≠ py"t")
    (h3 : e.field = py"p" → ∀ fs, spec.get? py"p" = some fs → ¬ fs.isBinary → ∃ c, env.codec fs.dataEnc = some c) :
    ∃ s' enc' doc' dec', encode env spec (asDoc (salvaged e)) = (.ok (s', enc'), doc') ∧
      decode env spec s' = .ok (dec', enc') ∧ ∀ k, k ≠ py"p" → k ≠ py"1" → dec'.get? k = (salvaged e).get? k := by
  have two : ∀ {hd : List Part} {t : Part} {fs : FieldSpec} {D : Bytes} {x : Str} {bm : Bytes}, HeaderPart env spec hd →
      TypePart env spec t → spec.get? py"p" = some fs → BitmapRead env fs D x bm →
      salvaged e = partsDec (hd ++ [t, ⟨py"p", ⟨[], D⟩, x⟩]) → ((hd ++ [t, ⟨py"p", ⟨[], D⟩, x⟩]).map Part.key).Nodup →
      ∃ s' enc' doc' dec', encode env spec (asDoc (salvaged e)) = (.ok (s', enc'), doc') ∧
        decode env spec s' = .ok (dec', enc') ∧ ∀ k, k ≠ py"p" → k ≠ py"1" → dec'.get? k = (salvaged e).get? k := by
    intro hd t fs D x bm hh ht hp hr hsv hnd
    have := rewrite_parts hn hdg hs (b := [⟨py"p", ⟨[], D⟩, x⟩]) (f := []) (F := []) hh ht (.inr (.inl rfl)) hp
      (bitmapRead_codec hr (hs.bitmaps _ _ (.inl rfl) hp).1) (by simp) (by simp) rfl (by simp) (by simpa using hnd)
    obtain ⟨s', enc', doc', dec', _, a, b, c, _⟩ := this
    rw [hsv]
    exact ⟨s', enc', doc', dec', by simpa using a, b, by simpa using c⟩
  have one : ∀ {hd : List Part} {t : Part} {fs : FieldSpec}, e.field = py"p" → HeaderPart env spec hd →
      TypePart env spec t → spec.get? py"p" = some fs →
      salvaged e = partsDec (hd ++ [t]) → ((hd ++ [t]).map Part.key).Nodup →
      ∃ s' enc' doc' dec', encode env spec (asDoc (salvaged e)) = (.ok (s', enc'), doc') ∧
        decode env spec s' = .ok (dec', enc') ∧ ∀ k, k ≠ py"p" → k ≠ py"1" → dec'.get? k = (salvaged e).get? k := by
    intro hd t fs he hh ht hp hsv hnd
    have := rewrite_parts hn hdg hs (b := []) (f := []) (F := []) hh ht (.inl rfl) hp (fun hb => ?_) (by simp) (by simp) rfl
      (by simp) (by simpa using hnd)
    · obtain ⟨s', enc', doc', dec', _, a, b, c, _⟩ := this
      rw [hsv]
      exact ⟨s', enc', doc', dec', by simpa using a, b, by simpa using c⟩
    · obtain ⟨c, hc⟩ := h3 he fs hp hb
      exact ⟨c, hc, ((hs.bitmaps _ _ (.inl rfl) hp).1 hb c hc).2⟩
  rcases salvaged_parts h with ⟨ps, ⟨hd, t, b, f, P, F, rfl, hhd, hty, hbm, hFp, hF, hfk, hff⟩, hsv, hnd, _⟩ |
    ⟨ps, hx, hsv, hnd, _, fs, hfs⟩ | ⟨ps, q, hx, hq, hsv, hnd, _⟩
  · obtain ⟨hP, hbk, ⟨fp, hfp, hcp⟩, hsec⟩ := bitmapParts_facts hbm hs
    have := rewrite_parts hn hdg hs hhd hty (.inr hbk) hfp hcp (fun i hi => hsec i ((hF i).1 hi).1) (fun i hi => by
      obtain ⟨a, b, c⟩ := (hF i).1 hi
      have := hP i a
      omega) hfk hff hnd
    obtain ⟨s', enc', doc', dec', _, a, b, c, _⟩ := this
    rw [hsv]
    exact ⟨s', enc', doc', dec', a, b, c⟩
  · generalize hk : e.field = k at hx
    cases hx with
    | header _ => exact absurd hk h1
    | type _ => exact absurd hk h2
    | primary hh ht => rw [hk] at hfs; exact one hk hh ht hfs hsv hnd
    | secondary hh ht hp hr _ => exact two hh ht hp hr hsv hnd
    | @field hd t b f P done rest i hhd hty hbm hpw hF hfk hff =>
      obtain ⟨hP, hbk, ⟨fp, hfp, hcp⟩, hsec⟩ := bitmapParts_facts hbm hs
      have hin : ∀ j ∈ done, P j ∧ j ≠ 1 ∧ j ≠ 65 := fun j hj => (hF j).1 (List.mem_append_left _ hj)
      have := rewrite_parts hn hdg hs hhd hty (.inr hbk) hfp hcp (fun j hj => hsec j (hin j hj).1) (fun j hj => by
        obtain ⟨a, b, c⟩ := hin j hj
        have := hP j a
        omega) hfk hff hnd
      obtain ⟨s', enc', doc', dec', _, a, b, c, _⟩ := this
      rw [hsv]
      exact ⟨s', enc', doc', dec', a, b, c⟩
  · cases hx with
    | three hh ht hp hr _ _ _ _ => exact two hh ht hp hr hsv hnd
    | wide hh ht hp hr _ _ => exact one hq hh ht hp hsv hnd

/-- A message does not end with its header or type. -/
theorem message_last {env : PyEnv} {spec : Spec} {ps : List Part} {k : Str} (h : Message env spec ps)
    (hl : ps.getLast?.map Part.key = some k) : k ≠ py"h" ∧ k ≠ py"t" := by
  obtain ⟨hd, t, b, f, P, F, rfl, _, _, hbm, _, _, hfk, _⟩ := h
  have hlast : k ∈ b.map Part.key ++ f.map Part.key := by
    rw [← List.getLast?_map] at hl
    have hb : b.map Part.key ≠ [] := by cases hbm <;> simp
    have : (hd ++ t :: b ++ f).map Part.key = (hd ++ [t]).map Part.key ++ (b.map Part.key ++ f.map Part.key) := by simp
    have hne : b.map Part.key ++ f.map Part.key ≠ [] := by simp [hb]
    rw [this, List.getLast?_append] at hl
    cases hx : (b.map Part.key ++ f.map Part.key).getLast? with
    | none => rw [List.getLast?_eq_none_iff] at hx; exact absurd hx hne
    | some x =>
      rw [hx, Option.some_or] at hl
      cases hl
      exact List.mem_of_getLast? hx
  rcases List.mem_append.1 hlast with hm | hm
  · have : k = py"p" ∨ k = py"1" := by cases hbm <;> simp at hm <;> simp [hm]
    rcases this with rfl | rfl <;> decide
  · rw [hfk] at hm
    obtain ⟨i, _, rfl⟩ := List.mem_map.1 hm
    exact ⟨natStr_ne_letter (by decide), natStr_ne_letter (by decide)⟩

/-- A decode that failed at the header has read nothing, and the specification has a header. -/
theorem fails_at_header {env : PyEnv} {spec : Spec} {s : Bytes} {e : DecodeError}
    (h : decode env spec s = .error (.decodeError e)) (hf : e.field = py"h") :
    salvaged e = [] ∧ ∃ fs, spec.get? py"h" = some fs ∧ 0 < fs.maxLen := by
  rcases salvaged_parts h with ⟨ps, hm, _, _, hl⟩ | ⟨ps, hx, hsv, _, _, fs, hfs⟩ | ⟨ps, q, hx, hq, _⟩
  · exact absurd hf (message_last hm hl).1
  · rw [hf] at hx hfs
    generalize hk : py"h" = k at hx
    cases hx with
    | header hm => exact ⟨hsv, fs, hfs, hm fs hfs⟩
    | type _ => cases hk
    | primary _ _ => cases hk
    | secondary _ _ _ _ _ => cases hk
    | field => exact absurd hk.symm (natStr_ne_letter (by decide))
  · rw [hq] at hf
    cases hx with
    | three _ _ _ _ _ _ _ _ => cases hf
    | wide _ _ _ _ _ _ => cases hf

/-- **C74**: a decode that failed at the header or the type leaves nothing that could be encoded. -/
theorem salvage_none {env : PyEnv} {spec : Spec} {s : Bytes} {e : DecodeError}
    (h : decode env spec s = .error (.decodeError e)) (hf : e.field = py"h" ∨ e.field = py"t") :
    ¬ ∃ r doc', encode env spec (asDoc (salvaged e)) = (.ok r, doc') := by
  rintro hr
  have hnd : (asDoc (salvaged e)).NoDup := by
    rcases salvaged_parts h with ⟨ps, _, hsv, hnd, _⟩ | ⟨ps, _, hsv, hnd, _⟩ | ⟨ps, q, _, _, hsv, hnd, _⟩ <;>
      exact asDoc_nodup (by rw [hsv, partsDec_keys]; exact hnd)
  obtain ⟨_, ⟨_, v, _, _, hv, _⟩, _⟩ := (encode_succeeds_iff hnd).1 hr
  rw [asDoc_get?] at hv
  have ht : py"t" ∈ (salvaged e).keys := by
    apply Classical.byContradiction
    intro hno
    rw [Dict.get?_eq_none.2 hno] at hv
    cases hv
  rcases hf with hf | hf
  · rw [(fails_at_header h hf).1] at ht
    cases ht
  · rcases salvaged_parts h with ⟨ps, hm, _, _, hl⟩ | ⟨ps, _, hsv, _, hno, _⟩ | ⟨ps, q, _, _, hsv, _, hno⟩
    · exact absurd hf (message_last hm hl).2
    · rw [hsv, partsDec_keys] at ht; rw [hf] at hno; exact hno ht
    · rw [hsv, partsDec_keys] at ht; rw [hf] at hno; exact hno ht

/-- **C74** for the shipped specifications: exactly the failures after the message type leave
something to send. -/
theorem shipped_salvage {env : PyEnv} {spec : Spec} (hs : spec = defaultSpec ∨ spec = defaultAsciiSpec) (hn : AsciiNumeric env)
    (ha : env.codec py"ascii" = some asciiCodec) (hd : env.maxStrDigits = 0 ∨ 8 ≤ env.maxStrDigits)
    {s : Bytes} {e : DecodeError} (h : decode env spec s = .error (.decodeError e)) :
    (∃ s' enc' doc' dec', encode env spec (asDoc (salvaged e)) = (.ok (s', enc'), doc') ∧
      decode env spec s' = .ok (dec', enc') ∧ ∀ k, k ≠ py"p" → k ≠ py"1" → dec'.get? k = (salvaged e).get? k) ↔
    e.field ≠ py"t" := by
  have hw : WellFormed spec := by
    rcases hs with rfl | rfl
    · exact default_wellFormed
    · exact defaultAscii_wellFormed
  constructor
  · rintro ⟨s', enc', doc', _, hr, _⟩ hf
    exact salvage_none h (.inr hf) ⟨_, _, hr⟩
  · intro hf
    refine salvage hn (by omega) (wellFormed_normal hw ha hd) h ?_ hf ?_
    · intro hh
      obtain ⟨_, fs, hfs, hm⟩ := fails_at_header h hh
      have : spec.get? py"h" = some { dataEnc := py"ascii", lenEnc := py"ascii", lenType := 0, maxLen := 0, desc := some py"Message Header" } := by
        rcases hs with rfl | rfl <;> decide
      rw [this] at hfs
      cases hfs
      exact absurd hm (by decide)
    · intro _ fs hfs hb
      rcases (hw.encodings _ fs hfs).1 with h' | h'
      · exact absurd h' hb
      · exact ⟨asciiCodec, by rw [h', ha]⟩

/-- A message with fields 2 and 3, cut inside field 3. -/
def cutMsg : Bytes := [0x30, 0x32, 0x30, 0x30, 0x60, 0, 0, 0, 0, 0, 0, 0, 0x30, 0x33, 0x31, 0x32, 0x33, 0x39, 0x39]

def cutError : DecodeError :=
  { msg := .dataShort 2 py"bytes" 6, s := cutMsg, docDec := [(py"t", py"0200"), (py"p", py"6000000000000000"), (py"2", py"123"), (py"3", py"")], docEnc := [(py"t", ⟨[], [0x30, 0x32, 0x30, 0x30]⟩), (py"p", ⟨[], [0x60, 0, 0, 0, 0, 0, 0, 0]⟩), (py"2", ⟨[0x30, 0x33], [0x31, 0x32, 0x33]⟩), (py"3", ⟨[], [0x39, 0x39]⟩)], pos := 17, field := py"3" }

theorem cut_decode : decode cpython defaultSpec cutMsg = .error (.decodeError cutError) := by decide +kernel

/-- What was read can be sent: the bitmap no longer announces field 3. -/
example : salvaged cutError = [(py"t", py"0200"), (py"p", py"6000000000000000"), (py"2", py"123")] ∧
    (encode cpython defaultSpec (asDoc (salvaged cutError))).1.map Prod.fst =
      .ok [0x30, 0x32, 0x30, 0x30, 0x40, 0, 0, 0, 0, 0, 0, 0, 0x30, 0x33, 0x31, 0x32, 0x33] := by decide +kernel

example : ∃ s' enc' doc' dec', encode cpython defaultSpec (asDoc (salvaged cutError)) = (.ok (s', enc'), doc') ∧
    decode cpython defaultSpec s' = .ok (dec', enc') ∧ dec'.get? py"2" = some py"123" ∧ dec'.get? py"3" = none := by
  obtain ⟨s', enc', doc', dec', a, b, c⟩ := (shipped_salvage (.inl rfl) cpython_ascii rfl (by decide) cut_decode).2 (by decide)
  exact ⟨s', enc', doc', dec', a, b, (c _ (by decide) (by decide)).trans (by decide), (c _ (by decide) (by decide)).trans (by decide)⟩

/-- With the failing field left in, `encode` fails as well. -/
example : (encode cpython defaultSpec (asDoc cutError.docDec)).1.toOption = none := by decide +kernel

/-- A message cut inside its type leaves nothing. -/
example (r : Bytes × EncDoc) (d : Doc) {e : DecodeError} (h : decode cpython defaultSpec [0x30, 0x32] = .error (.decodeError e)) :
    encode cpython defaultSpec (asDoc (salvaged e)) ≠ (.ok r, d) := by
  have hf : e.field = py"t" := by
    have h' : decode cpython defaultSpec [0x30, 0x32] = .error (.decodeError ⟨.fieldDataBytes 2 4, [0x30, 0x32], [(py"t", [])], [(py"t", ⟨[], [0x30, 0x32]⟩)], 0, py"t"⟩) := by decide +kernel
    rw [h'] at h
    cases h
    rfl
  exact fun hr => salvage_none h (.inr hf) ⟨r, d, hr⟩

/-- An instance of `salvage`. -/
example : ∃ s' enc' doc' dec', encode cpython defaultSpec (asDoc (salvaged cutError)) = (.ok (s', enc'), doc') ∧
    decode cpython defaultSpec s' = .ok (dec', enc') ∧ ∀ k, k ≠ py"p" → k ≠ py"1" → dec'.get? k = (salvaged cutError).get? k :=
  salvage cpython_ascii (by decide) (wellFormed_normal default_wellFormed rfl (by decide)) cut_decode (by decide) (by decide)
    (fun h => absurd h (by decide))

end Iso8583
