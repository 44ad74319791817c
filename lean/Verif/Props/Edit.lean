import Verif.Props.Grammar
import Verif.Props.EncodeRoundTrip
import Verif.Props.DecodeContent
/-!
# Changing one field of a message (C65)
-/

namespace Iso8583

theorem Dict.set_eq_map {κ ν : Type} [DecidableEq κ] {d : Dict κ ν} {k : κ} {v : ν} (nd : d.NoDup) (h : k ∈ d.keys) :
    d.set k v = d.map fun p => if p.1 = k then (k, v) else p := by
  induction d with
  | nil => cases h
  | cons p d ih =>
    have nd' := List.nodup_cons.1 (show (p.1 :: Dict.keys d).Nodup from nd)
    rw [Dict.set, List.map_cons]
    by_cases hp : p.1 = k
    · rw [if_pos hp, if_pos hp]
      have : ∀ q ∈ d, (if q.1 = k then (k, v) else q) = q := by
        intro q hq
        rw [if_neg]
        rintro rfl
        exact nd'.1 (hp ▸ List.mem_map.2 ⟨q, hq, rfl⟩)
      rw [List.map_congr_left this, List.map_id', hp]
    · rw [if_neg hp, if_neg hp]
      rcases List.mem_cons.1 h with h | h
      · exact absurd h.symm hp
      · rw [ih nd'.2 h]

theorem Dict.set_pop {κ ν : Type} [DecidableEq κ] {k k' : κ} {v : ν} (h : k ≠ k') : ∀ d : Dict κ ν,
    (d.set k v).pop k' = (d.pop k').set k v
  | [] => by simp [Dict.set, Dict.pop, h]
  | (a, b) :: d => by
    by_cases h1 : a = k
    · subst h1
      simp [Dict.set, Dict.pop, h]
    · by_cases h2 : a = k'
      · subst h2
        simp [Dict.set, Dict.pop, h1]
      · simp [Dict.set, Dict.pop, h1, h2, Dict.set_pop h d]

theorem Dict.set_comm {κ ν : Type} [DecidableEq κ] {k k' : κ} {v v' : ν} (h : k ≠ k') : ∀ {d : Dict κ ν}, k ∈ d.keys →
    (d.set k v).set k' v' = (d.set k' v').set k v
  | [], hk => by cases hk
  | (a, b) :: d, hk => by
    by_cases h1 : a = k
    · subst h1
      simp [Dict.set, h]
    · have hk' : k ∈ Dict.keys d := by
        rcases List.mem_cons.1 hk with hk | hk
        · exact absurd hk.symm h1
        · exact hk
      by_cases h2 : a = k'
      · subst h2
        simp [Dict.set, h1]
      · simp [Dict.set, h1, h2, Dict.set_comm h hk']

theorem Dict.ext_get? {κ ν : Type} [DecidableEq κ] : ∀ {a b : Dict κ ν}, a.NoDup → a.keys = b.keys → (∀ k, a.get? k = b.get? k) → a = b
  | [], [], _, _, _ => rfl
  | [], _ :: _, _, h, _ => by cases h
  | _ :: _, [], _, h, _ => by cases h
  | (k, v) :: a, (k', v') :: b, nd, h, hg => by
    simp only [Dict.keys_cons, List.cons.injEq] at h
    obtain ⟨rfl, h⟩ := h
    have nd' := List.nodup_cons.1 (show (k :: Dict.keys a).Nodup from nd)
    have hv := hg k
    simp only [Dict.get?, if_true, Option.some.injEq] at hv
    subst hv
    congr 1
    refine Dict.ext_get? nd'.2 h fun x => ?_
    by_cases hx : k = x
    · subst hx
      rw [Dict.get?_eq_none.2 nd'.1, Dict.get?_eq_none.2 (h ▸ nd'.1)]
    · have := hg x
      simpa [Dict.get?, hx] using this

/-- The part with key `k` exchanged for another one. -/
def exchange (k : Str) (q : Part) (p : Part) : Part := if p.key = k then q else p

section
variable {env : PyEnv} {spec : Spec} {doc : Doc} {k : Str} {v : Val}

theorem keys_set_present (hk : Key.str k ∈ doc.keys) : (doc.set (.str k) v).keys = doc.keys := by
  rw [Dict.keys_set, if_pos hk]

theorem Numbered.set (hk : Key.str k ∈ doc.keys) {n : Int} : Numbered env (doc.set (.str k) v) n ↔ Numbered env doc n := by
  unfold Numbered; rw [keys_set_present hk]

theorem Flagged.set (hk : Key.str k ∈ doc.keys) {i : Nat} : Flagged env (doc.set (.str k) v) i ↔ Flagged env doc i := by
  unfold Flagged; simp only [Numbered.set hk]

theorem fieldPart_exchange {fs : FieldSpec} (hs : spec.get? k = some fs) {n : Nat} {L D : Bytes} (hw : FieldWrites env fs v n L D)
    {p : Part} (h : FieldPartWritten env spec doc p) :
    FieldPartWritten env spec (doc.set (.str k) v) (exchange k ⟨k, ⟨L, D⟩, readBack fs v⟩ p) := by
  unfold exchange
  by_cases hp : p.key = k
  · rw [if_pos hp]
    exact ⟨fs, v, n, hs, by simp, hw, rfl⟩
  · rw [if_neg hp]
    obtain ⟨fs', v', n', h1, h2, h3, h4⟩ := h
    exact ⟨fs', v', n', h1, by rw [Dict.get?_set_ne _ _ (by simpa using hp)]; exact h2, h3, h4⟩

theorem exchange_key (k : Str) (e : EncEntry) (x : Str) (p : Part) : (exchange k ⟨k, e, x⟩ p).key = p.key := by
  unfold exchange
  by_cases hp : p.key = k
  · rw [if_pos hp, hp]
  · rw [if_neg hp]

theorem exchange_of_ne {q p : Part} (h : p.key ≠ k) : exchange k q p = p := if_neg h

/-- Exchanging the value of a field exchanges its part. -/
theorem Written.set {ps b : List Part} (h : Written env spec doc ps b) (hk : Key.str k ∈ doc.keys) (ht : k ≠ py"t")
    (hp : k ≠ py"p") (h1 : k ≠ py"1") {fs : FieldSpec} (hs : spec.get? k = some fs) {n : Nat} {L D : Bytes}
    (hw : FieldWrites env fs v n L D) :
    Written env spec (doc.set (.str k) v) (ps.map (exchange k ⟨k, ⟨L, D⟩, readBack fs v⟩)) b := by
  obtain ⟨hn, hr, hd, t, f, F, rfl, hh, hty, hb, hF, hmem, hkeys, hf⟩ := h
  have hA : Flagged env (doc.set (.str k) v) = Flagged env doc := funext fun i => propext (Flagged.set hk)
  refine ⟨by unfold NumbersParse; rw [keys_set_present hk]; exact hn, fun m hm => hr m ((Numbered.set hk).1 hm),
    hd.map (exchange k ⟨k, ⟨L, D⟩, readBack fs v⟩), t, f.map (exchange k ⟨k, ⟨L, D⟩, readBack fs v⟩), F, ?_, ?_, ?_, ?_, hF, ?_, ?_, ?_⟩
  · have hbk : b.map (exchange k ⟨k, ⟨L, D⟩, readBack fs v⟩) = b := by
      cases hb with
      | one => simp [exchange, Ne.symm hp]
      | two => simp [exchange, Ne.symm hp, Ne.symm h1]
      | three => simp [exchange, Ne.symm hp, Ne.symm h1]
    have htk : exchange k ⟨k, ⟨L, D⟩, readBack fs v⟩ t = t := by
      obtain ⟨_, _, _, _, _, rfl, _⟩ := hty
      exact exchange_of_ne (Ne.symm ht)
    simp only [List.map_append, List.map_cons, hbk, htk]
  · obtain ⟨fs', hs', ⟨hm, rfl⟩ | ⟨hm, p, rfl, hpk, hw'⟩⟩ := hh
    · exact ⟨fs', hs', .inl ⟨hm, rfl⟩⟩
    · exact ⟨fs', hs', .inr ⟨hm, _, rfl, by rw [exchange_key]; exact hpk, fieldPart_exchange hs hw hw'⟩⟩
  · obtain ⟨fs', v', D', a1, a2, a3⟩ := hty
    exact ⟨fs', v', D', a1, by rw [Dict.get?_set_ne _ _ (by simpa using Ne.symm ht)]; exact a2, a3⟩
  · rw [hA]; exact hb
  · intro i; rw [Numbered.set hk]; exact hmem i
  · rw [List.map_map, ← hkeys]
    exact List.map_congr_left fun p _ => exchange_key _ _ _ p
  · intro p hp
    obtain ⟨q, hq, rfl⟩ := List.mem_map.1 hp
    exact fieldPart_exchange hs hw (hf q hq)

/-- A part of the message belongs to a key of the dict. -/
theorem Written.part {ps b : List Part} (h : Written env spec doc ps b) {p : Part} (hp : p ∈ ps) (ht : p.key ≠ py"t")
    (hp' : p.key ≠ py"p") (h1 : p.key ≠ py"1") : FieldPartWritten env spec doc p := by
  obtain ⟨_, _, hd, t, f, F, rfl, hh, hty, hb, _, _, _, hf⟩ := h
  simp only [List.mem_append, List.mem_cons] at hp
  rcases hp with (hp | rfl | hp) | hp
  · obtain ⟨_, _, ⟨_, rfl⟩ | ⟨_, q, rfl, _, hq⟩⟩ := hh
    · cases hp
    · rw [List.mem_singleton] at hp; exact hp ▸ hq
  · obtain ⟨_, _, _, _, _, rfl, _⟩ := hty
    exact absurd rfl ht
  · cases hb <;> simp only [List.mem_cons, List.not_mem_nil, or_false] at hp
    · subst hp; exact absurd rfl hp'
    · rcases hp with rfl | rfl
      · exact absurd rfl hp'
      · exact absurd rfl h1
    · rcases hp with rfl | rfl
      · exact absurd rfl hp'
      · exact absurd rfl h1
  · exact hf p hp

/-- The keys of the parts: determined by the specification and the numbers, but for the bitmaps. -/
theorem Written.partKeys {ps b : List Part} (h : Written env spec doc ps b) :
    ∃ (H B : List Str) (F : List Nat), ps.map Part.key = H ++ py"t" :: B ++ F.map natStr ∧
      ((hasHeader spec ∧ H = [py"h"]) ∨ (¬ hasHeader spec ∧ H = [])) ∧ (B = [py"p"] ∨ B = [py"p", py"1"]) ∧
      F.Pairwise (· < ·) ∧ ∀ i : Nat, i ∈ F ↔ Numbered env doc i ∧ i ≠ 1 ∧ i ≠ 65 := by
  obtain ⟨_, _, hd, t, f, F, rfl, hh, hty, hb, hF, hmem, hkeys, _⟩ := h
  refine ⟨hd.map Part.key, b.map Part.key, F, ?_, ?_, ?_, hF, hmem⟩
  · obtain ⟨_, _, _, _, _, rfl, _⟩ := hty
    simp [hkeys]
  · obtain ⟨fs, hs, ⟨hm, rfl⟩ | ⟨hm, q, rfl, hq, _⟩⟩ := hh
    · right
      refine ⟨?_, rfl⟩
      rintro ⟨fs', hs', hm'⟩
      rw [hs] at hs'; cases hs'; omega
    · left
      exact ⟨⟨fs, hs, hm⟩, by simp [hq]⟩
  · cases hb <;> simp

theorem Written.nodup {ps b : List Part} (h : Written env spec doc ps b) : (ps.map Part.key).Nodup := by
  obtain ⟨H, B, F, hk, hH, hB, hF, hmem⟩ := h.partKeys
  rw [hk]
  refine nodup_msg_keys ?_ hB (hF.imp fun h => Nat.ne_of_lt h) fun h1 => ((hmem 1).1 h1).2.1 rfl
  rcases hH with ⟨_, h⟩ | ⟨_, h⟩
  · exact .inr h
  · exact .inl h

theorem docAfter_set {b : List Part} (hk : Key.str k ∈ doc.keys) (nd : doc.NoDup) (hb : ∀ p ∈ b, p.key ≠ k) (h1 : k ≠ py"1")
    (h65 : k ≠ py"65") : docAfter (doc.set (.str k) v) b = (docAfter doc b).set (.str k) v := by
  unfold docAfter
  rw [Dict.set_pop (by simpa using h1), Dict.set_pop (by simpa using h65)]
  have hk' : Key.str k ∈ Dict.keys ((doc.pop (.str py"1")).pop (.str py"65")) :=
    (Dict.mem_keys_pop (nd.pop _)).2 ⟨by simpa using h65, (Dict.mem_keys_pop nd).2 ⟨by simpa using h1, hk⟩⟩
  generalize (doc.pop (.str py"1")).pop (.str py"65") = d at hk'
  induction b generalizing d with
  | nil => rfl
  | cons p b ih =>
    rw [List.foldl_cons, List.foldl_cons, Dict.set_comm (by simpa using Ne.symm (hb p (by simp))) hk']
    exact ih (fun q hq => hb q (by simp [hq])) _ (Dict.mem_keys_set.2 (.inr hk'))

end

theorem partsEnc_exchange {ps : List Part} {k : Str} {e : EncEntry} {x : Str} (nd : (ps.map Part.key).Nodup)
    (hk : k ∈ ps.map Part.key) : partsEnc (ps.map (exchange k ⟨k, e, x⟩)) = (partsEnc ps).set k e := by
  have hkeys : (partsEnc ps).keys = ps.map Part.key := by simp [partsEnc, Dict.keys, Function.comp_def]
  rw [Dict.set_eq_map (by unfold Dict.NoDup; rw [hkeys]; exact nd) (by rw [hkeys]; exact hk)]
  simp only [partsEnc, List.map_map]
  refine List.map_congr_left fun p _ => ?_
  simp only [Function.comp, exchange]
  by_cases hp : p.key = k
  · rw [if_pos hp, if_pos hp]
  · rw [if_neg hp, if_neg hp]

/-- **C65**: in a dict that can be encoded, giving one field (or the header) another value changes
nothing but the entry of that field: `encode` succeeds exactly if the new value can be written, and
then returns the old entries and leaves the old dict with that one entry exchanged. -/
theorem edit_field {env : PyEnv} {spec : Spec} {doc d d' : Doc} {s s' : Bytes} {enc enc' : EncDoc} {k : Str} {v : Val}
    {fs : FieldSpec} (nd : doc.NoDup) (h : encode env spec doc = (.ok (s, enc), d)) (hk : k ∈ enc.keys) (ht : k ≠ py"t")
    (hp : k ≠ py"p") (h1 : k ≠ py"1") (hs : spec.get? k = some fs) :
    encode env spec (doc.set (.str k) v) = (.ok (s', enc'), d') ↔
      ∃ n L D, FieldWrites env fs v n L D ∧ enc' = enc.set k ⟨L, D⟩ ∧ s' = wire enc' ∧ d' = d.set (.str k) v := by
  obtain ⟨ps, b, hw, rfl, rfl, rfl⟩ := (encode_iff nd).1 h
  have hnk := hw.nodup
  have hkeys : (partsEnc ps).keys = ps.map Part.key := by simp [partsEnc, Dict.keys, Function.comp_def]
  rw [hkeys] at hk
  obtain ⟨p, hpm, rfl⟩ := List.mem_map.1 hk
  obtain ⟨H, B, F, hpk, hH, hB, _, hmemF⟩ := hw.partKeys
  have hcase : p.key ∈ H ∨ ∃ i ∈ F, natStr i = p.key := by
    rw [hpk] at hk
    simp only [List.mem_append, List.mem_cons, List.mem_map] at hk
    rcases hk with (hk | hk | hk) | hk
    · exact .inl hk
    · exact absurd hk ht
    · rcases hB with rfl | rfl
      · rw [List.mem_singleton] at hk; exact absurd hk hp
      · simp only [List.mem_cons, List.not_mem_nil, or_false] at hk
        rcases hk with hk | hk
        · exact absurd hk hp
        · exact absurd hk h1
    · exact .inr hk
  have h65 : p.key ≠ py"65" := by
    rcases hcase with h | ⟨i, hi, h⟩
    · rcases hH with ⟨_, rfl⟩ | ⟨_, rfl⟩
      · rw [List.mem_singleton] at h; rw [h]; simp
      · cases h
    · intro he
      have : natStr i = natStr 65 := by rw [h, he]; rfl
      exact ((hmemF i).1 hi).2.2 (natStr_inj.1 this)
  obtain ⟨fs', v0, n0, a1, a2, a3, a4⟩ := hw.part hpm ht hp h1
  have hmem : Key.str p.key ∈ doc.keys := Dict.mem_keys_iff.2 ⟨_, a2⟩
  have nd' : (doc.set (.str p.key) v).NoDup := nd.set _ _
  have hbk : ∀ q ∈ b, q.key ≠ p.key := by
    obtain ⟨_, _, _, _, _, _, _, _, _, hb, _⟩ := hw
    intro q hq
    cases hb <;> simp only [List.mem_cons, List.not_mem_nil, or_false] at hq
    · subst hq; exact Ne.symm hp
    · rcases hq with rfl | rfl
      · exact Ne.symm hp
      · exact Ne.symm h1
    · rcases hq with rfl | rfl
      · exact Ne.symm hp
      · exact Ne.symm h1
  have back : ∀ {n L D}, FieldWrites env fs v n L D → encode env spec (doc.set (.str p.key) v) =
      (.ok (wire ((partsEnc ps).set p.key ⟨L, D⟩), (partsEnc ps).set p.key ⟨L, D⟩), (docAfter doc b).set (.str p.key) v) := by
    intro n L D hfw
    refine (encode_iff nd').2 ⟨_, b, hw.set hmem ht hp h1 hs hfw, ?_, rfl, ?_⟩
    · exact (partsEnc_exchange hnk hk).symm
    · exact (docAfter_set hmem nd hbk h1 h65).symm
  constructor
  · intro h'
    obtain ⟨ps', b', hw', rfl, rfl, rfl⟩ := (encode_iff nd').1 h'
    obtain ⟨q, hq, hqk⟩ : ∃ q ∈ ps', q.key = p.key := by
      obtain ⟨H', B', F', hpk', hH', _, _, hmemF'⟩ := hw'.partKeys
      have : p.key ∈ ps'.map Part.key := by
        rw [hpk']
        simp only [List.mem_append, List.mem_cons, List.mem_map]
        rcases hcase with h | ⟨i, hi, h⟩
        · rcases hH with ⟨hx, rfl⟩ | ⟨_, rfl⟩
          · rcases hH' with ⟨_, rfl⟩ | ⟨hx', _⟩
            · exact .inl (.inl h)
            · exact absurd hx hx'
          · cases h
        · refine .inr ⟨i, (hmemF' i).2 ?_, h⟩
          rw [Numbered.set hmem]
          exact (hmemF i).1 hi
      obtain ⟨q, hq, e⟩ := List.mem_map.1 this
      exact ⟨q, hq, e⟩
    obtain ⟨fs'', v', n, c1, c2, c3, c4⟩ := hw'.part hq (hqk ▸ ht) (hqk ▸ hp) (hqk ▸ h1)
    rw [hqk] at c1 c2
    rw [hs] at c1; cases c1
    rw [Dict.get?_set_same] at c2; cases c2
    have := back c3
    rw [h'] at this
    simp only [Prod.mk.injEq, Except.ok.injEq] at this
    exact ⟨n, _, _, c3, this.1.2, rfl, this.2⟩
  · rintro ⟨n, L, D, hfw, rfl, rfl, rfl⟩
    exact back hfw

theorem wire_set {pre post : EncDoc} {k : Str} {e e' : EncEntry} (hk : k ∉ pre.keys) :
    wire (Dict.set (pre ++ (k, e) :: post) k e') = wire pre ++ (e'.len ++ e'.data) ++ wire post := by
  rw [Dict.set_append_of_not_mem hk]
  simp [Dict.set, wire]

/-- **C65**: on the wire, only the bytes of that field change. -/
theorem edit_bytes {env : PyEnv} {spec : Spec} {doc d d' : Doc} {s s' : Bytes} {pre post enc' : EncDoc} {k : Str} {v : Val}
    {e : EncEntry} (nd : doc.NoDup) (h : encode env spec doc = (.ok (s, pre ++ (k, e) :: post), d)) (ht : k ≠ py"t")
    (hp : k ≠ py"p") (h1 : k ≠ py"1") (h' : encode env spec (doc.set (.str k) v) = (.ok (s', enc'), d')) :
    s = wire pre ++ (e.len ++ e.data) ++ wire post ∧
      ∃ e', enc' = pre ++ (k, e') :: post ∧ s' = wire pre ++ (e'.len ++ e'.data) ++ wire post := by
  obtain ⟨ps, b, hw, he, hs, _⟩ := (encode_iff nd).1 h
  have hkeys : (partsEnc ps).keys = ps.map Part.key := by simp [partsEnc, Dict.keys, Function.comp_def]
  have hnk := hw.nodup
  rw [← hkeys, ← he, Dict.keys_append, Dict.keys_cons] at hnk
  have hpre : k ∉ pre.keys := fun hm => (List.nodup_append.1 hnk).2.2 k hm k (by simp) rfl
  have hk : k ∈ Dict.keys (pre ++ (k, e) :: post) := by simp
  obtain ⟨fs, hfs⟩ : ∃ fs, spec.get? k = some fs := by
    rw [he, hkeys] at hk
    obtain ⟨p, hpm, rfl⟩ := List.mem_map.1 hk
    obtain ⟨fs, _, _, h, _⟩ := hw.part hpm ht hp h1
    exact ⟨fs, h⟩
  obtain ⟨n, L, D, _, rfl, rfl, _⟩ := (edit_field nd h hk ht hp h1 hfs).1 h'
  refine ⟨by rw [hs]; simp [wire], ⟨L, D⟩, ?_, wire_set hpre⟩
  rw [Dict.set_append_of_not_mem hpre]
  simp [Dict.set]

/-- **C65**: whoever decodes both messages sees the one field changed. -/
theorem edit_seen {env : PyEnv} {spec : Spec} (hl : SpecLaws env spec) {doc d d' : Doc} {s s' : Bytes} {enc enc' : EncDoc}
    {dec : DecDoc} {k : Str} {v : Val} {fs : FieldSpec} (nd : doc.NoDup) (h : encode env spec doc = (.ok (s, enc), d))
    (hk : k ∈ enc.keys) (ht : k ≠ py"t") (hp : k ≠ py"p") (h1 : k ≠ py"1") (hs : spec.get? k = some fs)
    (h' : encode env spec (doc.set (.str k) v) = (.ok (s', enc'), d')) (hd : decode env spec s = .ok (dec, enc)) :
    decode env spec s' = .ok (dec.set k (readBack fs v), enc') := by
  obtain ⟨dec1, hd1, hk1, hv1⟩ := encode_decode hl h
  rw [hd] at hd1; cases hd1
  obtain ⟨dec', hd', hk', hv'⟩ := encode_decode hl h'
  obtain ⟨n, L, D, _, rfl, rfl, rfl⟩ := (edit_field nd h hk ht hp h1 hs).1 h'
  have hkk : Dict.keys (enc.set k ⟨L, D⟩) = enc.keys := by rw [Dict.keys_set, if_pos hk]
  rw [hd']
  congr 2
  have hnd := (decode_entries hd').2.1
  refine Dict.ext_get? hnd ?_ fun x => ?_
  · rw [Dict.keys_set, if_pos (hk1 ▸ hk), hk', hkk, hk1]
  · by_cases hx : x ∈ enc.keys
    · obtain ⟨fs', v', c1, c2, c3⟩ := hv' x (hkk ▸ hx)
      rw [c3, Dict.get?_set]
      by_cases hxk : x = k
      · subst hxk
        rw [Dict.get?_set_same] at c2; cases c2
        rw [hs] at c1; cases c1
        simp
      · rw [Dict.get?_set_ne _ _ (by simpa using hxk)] at c2
        obtain ⟨fs'', v'', b1, b2, b3⟩ := hv1 x hx
        rw [c1] at b1; cases b1
        rw [c2] at b2; cases b2
        simp [b3, hxk]
    · have hxk : x ≠ k := by rintro rfl; exact hx hk
      rw [Dict.get?_set_ne _ _ hxk, Dict.get?_eq_none.2 (by rw [hk', hkk]; exact hx), Dict.get?_eq_none.2 (by rw [hk1]; exact hx)]

/-! ## Examples -/

/-- The worked dict with another account number. -/
theorem demo_edit : encode cpython demoSpec (demoDoc.set (.str py"2") (.str py"99")) =
    (.ok (demoMsg.take 45 ++ [0x02, 0x39, 0x39] ++ demoMsg.drop 51, demoEnc.set py"2" ⟨[0x02], [0x39, 0x39]⟩),
      demoDocAfter.set (.str py"2") (.str py"99")) := by decide +kernel

example : ∃ n L D, FieldWrites cpython { dataEnc := py"ascii", lenEnc := py"bcd", lenType := 1, maxLen := 19 } (.str py"99") n L D ∧
    Dict.set demoEnc py"2" ⟨[0x02], [0x39, 0x39]⟩ = Dict.set demoEnc py"2" ⟨L, D⟩ := by
  obtain ⟨n, L, D, h1, h2, _⟩ := (edit_field (by unfold Dict.NoDup; decide) demo_encode (k := py"2") (by decide) (by decide)
    (by decide) (by decide) rfl).1 demo_edit
  exact ⟨n, L, D, h1, h2⟩

example : decode cpython demoSpec (demoMsg.take 45 ++ [0x02, 0x39, 0x39] ++ demoMsg.drop 51) =
    .ok (demoDec.set py"2" py"99", demoEnc.set py"2" ⟨[0x02], [0x39, 0x39]⟩) :=
  edit_seen demo_laws (by unfold Dict.NoDup; decide) demo_encode (k := py"2") (by decide) (by decide)
    (by decide) (by decide) rfl demo_edit demo_decode

/-- A value that is too long cannot be written: `edit_field` says that `encode` fails. -/
example : ¬ ∃ r d', encode cpython demoSpec (demoDoc.set (.str py"130") (.str py"BEEFED")) = (.ok r, d') := by
  rintro ⟨⟨s', enc'⟩, d', h⟩
  obtain ⟨n, L, D, ⟨h1, _, h3⟩, _⟩ := (edit_field (by unfold Dict.NoDup; decide) demo_encode (k := py"130") (by decide) (by decide)
    (by decide) (by decide) rfl).1 h
  rw [if_pos rfl] at h3
  have hn : (n : Int) = 2 := h3.1
  have hD : hexText D = py"BEEFED" ∧ n = D.length := h1
  have hl := congrArg List.length hD.1
  rw [hexText_length] at hl
  have : (py"BEEFED" : Str).length = 6 := rfl
  omega

/-- An instance of `edit_bytes`. -/
example : ∃ e', demoEnc.set py"2" ⟨[0x02], [0x39, 0x39]⟩ = demoEnc.take 4 ++ (py"2", e') :: demoEnc.drop 5 := by
  obtain ⟨_, e', h, _⟩ := edit_bytes (pre := demoEnc.take 4) (post := demoEnc.drop 5) (k := py"2")
    (e := ⟨[0x05], [0x31, 0x32, 0x33, 0x34, 0x35]⟩) demo_nodup demo_encode (by decide) (by decide) (by decide) demo_edit
  exact ⟨e', h⟩

end Iso8583
