import Verif.Lemmas.GrammarEncode
import Verif.Lemmas.EncodeFault
import Verif.Props.Demo
/-!
# The exact inputs `decode` and `encode` accept, and what they return (C54, C55, C56)
-/

namespace Iso8583

/-! ## C54 -/

/-- `decode` accepts exactly the messages, and returns their parts. -/
theorem decode_iff {env : PyEnv} {spec : Spec} {s : Bytes} {dec : DecDoc} {enc : EncDoc} :
    decode env spec s = .ok (dec, enc) ↔
      ∃ ps, Message env spec ps ∧ dec = partsDec ps ∧ enc = partsEnc ps ∧ s = wire enc := by
  rw [decode_ok_iff]
  constructor
  · rintro ⟨items, h, rfl, rfl, rfl⟩
    have back : (items.map Item.part).map Part.item = items := by rw [List.map_map]; exact List.map_id items
    refine ⟨items.map Item.part, msgReads_iff.1 (back.symm ▸ h), ?_, ?_, ?_⟩
    · rw [← decOf_items, back]
    · rw [← encOf_items, back]
    · rw [wire_encOf]
  · rintro ⟨ps, h, rfl, rfl, rfl⟩
    exact ⟨ps.map Part.item, msgReads_iff.2 h, wireOf_items ps, (decOf_items ps).symm, (encOf_items ps).symm⟩

/-- The format is unambiguous and self-delimiting: two messages that start the same byte string
have the same parts. -/
theorem message_unique {env : PyEnv} {spec : Spec} {ps qs : List Part} {r r' : Bytes} (hp : Message env spec ps)
    (hq : Message env spec qs) (h : wire (partsEnc ps) ++ r = wire (partsEnc qs) ++ r') : ps = qs := by
  rw [← wireOf_items, ← wireOf_items] at h
  have := MsgReads.unique (msgReads_iff.2 hp) (msgReads_iff.2 hq) h
  rw [← map_part_item ps, this, map_part_item]

example : ∃ ps, Message cpython demoSpec ps ∧ demoDec = partsDec ps ∧ demoEnc = partsEnc ps ∧ demoMsg = wire demoEnc :=
  decode_iff.1 demo_decode

/-! ## C55 -/

/-- `encode` accepts exactly the dicts that can be written, and returns that message. -/
theorem encode_iff {env : PyEnv} {spec : Spec} {doc doc' : Doc} {s : Bytes} {enc : EncDoc} (nd : doc.NoDup) :
    encode env spec doc = (.ok (s, enc), doc') ↔
      ∃ ps b, Written env spec doc ps b ∧ enc = partsEnc ps ∧ s = wire enc ∧ doc' = docAfter doc b :=
  encode_written_iff nd

example : ∃ ps b, Written cpython demoSpec demoDoc ps b ∧ demoEnc = partsEnc ps ∧ demoMsg = wire demoEnc ∧
    demoDocAfter = docAfter demoDoc b :=
  (encode_iff (by unfold Dict.NoDup; decide)).1 demo_encode

/-- `encode` succeeds exactly when header, type, bitmaps and every field can be written, keys are
usable and numbers are field numbers. -/
theorem encode_succeeds_iff {env : PyEnv} {spec : Spec} {doc : Doc} (nd : doc.NoDup) :
    (∃ r doc', encode env spec doc = (.ok r, doc')) ↔
      HeaderReady env spec doc ∧ TypeReady env spec doc ∧ NumbersParse env doc ∧
      (∀ n, Numbered env doc n → 1 ≤ n ∧ n ≤ 192) ∧ BitmapsReady env spec (Flagged env doc) ∧
      ∀ i : Nat, Numbered env doc i → i ≠ 1 → i ≠ 65 → FieldReady env spec doc i := by
  constructor
  · rintro ⟨⟨s, enc⟩, doc', h⟩
    obtain ⟨ps, b, ⟨hp, hr, h, t, f, F, _, hh, ht, hb, _, hF, hk, hf⟩, _⟩ := (encode_iff nd).1 h
    refine ⟨?_, ?_, hp, hr, ?_, ?_⟩
    · obtain ⟨fs, hs, ⟨hm, _⟩ | ⟨hm, p, _, hpk, fs', v, n, h1, h2, h3, _⟩⟩ := hh
      · exact ⟨fs, hs, .inl hm⟩
      · rw [hpk] at h1 h2
        rw [hs] at h1; cases h1
        exact ⟨fs, hs, .inr ⟨v, n, _, _, h2, h3⟩⟩
    · obtain ⟨fs, v, D, h1, h2, _, h3, h4⟩ := ht
      exact ⟨fs, v, D, h1, h2, h3, h4⟩
    · cases hb with
      | one h1 hs hw => exact ⟨_, hs, ⟨_, _, hw⟩, fun h => absurd h h1⟩
      | two h1 h65 hs hw hs1 hw1 => exact ⟨_, hs, ⟨_, _, hw⟩, fun _ => ⟨_, hs1, ⟨_, _, hw1⟩, fun h => absurd h h65⟩⟩
      | three h1 h65 hs hw hs1 hw1 hw2 => exact ⟨_, hs, ⟨_, _, hw⟩, fun _ => ⟨_, hs1, ⟨_, _, hw1⟩, fun _ => ⟨_, _, hw2⟩⟩⟩
    · intro i hi h1 h65
      have : natStr i ∈ f.map Part.key := by
        rw [hk]; exact List.mem_map.2 ⟨i, (hF i).2 ⟨hi, h1, h65⟩, rfl⟩
      obtain ⟨p, hp, e⟩ := List.mem_map.1 this
      obtain ⟨fs, v, n, a1, a2, a3, _⟩ := hf p hp
      rw [e] at a1 a2
      exact ⟨fs, v, n, _, _, a1, a2, a3⟩
  · rintro ⟨hh, ht, hp, hr, hb, hf⟩
    obtain ⟨hdr, hh⟩ := headerReady_iff.1 hh
    obtain ⟨ty, ht⟩ := typeReady_iff.1 ht
    have back : ∀ l : List Item, (l.map Item.part).map Part.item = l := fun l => by
      rw [List.map_map]; exact List.map_id l
    have hh : HeaderPartWritten env spec doc (hdr.map Item.part) := headerWrites_iff.1 (by rw [back]; exact hh)
    have ht : TypePartWritten env spec doc ty.part := typeWrites_iff.1 ht
    obtain ⟨b, hb⟩ : ∃ b, BitmapPartsWritten env spec (Flagged env doc) b := by
      obtain ⟨fs, hs, ⟨D, t, hw⟩, h⟩ := hb
      by_cases h1 : Flagged env doc 1
      · obtain ⟨fs1, hs1, ⟨D1, t1, hw1⟩, h⟩ := h h1
        by_cases h65 : Flagged env doc 65
        · obtain ⟨D2, t2, hw2⟩ := h h65
          exact ⟨_, .three h1 h65 hs hw hs1 hw1 hw2⟩
        · exact ⟨_, .two h1 h65 hs hw hs1 hw1⟩
      · exact ⟨_, .one h1 hs hw⟩
    obtain ⟨ns, hn⟩ := numsOf_of_parse nd hp
    have hm := (numsOf_ok nd hn).2
    have hF : ∀ i : Nat, i ∈ sortedNat (setRemove (setRemove (setUpdate [] (ns.map Int.toNat)) 1) 65) ↔
        Numbered env doc i ∧ i ≠ 1 ∧ i ≠ 65 := by
      intro i
      rw [mem_sortedNat, mem_setRemove, mem_setRemove, mem_setUpdate, ← hm]
      constructor
      · rintro ⟨⟨h | h, h1⟩, h65⟩
        · cases h
        · obtain ⟨x, hx, rfl⟩ := List.mem_map.1 h
          have := hr x ((hm x).1 hx)
          exact ⟨by rwa [Int.toNat_of_nonneg (by omega)], h1, h65⟩
      · rintro ⟨h, h1, h65⟩
        exact ⟨⟨.inr (List.mem_map.2 ⟨(i : Int), h, by simp⟩), h1⟩, h65⟩
    have hlt := sortedNat_lt (nodup_setRemove (x := 65) (nodup_setRemove (x := 1)
      (nodup_setUpdate (xs := ns.map Int.toNat) List.nodup_nil)))
    generalize sortedNat (setRemove (setRemove (setUpdate [] (ns.map Int.toNat)) 1) 65) = F at hF hlt
    have parts : ∀ G : List Nat, (∀ i ∈ G, Numbered env doc i ∧ i ≠ 1 ∧ i ≠ 65) →
        ∃ f : List Part, f.map Part.key = G.map natStr ∧ ∀ p ∈ f, FieldPartWritten env spec doc p := by
      intro G
      induction G with
      | nil => intro _; exact ⟨[], rfl, by simp⟩
      | cons i G ih =>
        intro h
        obtain ⟨f, h1, h2⟩ := ih fun j hj => h j (by simp [hj])
        obtain ⟨a, b, c⟩ := h i (by simp)
        obtain ⟨fs, v, n, L, D, a1, a2, a3⟩ := hf i a b c
        refine ⟨⟨natStr i, ⟨L, D⟩, readBack fs v⟩ :: f, by simp [h1], ?_⟩
        intro p hp
        rcases List.mem_cons.1 hp with rfl | hp
        · exact ⟨fs, v, n, a1, a2, a3, rfl⟩
        · exact h2 p hp
    obtain ⟨f, h1, h2⟩ := parts F fun i hi => (hF i).1 hi
    exact ⟨(_, _), _, (encode_iff nd).2 ⟨_, b, ⟨hp, hr, _, _, f, F, rfl, hh, ht, hb, hlt, hF, h1, h2⟩, rfl, rfl, rfl⟩⟩

/-- It applies to the worked dict. -/
example : TypeReady cpython demoSpec demoDoc ∧ FieldReady cpython demoSpec demoDoc 130 := by
  obtain ⟨_, h2, _, _, _, h6⟩ := (encode_succeeds_iff (by unfold Dict.NoDup; decide)).1 ⟨_, _, demo_encode⟩
  exact ⟨h2, h6 130 ⟨py"130", by decide, by decide, by decide, by decide, by decide⟩ (by decide) (by decide)⟩

/-- An instance of `message_unique`. -/
example (ps qs : List Part) (r : Bytes) (hp : Message cpython demoSpec ps) (hq : Message cpython demoSpec qs)
    (h : wire (partsEnc ps) = demoMsg) (h' : wire (partsEnc qs) ++ r = demoMsg) : ps = qs :=
  message_unique (r := []) hp hq (by rw [h, h', List.append_nil])

end Iso8583
