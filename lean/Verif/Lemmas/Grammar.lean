import Verif.Lemmas.DecodeFault
import Verif.Spec.Grammar
/-! # The message format and the items of the decoder -/

namespace Iso8583

theorem dataValue_ok_iff {env : PyEnv} {fs : FieldSpec} {n : Int} {D : Bytes} {v : Str} (hD : D ≠ []) :
    dataValue env fs n D = .ok v ↔ DataSays env fs n D v := by
  refine ⟨dataSays_of hD, fun h => ?_⟩
  cases hv : dataValue env fs n D with
  | ok w =>
    have hw := dataSays_of hD hv
    congr 1
    unfold DataSays at h hw
    rw [if_neg hD] at h hw
    by_cases hb : fs.isBinary
    · rw [if_pos hb] at h hw
      by_cases hc : fs.inNibbles ∧ n % 2 = 1
      · rw [if_pos hc] at h hw
        by_cases hp : firstPad fs.leftPad = (hexText D).head?
        · rw [if_pos hp] at h hw
          obtain ⟨c, h⟩ := h
          obtain ⟨d, hw⟩ := hw
          rw [h] at hw
          exact (List.cons.inj hw).2.symm
        · rw [if_neg hp] at h hw
          obtain ⟨c, hc1, h⟩ := h
          obtain ⟨d, hd1, hw⟩ := hw
          rw [h] at hw
          exact (List.append_inj' hw rfl).1.symm
      · rw [if_neg hc] at h hw; rw [h, hw]
    · rw [if_neg hb] at h hw
      obtain ⟨c, hc, h⟩ := h
      obtain ⟨d, hd, hw⟩ := hw
      rw [hc] at hd; cases hd
      rw [h] at hw; cases hw; rfl
  | error x =>
    obtain ⟨m, w⟩ := x
    exfalso
    unfold DataSays at h
    rw [if_neg hD] at h
    rcases dataValue_error_iff.1 hv with ⟨_, hb, hn, ho, hl, hr, _⟩ | ⟨hb, _, _, hx⟩
    · rw [if_pos hb, if_pos ⟨hn, ho⟩] at h
      split at h
      · next hp =>
        obtain ⟨c, h⟩ := h
        rw [h] at hp
        exact hl c hp (by rw [h]; rfl)
      · obtain ⟨c, hc, h⟩ := h
        exact hr c hc (by rw [h]; simp)
    · rw [if_neg hb] at h
      obtain ⟨c, hc, h⟩ := h
      rcases hx with ⟨_, hx⟩ | ⟨_, d, hd, hx⟩
      · rw [hc] at hx; cases hx
      · rw [hc] at hd; cases hd
        rw [h] at hx; cases hx

theorem bytesFor_zero_iff {fs : FieldSpec} {n : Int} : bytesFor fs n = 0 ↔ n = 0 ∨ (fs.inNibbles ∧ n = -1) := by
  unfold bytesFor
  by_cases h : fs.inNibbles
  · rw [if_pos h]; simp only [h, true_and]; omega
  · rw [if_neg h]; simp [h]

theorem fieldReads_iff {env : PyEnv} {fs : FieldSpec} {L D : Bytes} {v : Str} :
    (∃ n, FieldReads env fs n L D v) ↔ FieldRead env fs ⟨L, D⟩ v := by
  constructor
  · rintro ⟨n, h⟩
    obtain ⟨_, h2, h3⟩ := h.says
    refine ⟨n, (unitsOf_ok_iff h.lenWidth).1 h.units, h2, h3, ?_⟩
    rintro hb hn rfl
    have hD : D = [] := by
      have : bytesFor fs (-1) = 0 := bytesFor_zero_iff.2 (.inr ⟨hn, rfl⟩)
      rw [this] at h2
      exact List.length_eq_zero_iff.1 (by simpa using h2)
    subst hD
    have := h.data (by decide)
    rw [(dataValue_error_iff (m := .padMissing 0 (-1)) (v := [])).2
      (.inl ⟨rfl, hb, hn, by decide, by simp [hexText], by simp [hexText], rfl⟩)] at this
    cases this
  · rintro ⟨n, h1, h2, h3, h4⟩
    have hw : L.length = fs.lenType := h1.1.1
    refine ⟨n, hw, (unitsOf_ok_iff hw).2 h1, ?_, by rw [bytesFor_eq]; exact h2, ?_⟩
    · rintro rfl
      have : bytesFor fs 0 = 0 := bytesFor_zero_iff.2 (.inl rfl)
      rw [this] at h2
      have hD : D = [] := List.length_eq_zero_iff.1 (by simpa using h2)
      subst hD
      exact ⟨rfl, by simpa [DataSays] using h3⟩
    · intro h0
      by_cases hD : D = []
      · subst hD
        have hn : fs.inNibbles ∧ n = -1 := by
          rcases bytesFor_zero_iff.1 (by simpa using h2.symm) with h | h
          · exact absurd h h0
          · exact h
        have hb : ¬ fs.isBinary := fun hb => h4 hb hn.1 hn.2
        have hv : v = [] := by simpa [DataSays] using h3
        subst hv
        unfold dataValue
        rw [if_neg (show ¬ fs.dataEnc = py"b" from hb)]
        simp [bytesDecode]
      · exact (dataValue_ok_iff hD).2 h3

theorem bitmapReads_iff {env : PyEnv} {fs : FieldSpec} {D : Bytes} {t : Str} {bm : Bytes} :
    BitmapReads env fs D t bm ↔ BitmapRead env fs D t bm := by
  have key : ∀ hw : D.length = bitmapBytes fs, D ≠ [] := by
    rintro hw rfl
    have := bitmapBytes_pos fs
    simp at hw; omega
  have bits : bitmapBits fs D t = some bm ↔ if fs.isBinary then bm = D else fromHex t = some bm := by
    unfold bitmapBits
    by_cases hb : fs.isBinary
    · rw [if_pos (show fs.dataEnc = py"b" from hb), if_pos hb]; simp [eq_comm]
    · rw [if_neg (show ¬ fs.dataEnc = py"b" from hb), if_neg hb]
  constructor
  · rintro ⟨h1, h2, h3⟩
    exact ⟨h1, (plainValue_ok_iff (key h1)).1 h2, bits.1 h3⟩
  · rintro ⟨h1, h2, h3⟩
    exact ⟨h1, (plainValue_ok_iff (key h1)).2 h2, bits.2 h3⟩

theorem mem_bitmapFields_announces {bm : Bytes} {off x : Nat} : x ∈ bitmapFields off bm ↔ announces bm off x := by
  rw [mem_bitmapFields]
  constructor
  · rintro ⟨i, h1, rfl, h3⟩; exact ⟨by omega, by rwa [Nat.add_sub_cancel_left]⟩
  · rintro ⟨h1, h2⟩; exact ⟨x - off, by omega, by omega, h2⟩

theorem mem_fields0_announces {bm : Bytes} {x : Nat} : x ∈ fields0 bm ↔ announces bm 0 x := by
  rw [mem_fields0, mem_bitmapFields_announces]

/-- A part as an item. -/
def Part.item (p : Part) : Item := ⟨p.key, p.entry.len, p.entry.data, p.text⟩

/-- An item as a part. -/
def Item.part (it : Item) : Part := ⟨it.key, it.entry, it.val⟩

theorem part_item (p : Part) : p.item.part = p := rfl
theorem item_part (it : Item) : it.part.item = it := rfl

theorem map_part_item (ps : List Part) : (ps.map Part.item).map Item.part = ps := by
  rw [List.map_map]; exact List.map_id ps

theorem decOf_items (ps : List Part) : decOf (ps.map Part.item) = partsDec ps := by simp [decOf, partsDec, Part.item]
theorem encOf_items (ps : List Part) : encOf (ps.map Part.item) = partsEnc ps := by
  simp [encOf, partsEnc, Part.item, Item.entry]
theorem wireOf_items (ps : List Part) : wireOf (ps.map Part.item) = wire (partsEnc ps) := by
  simp [wireOf, wire, partsEnc, Part.item, Item.wire, List.flatMap_map]

theorem headerReads_iff {env : PyEnv} {spec : Spec} {h : List Part} :
    HeaderReads env spec (h.map Part.item) ↔ HeaderPart env spec h := by
  constructor
  · rintro ⟨fs, hs, hh⟩
    refine ⟨fs, hs, ?_⟩
    split at hh
    · next hm => exact .inl ⟨hm, by simpa using hh⟩
    · next hm =>
      obtain ⟨n, it, h1, h2, h3⟩ := hh
      refine .inr ⟨by omega, it.entry, it.val, ?_, fieldReads_iff.1 ⟨n, h3⟩⟩
      have := congrArg (List.map Item.part) h1
      rw [map_part_item] at this
      rw [this, ← h2]; rfl
  · rintro ⟨fs, hs, hh⟩
    refine ⟨fs, hs, ?_⟩
    rcases hh with ⟨hm, rfl⟩ | ⟨hm, e, v, rfl, hr⟩
    · rw [if_pos hm]; rfl
    · rw [if_neg (by omega)]
      obtain ⟨n, hr⟩ := fieldReads_iff.2 hr
      exact ⟨n, _, rfl, rfl, hr⟩

theorem typeItem_iff {env : PyEnv} {spec : Spec} {t : Part} : TypeItem env spec t.item ↔ TypePart env spec t := by
  have key : ∀ {fs : FieldSpec} {D : Bytes}, D.length = typeBytes fs → D ≠ [] := by
    rintro fs D hw rfl
    have := typeBytes_pos fs
    simp at hw; omega
  constructor
  · rintro ⟨fs, hs, hk, hl, hr⟩
    obtain ⟨k, ⟨l, D⟩, v⟩ := t
    dsimp only [Part.item] at hk hl hr
    subst hk; subst hl
    exact ⟨fs, D, v, hs, rfl, hr.width, (plainValue_ok_iff (key hr.width)).1 hr.data⟩
  · rintro ⟨fs, D, v, hs, rfl, hw, hp⟩
    exact ⟨fs, hs, rfl, rfl, hw, (plainValue_ok_iff (key hw)).2 hp⟩

theorem bitmapsRead_of {env : PyEnv} {spec : Spec} {b : List Part} {P : Nat → Prop} (h : BitmapParts env spec b P) :
    ∃ F, BitmapsRead env spec (b.map Part.item) F ∧ ∀ x, x ∈ F ↔ P x ∧ x ≠ 1 ∧ x ≠ 65 := by
  have a1 : ∀ {bm : Bytes} {off : Nat}, announces bm off 1 → off = 0 := fun h => by have := h.1; omega
  cases h with
  | one hs hb h1 h65 =>
    refine ⟨_, .primary hs (bitmapReads_iff.2 hb) (mt mem_fields0_announces.1 h1) (mt mem_fields0_announces.1 h65), fun x => ?_⟩
    rw [mem_fields0_announces]
    exact ⟨fun h => ⟨h, by rintro rfl; exact h1 h, by rintro rfl; exact h65 h⟩, fun h => h.1⟩
  | two hs hb h1 hs1 hb1 h65 =>
    refine ⟨_, .secondary hs (bitmapReads_iff.2 hb) (mem_fields0_announces.2 h1) hs1 (bitmapReads_iff.2 hb1) ?_, fun x => ?_⟩
    · rw [mem_fields1, mem_fields0_announces, mem_bitmapFields_announces]
      exact fun h => h65 h.1
    · rw [mem_fields1, mem_fields0_announces, mem_bitmapFields_announces]
      exact ⟨fun h => ⟨h.1, h.2, by rintro rfl; exact h65 h.1⟩, fun h => ⟨h.1, h.2.1⟩⟩
  | three hs hb h1 hs1 hb1 h65 hb2 =>
    refine ⟨_, .tertiary hs (bitmapReads_iff.2 hb) (mem_fields0_announces.2 h1) hs1 (bitmapReads_iff.2 hb1) ?_
      (bitmapReads_iff.2 hb2), fun x => ?_⟩
    · rw [mem_fields1, mem_fields0_announces, mem_bitmapFields_announces]
      exact ⟨h65, by decide⟩
    · rw [mem_fields2, mem_fields1, mem_fields0_announces, mem_bitmapFields_announces, mem_bitmapFields_announces]
      constructor
      · rintro ⟨⟨h, hx⟩ | h, h65⟩
        · exact ⟨h.elim .inl (.inr ∘ .inl), hx, h65⟩
        · exact ⟨.inr (.inr h), by rintro rfl; have := a1 h; omega, h65⟩
      · rintro ⟨h | h | h, hx, h65⟩
        · exact ⟨.inl ⟨.inl h, hx⟩, h65⟩
        · exact ⟨.inl ⟨.inr h, hx⟩, h65⟩
        · exact ⟨.inr h, h65⟩
  | wide hs hb h1 h65 hb2 =>
    refine ⟨_, .oddPrimary hs (bitmapReads_iff.2 hb) (mt mem_fields0_announces.1 h1) (mem_fields0_announces.2 h65)
      (bitmapReads_iff.2 hb2), fun x => ?_⟩
    rw [mem_fields2, mem_fields0_announces, mem_bitmapFields_announces]
    constructor
    · rintro ⟨h, hx⟩
      refine ⟨h, ?_, hx⟩
      rintro rfl
      rcases h with h | h
      · exact h1 h
      · have := a1 h; omega
    · rintro ⟨h, _, hx⟩; exact ⟨h, hx⟩

theorem bitmapParts_of {env : PyEnv} {spec : Spec} {b : List Item} {F : List Nat} (h : BitmapsRead env spec b F) :
    ∃ P, BitmapParts env spec (b.map Item.part) P ∧ ∀ x, x ∈ F ↔ P x ∧ x ≠ 1 ∧ x ≠ 65 := by
  cases h with
  | primary hs hb h1 h65 =>
    refine ⟨_, .one hs (bitmapReads_iff.1 hb) (mt mem_fields0_announces.2 h1) (mt mem_fields0_announces.2 h65), fun x => ?_⟩
    rw [mem_fields0_announces]
    exact ⟨fun h => ⟨h, by rintro rfl; exact h1 (mem_fields0_announces.2 h), by
      rintro rfl; exact h65 (mem_fields0_announces.2 h)⟩, fun h => h.1⟩
  | secondary hs hb h1 hs1 hb1 h65 =>
    have h65' := h65
    rw [mem_fields1, mem_fields0_announces, mem_bitmapFields_announces] at h65'
    refine ⟨_, .two hs (bitmapReads_iff.1 hb) (mem_fields0_announces.1 h1) hs1 (bitmapReads_iff.1 hb1)
      fun h => h65' ⟨h, by decide⟩, fun x => ?_⟩
    rw [mem_fields1, mem_fields0_announces, mem_bitmapFields_announces]
    exact ⟨fun h => ⟨h.1, h.2, by rintro rfl; exact h65' h⟩, fun h => ⟨h.1, h.2.1⟩⟩
  | tertiary hs hb h1 hs1 hb1 h65 hb2 =>
    rw [mem_fields1, mem_fields0_announces, mem_bitmapFields_announces] at h65
    refine ⟨_, .three hs (bitmapReads_iff.1 hb) (mem_fields0_announces.1 h1) hs1 (bitmapReads_iff.1 hb1) h65.1
      (bitmapReads_iff.1 hb2), fun x => ?_⟩
    rw [mem_fields2, mem_fields1, mem_fields0_announces, mem_bitmapFields_announces, mem_bitmapFields_announces]
    constructor
    · rintro ⟨⟨h, hx⟩ | h, h65⟩
      · exact ⟨h.elim .inl (.inr ∘ .inl), hx, h65⟩
      · exact ⟨.inr (.inr h), by rintro rfl; have := h.1; omega, h65⟩
    · rintro ⟨h | h | h, hx, h65⟩
      · exact ⟨.inl ⟨.inl h, hx⟩, h65⟩
      · exact ⟨.inl ⟨.inr h, hx⟩, h65⟩
      · exact ⟨.inr h, h65⟩
  | oddPrimary hs hb h1 h65 hb2 =>
    refine ⟨_, .wide hs (bitmapReads_iff.1 hb) (mt mem_fields0_announces.2 h1) (mem_fields0_announces.1 h65)
      (bitmapReads_iff.1 hb2), fun x => ?_⟩
    rw [mem_fields2, mem_fields0_announces, mem_bitmapFields_announces]
    constructor
    · rintro ⟨h, hx⟩
      refine ⟨h, ?_, hx⟩
      rintro rfl
      rcases h with h | h
      · exact h1 (mem_fields0_announces.2 h)
      · have := h.1; omega
    · rintro ⟨h, _, hx⟩; exact ⟨h, hx⟩

theorem fieldsRead_iff {env : PyEnv} {spec : Spec} : ∀ {is : List Nat} {f : List Part},
    FieldsRead env spec is (f.map Part.item) ↔
      f.map Part.key = is.map natStr ∧ ∀ p ∈ f, ∃ fs, spec.get? p.key = some fs ∧ FieldRead env fs p.entry p.text
  | [], [] => by simpa using FieldsRead.nil
  | [], p :: f => by
    constructor
    · intro h; cases h
    · rintro ⟨h, _⟩; simp at h
  | i :: is, [] => by
    constructor
    · intro h; cases h
    · rintro ⟨h, _⟩; simp at h
  | i :: is, p :: f => by
    constructor
    · intro h
      cases h with
      | cons hs hk hr hrest =>
        obtain ⟨h1, h2⟩ := fieldsRead_iff.1 hrest
        have hk' : p.key = natStr i := hk
        refine ⟨by simp [h1, hk'], ?_⟩
        intro q hq
        rcases List.mem_cons.1 hq with rfl | hq
        · exact ⟨_, by rw [hk']; exact hs, fieldReads_iff.1 ⟨_, hr⟩⟩
        · exact h2 q hq
    · rintro ⟨h1, h2⟩
      simp only [List.map_cons, List.cons.injEq] at h1
      obtain ⟨fs, hs, hr⟩ := h2 p (by simp)
      obtain ⟨n, hr⟩ := fieldReads_iff.2 hr
      exact .cons (by rw [← h1.1]; exact hs) h1.1 hr (fieldsRead_iff.2 ⟨h1.2, fun q hq => h2 q (by simp [hq])⟩)

theorem msgReads_iff {env : PyEnv} {spec : Spec} {ps : List Part} :
    MsgReads env spec (ps.map Part.item) ↔ Message env spec ps := by
  constructor
  · rintro ⟨hdr, ty, bms, flds, F, he, hh, ht, hb, hf⟩
    have hps := congrArg (List.map Item.part) he
    rw [map_part_item] at hps
    obtain ⟨P, hb', hF⟩ := bitmapParts_of hb
    have back : ∀ l : List Item, (l.map Item.part).map Part.item = l := fun l => by
      rw [List.map_map]; exact List.map_id l
    obtain ⟨f1, f2⟩ := fieldsRead_iff.1 ((back flds).symm ▸ hf)
    refine ⟨hdr.map Item.part, ty.part, bms.map Item.part, flds.map Item.part, P, sortedNat F, ?_, ?_, ?_, hb',
      sortedNat_lt hb.fields.1, ?_, f1, f2⟩
    · simpa using hps
    · exact headerReads_iff.1 ((back hdr).symm ▸ hh)
    · exact typeItem_iff.1 ht
    · intro i; rw [mem_sortedNat]; exact hF i
  · rintro ⟨h, t, b, f, P, F, rfl, hh, ht, hb, hF, hm, hk, hf⟩
    obtain ⟨G, hb', hG⟩ := bitmapsRead_of hb
    refine ⟨h.map Part.item, t.item, b.map Part.item, f.map Part.item, G, by simp, headerReads_iff.2 hh, typeItem_iff.2 ht,
      hb', ?_⟩
    have : sortedNat G = F := sorted_lt_ext (sortedNat_lt hb'.fields.1) hF fun x => by rw [mem_sortedNat, hG, hm]
    rw [this]
    exact fieldsRead_iff.2 ⟨hk, hf⟩

end Iso8583
