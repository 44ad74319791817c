import Verif.Props.SpecLocal
/-!
# Extending a specification (C69)

A specification is extended by adding fields and by raising `max_len` of fields with a length
prefix.
-/

namespace Iso8583

/-- Entry `b` of field `k` extends entry `a`: `max_len` may be larger if the field has a length
prefix, and the description may differ.  A header is not introduced. -/
structure Wider (k : Str) (a b : FieldSpec) : Prop where
  same : b = { a with maxLen := b.maxLen, desc := b.desc }
  fixed : a.lenType = 0 → b.maxLen = a.maxLen
  more : a.maxLen ≤ b.maxLen
  header : k = py"h" → a.maxLen ≤ 0 → b.maxLen ≤ 0

/-- Specification `B` extends specification `A`. -/
def Extends (A B : Spec) : Prop := ∀ k a, A.get? k = some a → ∃ b, B.get? k = some b ∧ Wider k a b

/-- The length prefix of entry `e` stays within `max_len`. -/
def PrefixWithin (env : PyEnv) (fs : FieldSpec) (e : EncEntry) : Prop :=
  fs.lenType ≠ 0 → ∃ n, declared env fs e.len = some n ∧ n ≤ fs.maxLen

/-- The value `v`, written as `D`, stays within `max_len`. -/
def ValueWithin (env : PyEnv) (fs : FieldSpec) (v : Val) (D : Bytes) : Prop :=
  fs.lenType ≠ 0 → ∃ n, DataWrites env fs v n D ∧ (n : Int) ≤ fs.maxLen

section
variable {env : PyEnv} {k : Str} {a b : FieldSpec}

theorem Wider.binary (w : Wider k a b) : b.isBinary ↔ a.isBinary := by rw [w.same]; exact Iff.rfl

theorem Wider.plain (w : Wider k a b) {D : Bytes} {t : Str} : PlainSays env b D t ↔ PlainSays env a D t := by
  rw [w.same]; exact Iff.rfl

theorem Wider.bitmap (w : Wider k a b) {D : Bytes} {t : Str} {bm : Bytes} :
    BitmapRead env b D t bm ↔ BitmapRead env a D t bm := by rw [w.same]; exact Iff.rfl

theorem Wider.bitmapW (w : Wider k a b) {A : Nat → Prop} {o : Nat} {D : Bytes} {t : Str} :
    BitmapWritten env b A o D t ↔ BitmapWritten env a A o D t := by rw [w.same]; exact Iff.rfl

theorem Wider.declared (w : Wider k a b) {L : Bytes} : Iso8583.declared env b L = Iso8583.declared env a L := by
  rw [w.same]; rfl

theorem Wider.writes (w : Wider k a b) {v : Val} {n : Nat} {D : Bytes} : DataWrites env b v n D ↔ DataWrites env a v n D := by
  rw [w.same]; exact Iff.rfl

theorem Wider.units (w : Wider k a b) {L : Bytes} {n : Int} :
    UnitsRead env a L n ↔ UnitsRead env b L n ∧ (a.lenType ≠ 0 → n ≤ a.maxLen) := by
  have e1 : b.lenType = a.lenType := by rw [w.same]
  have e2 : b.lenEnc = a.lenEnc := by rw [w.same]
  unfold UnitsRead UnitsAre
  rw [e1, e2, w.declared]
  by_cases h0 : a.lenType = 0
  · simp only [h0, if_true, w.fixed h0]
    simp
  · simp only [h0, if_false]
    constructor
    · rintro ⟨⟨h1, h2, h3⟩, h4⟩
      exact ⟨⟨⟨h1, h2, Int.le_trans h3 w.more⟩, h4⟩, fun _ => h3⟩
    · rintro ⟨⟨⟨h1, h2, _⟩, h4⟩, h3⟩
      exact ⟨⟨h1, h2, h3 h0⟩, h4⟩

theorem Wider.read (w : Wider k a b) {e : EncEntry} {v : Str} :
    FieldRead env a e v ↔ FieldRead env b e v ∧ PrefixWithin env a e := by
  have hd : ∀ n, DataSays env b n e.data v ↔ DataSays env a n e.data v := by intro n; rw [w.same]; exact Iff.rfl
  have hb : ∀ n, bytesFor b n = bytesFor a n := by intro n; rw [w.same]; rfl
  have hn : b.inNibbles ↔ a.inNibbles := by rw [w.same]; exact Iff.rfl
  unfold FieldRead
  simp only [hd, hb, hn, w.binary]
  constructor
  · rintro ⟨n, h1, h2⟩
    refine ⟨⟨n, (w.units.1 h1).1, h2⟩, fun h0 => ?_⟩
    have := h1.1.2
    rw [if_neg h0] at this
    exact ⟨n, this⟩
  · rintro ⟨⟨n, h1, h2⟩, h3⟩
    refine ⟨n, w.units.2 ⟨h1, fun h0 => ?_⟩, h2⟩
    obtain ⟨m, h4, h5⟩ := h3 h0
    have e1 : b.lenType = a.lenType := by rw [w.same]
    have := h1.1.2
    rw [e1, if_neg h0, w.declared, h4] at this
    cases this.1
    exact h5

theorem Wider.fieldWrites (w : Wider k a b) {v : Val} {n : Nat} {L D : Bytes} :
    FieldWrites env a v n L D ↔ FieldWrites env b v n L D ∧ ValueWithin env a v D := by
  have e1 : b.lenType = a.lenType := by rw [w.same]
  have hp : PrefixWrites env b n L ↔ PrefixWrites env a n L := by rw [w.same]; exact Iff.rfl
  have hh : v.Hexable b ↔ v.Hexable a := by rw [w.same]; exact Iff.rfl
  constructor
  · rintro ⟨h1, h2, h3⟩
    refine ⟨⟨w.writes.2 h1, fun h => hh.2 (h2 (w.binary.1 h)), ?_⟩, fun h0 => ?_⟩
    · rw [e1, hp]
      by_cases h0 : a.lenType = 0
      · rw [if_pos h0, w.fixed h0]; rw [if_pos h0] at h3; exact h3
      · rw [if_neg h0]; rw [if_neg h0] at h3; exact ⟨Int.le_trans h3.1 w.more, h3.2⟩
    · rw [if_neg h0] at h3
      exact ⟨n, h1, h3.1⟩
  · rintro ⟨⟨h1, h2, h3⟩, h4⟩
    refine ⟨w.writes.1 h1, fun h => hh.1 (h2 (w.binary.2 h)), ?_⟩
    rw [e1, hp] at h3
    by_cases h0 : a.lenType = 0
    · rw [if_pos h0]; rw [if_pos h0, w.fixed h0] at h3; exact h3
    · rw [if_neg h0]; rw [if_neg h0] at h3
      obtain ⟨m, h5, h6⟩ := h4 h0
      have := dataWrites_units (w.writes.1 h1) h5
      subst this
      exact ⟨h6, h3.2⟩

end

/-! ## Decode -/

/-- Type and bitmaps have no length of their own. -/
def Plain (k : Str) : Prop := k = py"t" ∨ k = py"p" ∨ k = py"1"

/-- `A` knows the header and every key of the result, and its limits are kept. -/
def ReadWithin (env : PyEnv) (A : Spec) (enc : EncDoc) : Prop :=
  (∃ a, A.get? py"h" = some a) ∧
  ∀ k e, (k, e) ∈ enc → ∃ a, A.get? k = some a ∧ (¬ Plain k → PrefixWithin env a e)

theorem natStr_not_plain {i : Nat} (hi : i ≠ 1) : ¬ Plain (natStr i) := by
  rintro (h | h | h)
  · exact natStr_ne_letter (by omega) h
  · exact natStr_ne_letter (by omega) h
  · exact natStr_ne_one hi h

theorem header_not_plain : ¬ Plain py"h" := by rintro (h | h | h) <;> exact absurd h (by decide)

theorem mem_partsEnc {ps : List Part} {p : Part} (h : p ∈ ps) : (p.key, p.entry) ∈ partsEnc ps := List.mem_map.2 ⟨p, h, rfl⟩

theorem parts_not_plain {f : List Part} {F : List Nat} (hk : f.map Part.key = F.map natStr) (h1 : 1 ∉ F) {p : Part} (hp : p ∈ f) :
    ¬ Plain p.key := by
  have : p.key ∈ F.map natStr := by rw [← hk]; exact List.mem_map.2 ⟨p, hp, rfl⟩
  obtain ⟨i, hi, e⟩ := List.mem_map.1 this
  rw [← e]
  exact natStr_not_plain fun e => h1 (e ▸ hi)

section
variable {env : PyEnv} {A B : Spec}

theorem bitmapParts_extends (hx : Extends A B) {b : List Part} {P : Nat → Prop} :
    BitmapParts env A b P ↔ BitmapParts env B b P ∧ ∀ p ∈ b, ∃ a, A.get? p.key = some a := by
  constructor
  · intro h
    cases h with
    | one hs hb h1 h65 =>
      obtain ⟨_, hs', w⟩ := hx _ _ hs
      refine ⟨.one hs' (w.bitmap.2 hb) h1 h65, ?_⟩
      simpa using ⟨_, hs⟩
    | two hs hb h1 hs1 hb1 h65 =>
      obtain ⟨_, hs', w⟩ := hx _ _ hs
      obtain ⟨_, hs1', w1⟩ := hx _ _ hs1
      refine ⟨.two hs' (w.bitmap.2 hb) h1 hs1' (w1.bitmap.2 hb1) h65, ?_⟩
      simpa using ⟨⟨_, hs⟩, ⟨_, hs1⟩⟩
    | three hs hb h1 hs1 hb1 h65 hb2 =>
      obtain ⟨_, hs', w⟩ := hx _ _ hs
      obtain ⟨_, hs1', w1⟩ := hx _ _ hs1
      refine ⟨.three hs' (w.bitmap.2 hb) h1 hs1' (w1.bitmap.2 hb1) h65 (w1.bitmap.2 hb2), ?_⟩
      simpa using ⟨⟨_, hs⟩, ⟨_, hs1⟩⟩
    | wide hs hb h1 h65 hb2 =>
      obtain ⟨_, hs', w⟩ := hx _ _ hs
      refine ⟨.wide hs' (w.bitmap.2 hb) h1 h65 (w.bitmap.2 hb2), ?_⟩
      simpa using ⟨_, hs⟩
  · rintro ⟨h, hk⟩
    have get : ∀ {k b}, B.get? k = some b → (∃ a, A.get? k = some a) → ∃ a, A.get? k = some a ∧ Wider k a b := by
      rintro k b hb ⟨a, ha⟩
      obtain ⟨b', hb', w⟩ := hx _ _ ha
      rw [hb] at hb'; cases hb'
      exact ⟨a, ha, w⟩
    cases h with
    | one hs hb h1 h65 =>
      obtain ⟨_, hs', w⟩ := get hs (hk ⟨py"p", _, _⟩ (.head _))
      exact .one hs' (w.bitmap.1 hb) h1 h65
    | two hs hb h1 hs1 hb1 h65 =>
      obtain ⟨_, hs', w⟩ := get hs (hk ⟨py"p", _, _⟩ (.head _))
      obtain ⟨_, hs1', w1⟩ := get hs1 (hk ⟨py"1", _, _⟩ (.tail _ (.head _)))
      exact .two hs' (w.bitmap.1 hb) h1 hs1' (w1.bitmap.1 hb1) h65
    | three hs hb h1 hs1 hb1 h65 hb2 =>
      obtain ⟨_, hs', w⟩ := get hs (hk ⟨py"p", _, _⟩ (.head _))
      obtain ⟨_, hs1', w1⟩ := get hs1 (hk ⟨py"1", _, _⟩ (.tail _ (.head _)))
      exact .three hs' (w.bitmap.1 hb) h1 hs1' (w1.bitmap.1 hb1) h65 (w1.bitmap.1 hb2)
    | wide hs hb h1 h65 hb2 =>
      obtain ⟨_, hs', w⟩ := get hs (hk ⟨py"p", _, _⟩ (.head _))
      exact .wide hs' (w.bitmap.1 hb) h1 h65 (w.bitmap.1 hb2)

theorem message_extends (hx : Extends A B) {ps : List Part} :
    Message env A ps ↔ Message env B ps ∧ ReadWithin env A (partsEnc ps) := by
  have get : ∀ {k b}, B.get? k = some b → (∃ a, A.get? k = some a) → ∃ a, A.get? k = some a ∧ Wider k a b := by
    rintro k b hb ⟨a, ha⟩
    obtain ⟨b', hb', w⟩ := hx _ _ ha
    rw [hb] at hb'; cases hb'
    exact ⟨a, ha, w⟩
  constructor
  · rintro ⟨h, t, b, f, P, F, rfl, ⟨fs, hs, hh⟩, ⟨ft, D, v, hst, rfl, hl, ht⟩, hb, hF, hm, hk, hf⟩
    have h1 : 1 ∉ F := fun h => ((hm 1).1 h).2.1 rfl
    obtain ⟨fs', hs', w⟩ := hx _ _ hs
    obtain ⟨ft', hst', wt⟩ := hx _ _ hst
    obtain ⟨hb', hkb⟩ := (bitmapParts_extends hx).1 hb
    refine ⟨⟨h, _, b, f, P, F, rfl, ⟨fs', hs', ?_⟩, ⟨ft', D, v, hst', rfl, ?_, wt.plain.2 ht⟩, hb', hF, hm, hk, ?_⟩, ⟨fs, hs⟩, ?_⟩
    · rcases hh with ⟨hm, rfl⟩ | ⟨hm, e, v, rfl, hr⟩
      · exact .inl ⟨w.header rfl hm, rfl⟩
      · exact .inr ⟨Int.lt_of_lt_of_le hm w.more, e, v, rfl, (w.read.1 hr).1⟩
    · rw [hl]; unfold typeBytes; simp only [wt.binary]
    · intro p hp
      obtain ⟨fp, hsp, hr⟩ := hf p hp
      obtain ⟨fp', hsp', wp⟩ := hx _ _ hsp
      exact ⟨fp', hsp', (wp.read.1 hr).1⟩
    · intro k e hke
      obtain ⟨p, hp, he⟩ := List.mem_map.1 hke
      cases he
      simp only [List.append_assoc, List.cons_append, List.mem_append, List.mem_cons] at hp
      rcases hp with hp | rfl | hp | hp
      · rcases hh with ⟨_, rfl⟩ | ⟨_, e, v, rfl, hr⟩
        · cases hp
        · cases List.mem_singleton.1 hp
          exact ⟨fs, hs, fun _ => (w.read.1 hr).2⟩
      · exact ⟨ft, hst, fun h => absurd (.inl rfl) h⟩
      · obtain ⟨a, ha⟩ := hkb p hp
        refine ⟨a, ha, fun h => absurd ?_ h⟩
        cases hb <;> simp only [List.mem_cons, List.not_mem_nil, or_false] at hp <;>
          first
          | (rcases hp with rfl | rfl; exact .inr (.inl rfl); exact .inr (.inr rfl))
          | (subst hp; exact .inr (.inl rfl))
      · obtain ⟨fp, hsp, hr⟩ := hf p hp
        obtain ⟨fp', hsp', wp⟩ := hx _ _ hsp
        exact ⟨fp, hsp, fun _ => (wp.read.1 hr).2⟩
  · rintro ⟨⟨h, t, b, f, P, F, rfl, ⟨fs, hs, hh⟩, ⟨ft, D, v, hst, rfl, hl, ht⟩, hb, hF, hm, hk, hf⟩, hH, hw⟩
    have h1 : 1 ∉ F := fun h => ((hm 1).1 h).2.1 rfl
    have hw : ∀ p, p ∈ h ∨ p = ⟨py"t", ⟨[], D⟩, v⟩ ∨ p ∈ b ∨ p ∈ f → ∃ a, A.get? p.key = some a ∧ (¬ Plain p.key → PrefixWithin env a p.entry) := by
      intro p hp
      refine hw _ _ (mem_partsEnc ?_)
      simpa using hp
    obtain ⟨fs', hs', w⟩ := get hs hH
    obtain ⟨ft', hst', wt⟩ := get hst (let ⟨a, h, _⟩ := hw _ (.inr (.inl rfl)); ⟨a, h⟩)
    refine ⟨h, _, b, f, P, F, rfl, ⟨fs', hs', ?_⟩, ⟨ft', D, v, hst', rfl, ?_, wt.plain.1 ht⟩,
      (bitmapParts_extends hx).2 ⟨hb, fun p hp => let ⟨a, h, _⟩ := hw p (.inr (.inr (.inl hp))); ⟨a, h⟩⟩, hF, hm, hk, ?_⟩
    · rcases hh with ⟨hm, rfl⟩ | ⟨hm, e, v, rfl, hr⟩
      · exact .inl ⟨Int.le_trans w.more hm, rfl⟩
      · refine .inr ⟨?_, e, v, rfl, w.read.2 ⟨hr, ?_⟩⟩
        · have := w.header rfl
          omega
        · obtain ⟨a, ha, hp⟩ := hw _ (.inl (List.mem_singleton.2 rfl))
          rw [hs'] at ha; cases ha
          exact hp header_not_plain
    · rw [hl]; unfold typeBytes; simp only [wt.binary]
    · intro p hp
      obtain ⟨fp, hsp, hr⟩ := hf p hp
      obtain ⟨a, ha, hpw⟩ := hw p (.inr (.inr (.inr hp)))
      obtain ⟨fp', hsp', wp⟩ := get hsp ⟨a, ha⟩
      rw [hsp'] at ha; cases ha
      exact ⟨_, hsp', wp.read.2 ⟨hr, hpw (parts_not_plain hk h1 hp)⟩⟩

/-- **C69** (decode): if `B` extends `A`, then `A` decodes exactly the messages that `B` decodes,
to the same dicts, and whose keys `A` knows and whose lengths keep the limits of `A`. -/
theorem decode_extends (hx : Extends A B) {s : Bytes} {dec : DecDoc} {enc : EncDoc} :
    decode env A s = .ok (dec, enc) ↔ decode env B s = .ok (dec, enc) ∧ ReadWithin env A enc := by
  rw [decode_iff, decode_iff]
  constructor
  · rintro ⟨ps, hm, rfl, rfl, rfl⟩
    obtain ⟨h1, h2⟩ := (message_extends hx).1 hm
    exact ⟨⟨ps, h1, rfl, rfl, rfl⟩, h2⟩
  · rintro ⟨⟨ps, hm, rfl, rfl, rfl⟩, h2⟩
    exact ⟨ps, (message_extends hx).2 ⟨hm, h2⟩, rfl, rfl, rfl⟩

/-! ## Encode -/

/-- `A` knows the header and every key of the result, and its limits are kept. -/
def WrittenWithin (env : PyEnv) (A : Spec) (doc : Doc) (enc : EncDoc) : Prop :=
  (∃ a, A.get? py"h" = some a) ∧
  ∀ k e, (k, e) ∈ enc → ∃ a, A.get? k = some a ∧
    (¬ Plain k → ∃ v, doc.get? (.str k) = some v ∧ ValueWithin env a v e.data)

theorem bitmapPartsWritten_extends (hx : Extends A B) {b : List Part} {P : Nat → Prop} :
    BitmapPartsWritten env A P b ↔ BitmapPartsWritten env B P b ∧ ∀ p ∈ b, ∃ a, A.get? p.key = some a := by
  constructor
  · intro h
    cases h with
    | one h1 hs hb =>
      obtain ⟨_, hs', w⟩ := hx _ _ hs
      refine ⟨.one h1 hs' (w.bitmapW.2 hb), ?_⟩
      simpa using ⟨_, hs⟩
    | two h1 h65 hs hb hs1 hb1 =>
      obtain ⟨_, hs', w⟩ := hx _ _ hs
      obtain ⟨_, hs1', w1⟩ := hx _ _ hs1
      refine ⟨.two h1 h65 hs' (w.bitmapW.2 hb) hs1' (w1.bitmapW.2 hb1), ?_⟩
      simpa using ⟨⟨_, hs⟩, ⟨_, hs1⟩⟩
    | three h1 h65 hs hb hs1 hb1 hb2 =>
      obtain ⟨_, hs', w⟩ := hx _ _ hs
      obtain ⟨_, hs1', w1⟩ := hx _ _ hs1
      refine ⟨.three h1 h65 hs' (w.bitmapW.2 hb) hs1' (w1.bitmapW.2 hb1) (w1.bitmapW.2 hb2), ?_⟩
      simpa using ⟨⟨_, hs⟩, ⟨_, hs1⟩⟩
  · rintro ⟨h, hk⟩
    have get : ∀ {k b}, B.get? k = some b → (∃ a, A.get? k = some a) → ∃ a, A.get? k = some a ∧ Wider k a b := by
      rintro k b hb ⟨a, ha⟩
      obtain ⟨b', hb', w⟩ := hx _ _ ha
      rw [hb] at hb'; cases hb'
      exact ⟨a, ha, w⟩
    cases h with
    | one h1 hs hb =>
      obtain ⟨_, hs', w⟩ := get hs (hk ⟨py"p", _, _⟩ (.head _))
      exact .one h1 hs' (w.bitmapW.1 hb)
    | two h1 h65 hs hb hs1 hb1 =>
      obtain ⟨_, hs', w⟩ := get hs (hk ⟨py"p", _, _⟩ (.head _))
      obtain ⟨_, hs1', w1⟩ := get hs1 (hk ⟨py"1", _, _⟩ (.tail _ (.head _)))
      exact .two h1 h65 hs' (w.bitmapW.1 hb) hs1' (w1.bitmapW.1 hb1)
    | three h1 h65 hs hb hs1 hb1 hb2 =>
      obtain ⟨_, hs', w⟩ := get hs (hk ⟨py"p", _, _⟩ (.head _))
      obtain ⟨_, hs1', w1⟩ := get hs1 (hk ⟨py"1", _, _⟩ (.tail _ (.head _)))
      exact .three h1 h65 hs' (w.bitmapW.1 hb) hs1' (w1.bitmapW.1 hb1) (w1.bitmapW.1 hb2)

theorem fieldPart_extends {doc : Doc} {p : Part} {a b : FieldSpec} (ha : A.get? p.key = some a) (hb : B.get? p.key = some b)
    (w : Wider p.key a b) : FieldPartWritten env A doc p ↔
      FieldPartWritten env B doc p ∧ ∃ v, doc.get? (.str p.key) = some v ∧ ValueWithin env a v p.entry.data := by
  have ht : ∀ v, readBack b v = readBack a v := by intro v; unfold readBack; simp only [w.binary]
  constructor
  · rintro ⟨fs, v, n, hs, hv, hf, hr⟩
    rw [ha] at hs; cases hs
    obtain ⟨h1, h2⟩ := w.fieldWrites.1 hf
    exact ⟨⟨b, v, n, hb, hv, h1, hr.trans (ht v).symm⟩, v, hv, h2⟩
  · rintro ⟨⟨fs, v, n, hs, hv, hf, hr⟩, v', hv', h2⟩
    rw [hb] at hs; cases hs
    rw [hv] at hv'; cases hv'
    exact ⟨a, v, n, ha, hv, w.fieldWrites.2 ⟨hf, h2⟩, hr.trans (ht v)⟩

theorem written_extends (hx : Extends A B) {doc : Doc} {ps b : List Part} :
    Written env A doc ps b ↔ Written env B doc ps b ∧ WrittenWithin env A doc (partsEnc ps) := by
  have get : ∀ {k b}, B.get? k = some b → (∃ a, A.get? k = some a) → ∃ a, A.get? k = some a ∧ Wider k a b := by
    rintro k b hb ⟨a, ha⟩
    obtain ⟨b', hb', w⟩ := hx _ _ ha
    rw [hb] at hb'; cases hb'
    exact ⟨a, ha, w⟩
  have hty : ∀ {k a b v D}, Wider k a b → ((DataWrites env (asType b) v (typeBytes b) D ∧ (b.isBinary → v.Hexable (asType b))) ↔
      (DataWrites env (asType a) v (typeBytes a) D ∧ (a.isBinary → v.Hexable (asType a)))) := by
    intro k a b v D w; rw [w.same]; exact Iff.rfl
  have hrb : ∀ {k a b} (v : Val), Wider k a b → readBack b v = readBack a v := by
    intro k a b v w; unfold readBack; simp only [w.binary]
  constructor
  · rintro ⟨hn, hr, h, t, f, F, rfl, ⟨fs, hs, hh⟩, ⟨ft, v, D, hst, hv, rfl, ht⟩, hb, hF, hm, hk, hf⟩
    obtain ⟨fs', hs', w⟩ := hx _ _ hs
    obtain ⟨ft', hst', wt⟩ := hx _ _ hst
    obtain ⟨hb', hkb⟩ := (bitmapPartsWritten_extends hx).1 hb
    have split : ∀ p, FieldPartWritten env A doc p → FieldPartWritten env B doc p ∧
        ∃ a, A.get? p.key = some a ∧ ∃ v, doc.get? (.str p.key) = some v ∧ ValueWithin env a v p.entry.data := by
      intro p hp
      obtain ⟨a, _, _, ha, _⟩ := id hp
      obtain ⟨b, hb, w⟩ := hx _ _ ha
      obtain ⟨h1, h2⟩ := (fieldPart_extends ha hb w).1 hp
      exact ⟨h1, a, ha, h2⟩
    refine ⟨⟨hn, hr, h, _, f, F, rfl, ⟨fs', hs', ?_⟩, ⟨ft', v, D, hst', hv, by rw [hrb v wt], (hty wt).2 ht⟩, hb', hF, hm, hk,
      fun p hp => (split p (hf p hp)).1⟩, ⟨fs, hs⟩, ?_⟩
    · rcases hh with ⟨hm, rfl⟩ | ⟨hm, p, rfl, hpk, hr⟩
      · exact .inl ⟨w.header rfl hm, rfl⟩
      · exact .inr ⟨Int.lt_of_lt_of_le hm w.more, p, rfl, hpk, (split p hr).1⟩
    · intro k e hke
      obtain ⟨p, hp, he⟩ := List.mem_map.1 hke
      cases he
      simp only [List.append_assoc, List.cons_append, List.mem_append, List.mem_cons] at hp
      rcases hp with hp | rfl | hp | hp
      · rcases hh with ⟨_, rfl⟩ | ⟨_, q, rfl, hqk, hr⟩
        · cases hp
        · cases List.mem_singleton.1 hp
          obtain ⟨_, a, ha, h⟩ := split p hr
          exact ⟨a, ha, fun _ => h⟩
      · exact ⟨ft, hst, fun h => absurd (.inl rfl) h⟩
      · obtain ⟨a, ha⟩ := hkb p hp
        refine ⟨a, ha, fun h => absurd ?_ h⟩
        cases hb <;> simp only [List.mem_cons, List.not_mem_nil, or_false] at hp <;>
          first
          | (rcases hp with rfl | rfl; exact .inr (.inl rfl); exact .inr (.inr rfl))
          | (subst hp; exact .inr (.inl rfl))
      · obtain ⟨_, a, ha, h⟩ := split p (hf p hp)
        exact ⟨a, ha, fun _ => h⟩
  · rintro ⟨⟨hn, hr, h, t, f, F, rfl, ⟨fs, hs, hh⟩, ⟨ft, v, D, hst, hv, rfl, ht⟩, hb, hF, hm, hk, hf⟩, hH, hw⟩
    have h1 : 1 ∉ F := fun h => ((hm 1).1 h).2.1 rfl
    have hw : ∀ p, p ∈ h ∨ p = ⟨py"t", ⟨[], D⟩, readBack ft v⟩ ∨ p ∈ b ∨ p ∈ f → ∃ a, A.get? p.key = some a ∧
        (¬ Plain p.key → ∃ v, doc.get? (.str p.key) = some v ∧ ValueWithin env a v p.entry.data) := by
      intro p hp
      refine hw _ _ (mem_partsEnc ?_)
      simpa using hp
    have join : ∀ p, p ∈ h ∨ p ∈ f → ¬ Plain p.key → FieldPartWritten env B doc p → FieldPartWritten env A doc p := by
      intro p hp hpl hf
      obtain ⟨a, ha, h⟩ := hw p (by rcases hp with h | h; exact .inl h; exact .inr (.inr (.inr h)))
      obtain ⟨b, hb, w⟩ := hx _ _ ha
      exact (fieldPart_extends ha hb w).2 ⟨hf, h hpl⟩
    obtain ⟨fs', hs', w⟩ := get hs hH
    obtain ⟨ft', hst', wt⟩ := get hst (let ⟨a, h, _⟩ := hw _ (.inr (.inl rfl)); ⟨a, h⟩)
    refine ⟨hn, hr, h, _, f, F, rfl, ⟨fs', hs', ?_⟩, ⟨ft', v, D, hst', hv, by rw [hrb v wt], (hty wt).1 ht⟩,
      (bitmapPartsWritten_extends hx).2 ⟨hb, fun p hp => let ⟨a, h, _⟩ := hw p (.inr (.inr (.inl hp))); ⟨a, h⟩⟩, hF, hm, hk,
      fun p hp => join p (.inr hp) (parts_not_plain hk h1 hp) (hf p hp)⟩
    rcases hh with ⟨hm, rfl⟩ | ⟨hm, p, rfl, hpk, hr⟩
    · exact .inl ⟨Int.le_trans w.more hm, rfl⟩
    · refine .inr ⟨?_, p, rfl, hpk, join p (.inl (List.mem_singleton.2 rfl)) (hpk ▸ header_not_plain) hr⟩
      have := w.header rfl
      omega

/-- **C69** (encode): if `B` extends `A`, then `A` encodes exactly the dicts that `B` encodes, to
the same result and with the same effect on the dict, and whose keys `A` knows and whose values
keep the limits of `A`. -/
theorem encode_extends (hx : Extends A B) {doc doc' : Doc} {s : Bytes} {enc : EncDoc} (nd : doc.NoDup) :
    encode env A doc = (.ok (s, enc), doc') ↔ encode env B doc = (.ok (s, enc), doc') ∧ WrittenWithin env A doc enc := by
  rw [encode_iff nd, encode_iff nd]
  constructor
  · rintro ⟨ps, b, hm, rfl, rfl, rfl⟩
    obtain ⟨h1, h2⟩ := (written_extends hx).1 hm
    exact ⟨⟨ps, b, h1, rfl, rfl, rfl⟩, h2⟩
  · rintro ⟨⟨ps, b, hm, rfl, rfl, rfl⟩, h2⟩
    exact ⟨ps, b, (written_extends hx).2 ⟨hm, h2⟩, rfl, rfl, rfl⟩

end

/-! ## Examples -/

theorem extends_of_all {A B : Spec}
    (h : ∀ p ∈ A, ∃ b ∈ B.get? p.1, b = { p.2 with maxLen := b.maxLen, desc := b.desc } ∧ (p.2.lenType = 0 → b.maxLen = p.2.maxLen) ∧
      p.2.maxLen ≤ b.maxLen ∧ (p.1 = py"h" → p.2.maxLen ≤ 0 → b.maxLen ≤ 0)) : Extends A B := by
  intro k a ha
  obtain ⟨b, hb, h1, h2, h3, h4⟩ := h (k, a) (Dict.mem_of_get? ha)
  exact ⟨b, hb, h1, h2, h3, h4⟩

/-- The worked specification with room for 99 characters in field 70, and a new field 4. -/
def demoWide : Spec := (demoSpec.set py"70" { dataEnc := py"cp500", lenEnc := py"cp500", lenType := 2, maxLen := 99, desc := some py"net" }) ++
  [(py"4", { dataEnc := py"b", lenEnc := py"b", lenType := 3, maxLen := 9 })]

theorem demo_extends : Extends demoSpec demoWide := extends_of_all (by decide +kernel)

example : decode cpython demoWide demoMsg = .ok (demoDec, demoEnc) := ((decode_extends demo_extends).1 demo_decode).1

example : encode cpython demoWide demoDoc = (.ok (demoMsg, demoEnc), demoDocAfter) :=
  ((encode_extends demo_extends (by unfold Dict.NoDup; decide)).1 demo_encode).1

/-- Eleven characters fit the extended field 70 only. -/
example : (encode cpython demoWide (demoDoc.set (.str py"70") (.str py"elevenchars"))).1.isOk = true ∧
    (encode cpython demoSpec (demoDoc.set (.str py"70") (.str py"elevenchars"))).1.isOk = false := by decide +kernel

end Iso8583
