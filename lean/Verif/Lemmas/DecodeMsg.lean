import Verif.Lemmas.DecodeBitmap
import Verif.Lemmas.Sets
/-! # Decoding a whole message -/

namespace Iso8583
open PyM

/-! ## Items -/

/-- One decoded field: key, encoded entry and text. -/
structure Item where
  key  : Str
  len  : Bytes
  data : Bytes
  val  : Str

def Item.wire (it : Item) : Bytes := it.len ++ it.data
def Item.entry (it : Item) : EncEntry := ⟨it.len, it.data⟩

def decOf (items : List Item) : DecDoc := items.map fun it => (it.key, it.val)
def encOf (items : List Item) : EncDoc := items.map fun it => (it.key, it.entry)
def keysOf (items : List Item) : List Str := items.map Item.key
def wireOf (items : List Item) : Bytes := items.flatMap Item.wire

/-- The decoder state holding the given items. -/
def DecState.of (items : List Item) : DecState := ⟨decOf items, encOf items⟩

@[simp] theorem keys_decOf (items : List Item) : (decOf items).keys = keysOf items := by
  simp [decOf, Dict.keys, keysOf]
@[simp] theorem keys_encOf (items : List Item) : (encOf items).keys = keysOf items := by
  simp [encOf, Dict.keys, keysOf]
@[simp] theorem wire_encOf (items : List Item) : wire (encOf items) = wireOf items := by
  simp only [wire, encOf, wireOf, List.flatMap_map]; rfl
@[simp] theorem decOf_append (a b : List Item) : decOf (a ++ b) = decOf a ++ decOf b := by simp [decOf]
@[simp] theorem encOf_append (a b : List Item) : encOf (a ++ b) = encOf a ++ encOf b := by simp [encOf]
@[simp] theorem keysOf_append (a b : List Item) : keysOf (a ++ b) = keysOf a ++ keysOf b := by simp [keysOf]
@[simp] theorem wireOf_append (a b : List Item) : wireOf (a ++ b) = wireOf a ++ wireOf b := by simp [wireOf]
@[simp] theorem keysOf_nil : keysOf [] = [] := rfl
@[simp] theorem wireOf_nil : wireOf [] = [] := rfl
@[simp] theorem keysOf_cons (a : Item) (l : List Item) : keysOf (a :: l) = a.key :: keysOf l := rfl
@[simp] theorem wireOf_cons (a : Item) (l : List Item) : wireOf (a :: l) = a.wire ++ wireOf l := by
  simp [wireOf]

theorem DecState.set_of {items : List Item} {it : Item} (h : it.key ∉ keysOf items) :
    (⟨(DecState.of items).dec.set it.key it.val, (DecState.of items).enc.set it.key it.entry⟩ : DecState)
      = DecState.of (items ++ [it]) := by
  simp only [DecState.of]
  rw [Dict.set_of_not_mem (by simpa using h), Dict.set_of_not_mem (by simpa using h)]
  simp [decOf, encOf]

/-! ## One field -/

theorem decodeField_of_reads {env : PyEnv} {s : Bytes} {idx : Nat} {fs : FieldSpec} {items : List Item} {it : Item}
    {n : Int} (hk : it.key ∉ keysOf items) (hr : FieldReads env fs n it.len it.data it.val)
    (hp : it.wire <+: s.drop idx) :
    decodeField env s idx it.key fs (.of items) = (.ok (idx + it.wire.length), .of (items ++ [it])) := by
  have h : fieldOut env s idx fs = (.ok (idx + it.wire.length), it.val, it.entry) :=
    fieldOut_ok_iff.2 ⟨n, hr, hp, by simp [Item.wire, Item.entry]; omega⟩
  rw [decodeField_run, h, ← DecState.set_of hk]
  rfl

/-- What is wrong and where, relative to the start `idx` of the offending item. -/
def faultAt (m : DecMsg) (pos idx : Nat) (it : Item) : Prop :=
  if m.aboutData then pos = idx + it.len.length else pos = idx

theorem decodeField_cases (env : PyEnv) {s : Bytes} {idx : Nat} {key : Str} (fs : FieldSpec) {items : List Item}
    (hk : key ∉ keysOf items) (hidx : idx ≤ s.length) :
    (∃ n it, it.key = key ∧ FieldReads env fs n it.len it.data it.val ∧ it.wire <+: s.drop idx ∧
      decodeField env s idx key fs (.of items) = (.ok (idx + it.wire.length), .of (items ++ [it]))) ∨
    (∃ m pos it, it.key = key ∧ it.wire <+: s.drop idx ∧ pos ≤ s.length ∧ m ≠ .extraData ∧
      fieldOut env s idx fs = (.error (m, pos), it.val, it.entry) ∧
      decodeField env s idx key fs (.of items) = (.error (.err m pos key), .of (items ++ [it]))) := by
  rcases h : fieldOut env s idx fs with ⟨r, v, e⟩
  have hset := DecState.set_of (items := items) (it := ⟨key, e.len, e.data, v⟩) hk
  cases r with
  | ok idx' =>
    left
    obtain ⟨n, hr, hp, rfl⟩ := fieldOut_ok_iff.1 h
    exact ⟨n, ⟨key, e.len, e.data, v⟩, rfl, hr, hp, decodeField_of_reads (it := ⟨key, e.len, e.data, v⟩) hk hr hp⟩
  | error mp =>
    right
    obtain ⟨m, pos⟩ := mp
    obtain ⟨h1, h2, h3, h4⟩ := fieldOut_error hidx h
    refine ⟨m, pos, ⟨key, e.len, e.data, v⟩, rfl, h1, h2, h3, rfl, ?_⟩
    · rw [decodeField_run, h, ← hset]; rfl

/-! ## The list of fields -/

/-- The fields numbered `is` are read as the items, one by one. -/
inductive FieldsRead (env : PyEnv) (spec : Spec) : List Nat → List Item → Prop
  | nil : FieldsRead env spec [] []
  | cons {i : Nat} {is : List Nat} {it : Item} {items : List Item} {fs : FieldSpec} {n : Int} :
      spec.get? (natStr i) = some fs → it.key = natStr i → FieldReads env fs n it.len it.data it.val →
      FieldsRead env spec is items → FieldsRead env spec (i :: is) (it :: items)

theorem FieldsRead.keys {env : PyEnv} {spec : Spec} {is : List Nat} {items : List Item}
    (h : FieldsRead env spec is items) : keysOf items = is.map natStr := by
  induction h with
  | nil => rfl
  | cons _ hk _ _ ih => simp [hk, ih]

/-- Key of the last item, or the given default. -/
def lastKey (last : Str) (items : List Item) : Str := (items.getLast?.map Item.key).getD last

theorem lastKey_cons (last : Str) (it : Item) (items : List Item) :
    lastKey last (it :: items) = lastKey it.key items := by
  cases items with
  | nil => simp [lastKey]
  | cons a t => simp [lastKey, List.getLast?_cons]

theorem prefix_drop_append {a b s : Bytes} {idx : Nat} :
    a ++ b <+: s.drop idx ↔ a <+: s.drop idx ∧ b <+: s.drop (idx + a.length) := by
  constructor
  · rintro ⟨r, hr⟩
    refine ⟨⟨b ++ r, by simpa using hr⟩, ⟨r, ?_⟩⟩
    rw [← List.drop_drop, ← hr]; simp
  · rintro ⟨⟨r, hr⟩, ⟨q, hq⟩⟩
    refine ⟨q, ?_⟩
    rw [← List.drop_drop, ← hr] at hq
    simp at hq
    rw [← hr, ← hq]; simp

theorem prefix_drop_le {a s : Bytes} {idx : Nat} (h : a <+: s.drop idx) (hidx : idx ≤ s.length) :
    idx + a.length ≤ s.length := by
  have := h.length_le
  simp at this; omega

theorem decodeFields_of_reads {env : PyEnv} {spec : Spec} {s : Bytes} {is : List Nat} {its : List Item}
    (hr : FieldsRead env spec is its) : ∀ {idx : Nat} {last : Str} {items : List Item},
    (keysOf (items ++ its)).Nodup → wireOf its <+: s.drop idx →
    decodeFields env spec s idx last is (.of items) =
      (.ok (idx + (wireOf its).length, lastKey last its), .of (items ++ its)) := by
  induction hr with
  | nil => intro idx last items _ _; simp [decodeFields, lastKey]
  | @cons i is it its fs n hs hk hr _ ih =>
    intro idx last items hnd hp
    rw [wireOf_cons, prefix_drop_append] at hp
    have hfresh : it.key ∉ keysOf items := by
      simp [List.nodup_append] at hnd
      intro hmem
      exact (hnd.2.2 _ hmem).1 rfl
    simp only [decodeFields, decSpec, hs, run_bind, run_pure]
    rw [← hk, decodeField_of_reads hfresh hr hp.1]
    simp only
    rw [ih (by simpa using hnd) hp.2, lastKey_cons]
    simp [Nat.add_assoc]

/-- What `decodeFields` does in every case. -/
theorem decodeFields_cases (env : PyEnv) (spec : Spec) (s : Bytes) : ∀ (is : List Nat) (idx : Nat) (last : Str)
    (items : List Item), (keysOf items ++ is.map natStr).Nodup → idx ≤ s.length →
    (∃ its, FieldsRead env spec is its ∧ wireOf its <+: s.drop idx ∧
      decodeFields env spec s idx last is (.of items) =
        (.ok (idx + (wireOf its).length, lastKey last its), .of (items ++ its))) ∨
    (∃ m pos pre i post its it, is = pre ++ i :: post ∧ FieldsRead env spec pre its ∧ it.key = natStr i ∧
      wireOf (its ++ [it]) <+: s.drop idx ∧ pos ≤ s.length ∧ m ≠ .extraData ∧
      (∃ fs, spec.get? (natStr i) = some fs ∧
        fieldOut env s (idx + (wireOf its).length) fs = (.error (m, pos), it.val, it.entry)) ∧
      decodeFields env spec s idx last is (.of items) =
        (.error (.err m pos it.key), .of (items ++ its ++ [it]))) ∨
    (∃ pre i post its, is = pre ++ i :: post ∧ FieldsRead env spec pre its ∧ spec.get? (natStr i) = none ∧
      wireOf its <+: s.drop idx ∧
      decodeFields env spec s idx last is (.of items) = (.error (.keyError (natStr i)), .of (items ++ its)))
  | [], idx, last, items, _, _ => by
    left
    exact ⟨[], .nil, by simp, by simp [decodeFields, lastKey]⟩
  | i :: is, idx, last, items, hnd, hidx => by
    have hfresh : natStr i ∉ keysOf items := by
      simp [List.nodup_append] at hnd
      intro hmem
      exact (hnd.2.2 _ hmem).1 rfl
    cases hs : spec.get? (natStr i) with
    | none =>
      right; right
      exact ⟨[], i, is, [], rfl, .nil, hs, by simp, by simp [decodeFields, decSpec, hs, run_bind]⟩
    | some fs =>
      have hrun : ∀ st, decodeFields env spec s idx last (i :: is) st =
          match decodeField env s idx (natStr i) fs st with
          | (.ok idx', st') => decodeFields env spec s idx' (natStr i) is st'
          | (.error e, st') => (.error e, st') := by
        intro st
        simp only [decodeFields, decSpec, hs, run_bind, run_pure]
        rcases decodeField env s idx (natStr i) fs st with ⟨_ | _, _⟩ <;> rfl
      rcases decodeField_cases env fs hfresh hidx with ⟨n, it, hk, hr, hp, hrun1⟩ | ⟨m, pos, it, hk, hp, hpos, hm, hf, hrun1⟩
      · have hidx' := prefix_drop_le hp hidx
        have hnd' : (keysOf (items ++ [it]) ++ is.map natStr).Nodup := by
          simpa [hk] using hnd
        rcases decodeFields_cases env spec s is (idx + it.wire.length) (natStr i) (items ++ [it]) hnd' hidx' with
          ⟨its, h1, h2, h3⟩ | ⟨m, pos, pre, j, post, its, it', h1, h2, h3, h4, h5, h6, h7, h8⟩ |
          ⟨pre, j, post, its, h1, h2, h3, h4, h5⟩
        · left
          refine ⟨it :: its, .cons hs hk hr h1, ?_, ?_⟩
          · rw [wireOf_cons, prefix_drop_append]; exact ⟨hp, h2⟩
          · rw [hrun, hrun1]; simp only; rw [h3, lastKey_cons, hk]; simp [Nat.add_assoc]
        · right; left
          refine ⟨m, pos, i :: pre, j, post, it :: its, it', by simp [h1], .cons hs hk hr h2, h3, ?_, h5, h6, ?_, ?_⟩
          · rw [List.cons_append, wireOf_cons, prefix_drop_append]; exact ⟨hp, h4⟩
          · simpa [Nat.add_assoc] using h7
          · rw [hrun, hrun1]; simp only; rw [h8]; simp
        · right; right
          refine ⟨i :: pre, j, post, it :: its, by simp [h1], .cons hs hk hr h2, h3, ?_, ?_⟩
          · rw [wireOf_cons, prefix_drop_append]; exact ⟨hp, h4⟩
          · rw [hrun, hrun1]; simp only; rw [h5]; simp
      · right; left
        refine ⟨m, pos, [], i, is, [], it, rfl, .nil, hk, ?_, hpos, hm, ?_, ?_⟩
        · simpa using hp
        · exact ⟨fs, hs, by simpa using hf⟩
        · rw [hrun, hrun1, hk]; simp

/-! ## Header, type, bitmaps -/

/-- The header items: none when the specification has no header. -/
def HeaderReads (env : PyEnv) (spec : Spec) (hdr : List Item) : Prop :=
  ∃ fs, spec.get? py"h" = some fs ∧
    if fs.maxLen ≤ 0 then hdr = []
    else ∃ n it, hdr = [it] ∧ it.key = py"h" ∧ FieldReads env fs n it.len it.data it.val

/-- The message type item. -/
def TypeItem (env : PyEnv) (spec : Spec) (it : Item) : Prop :=
  ∃ fs, spec.get? py"t" = some fs ∧ it.key = py"t" ∧ it.len = [] ∧ TypeReads env fs it.data it.val

/-- The fields announced by the primary bitmap, in the order Python's set update visits them. -/
def fields0 (bm : Bytes) : List Nat := setUpdate [] (bitmapFields 0 bm)
/-- Fields after reading the secondary bitmap. -/
def fields1 (fields : List Nat) (bm : Bytes) : List Nat := setRemove (setUpdate fields (bitmapFields 64 bm)) 1
/-- Fields after reading the tertiary bitmap. -/
def fields2 (fields : List Nat) (bm : Bytes) : List Nat := setRemove (setUpdate fields (bitmapFields 128 bm)) 65

/-- The bitmap items and the fields they announce.  The last form cannot occur with codecs that
decode 16 bytes to at most 16 characters. -/
inductive BitmapsRead (env : PyEnv) (spec : Spec) : List Item → List Nat → Prop
  | primary {fs : FieldSpec} {D : Bytes} {t : Str} {bm : Bytes} :
      spec.get? py"p" = some fs → BitmapReads env fs D t bm → 1 ∉ fields0 bm → 65 ∉ fields0 bm →
      BitmapsRead env spec [⟨py"p", [], D, t⟩] (fields0 bm)
  | secondary {fs fs1 : FieldSpec} {D D1 : Bytes} {t t1 : Str} {bm bm1 : Bytes} :
      spec.get? py"p" = some fs → BitmapReads env fs D t bm → 1 ∈ fields0 bm →
      spec.get? py"1" = some fs1 → BitmapReads env fs1 D1 t1 bm1 → 65 ∉ fields1 (fields0 bm) bm1 →
      BitmapsRead env spec [⟨py"p", [], D, t⟩, ⟨py"1", [], D1, t1⟩] (fields1 (fields0 bm) bm1)
  | tertiary {fs fs1 : FieldSpec} {D D1 D2 : Bytes} {t t1 t2 : Str} {bm bm1 bm2 : Bytes} :
      spec.get? py"p" = some fs → BitmapReads env fs D t bm → 1 ∈ fields0 bm →
      spec.get? py"1" = some fs1 → BitmapReads env fs1 D1 t1 bm1 → 65 ∈ fields1 (fields0 bm) bm1 →
      BitmapReads env fs1 D2 t2 bm2 →
      BitmapsRead env spec [⟨py"p", [], D, t⟩, ⟨py"1", [], D1 ++ D2, t1 ++ t2⟩]
        (fields2 (fields1 (fields0 bm) bm1) bm2)
  | oddPrimary {fs : FieldSpec} {D D2 : Bytes} {t t2 : Str} {bm bm2 : Bytes} :
      spec.get? py"p" = some fs → BitmapReads env fs D t bm → 1 ∉ fields0 bm → 65 ∈ fields0 bm →
      BitmapReads env fs D2 t2 bm2 →
      BitmapsRead env spec [⟨py"p", [], D ++ D2, t ++ t2⟩] (fields2 (fields0 bm) bm2)

/-- A whole message: its items in order. -/
structure MsgReads (env : PyEnv) (spec : Spec) (items : List Item) : Prop where
  parts : ∃ hdr ty bms flds F, items = hdr ++ ty :: bms ++ flds ∧ HeaderReads env spec hdr ∧
    TypeItem env spec ty ∧ BitmapsRead env spec bms F ∧ FieldsRead env spec (sortedNat F) flds

/-- decoder.py:118-155: the bitmaps. Returns the last bitmap key, the index and the fields. -/
def decodeBitmaps (env : PyEnv) (spec : Spec) (s : Bytes) (idx : Nat) : DecM (Str × Nat × List Nat) := do
  let (idx, fields) ← decodeBitmap env s idx py"p" (← decSpec spec py"p") 0 false []
  let (field, idx, fields) ←
    if 1 ∈ fields then do
      let (idx, fields) ← decodeBitmap env s idx py"1" (← decSpec spec py"1") 64 false fields
      pure (py"1", idx, setRemove fields 1)
    else pure (py"p", idx, fields)
  if 65 ∈ fields then do
    let (idx, fields) ← decodeBitmap env s idx field (← decSpec spec field) 128 true fields
    pure (field, idx, setRemove fields 65)
  else pure (field, idx, fields)

/-- decoder.py:107-158: everything but the final check for extra data. -/
def decodeCore (env : PyEnv) (spec : Spec) (s : Bytes) : DecM (Nat × Str) := do
  let idx ← decodeHeader env spec s 0
  let idx ← decodeType env spec s idx
  let (field, idx, fields) ← decodeBitmaps env spec s idx
  decodeFields env spec s idx field (sortedNat fields)

theorem decodeBody_eq (env : PyEnv) (spec : Spec) (s : Bytes) (st : DecState) :
    decodeBody env spec s st =
      match decodeCore env spec s st with
      | (.ok (idx, field), st') =>
        if idx ≠ s.length then (.error (.err .extraData idx field), st') else (.ok (), st')
      | (.error e, st') => (.error e, st') := by
  simp only [decodeBody, decodeCore, decodeBitmaps, run_bind, run_ite, run_pure]
  rcases decodeHeader env spec s 0 st with ⟨_ | idx, st⟩
  · rfl
  simp only
  rcases decodeType env spec s idx st with ⟨_ | idx, st⟩
  · rfl
  simp only
  rcases decSpec spec py"p" st with ⟨_ | fs, st⟩
  · rfl
  simp only
  rcases decodeBitmap env s idx py"p" fs 0 false [] st with ⟨_ | ⟨idx, fields⟩, st⟩
  · rfl
  simp only
  split
  · rcases decSpec spec py"1" st with ⟨_ | fs, st⟩
    · rfl
    simp only
    rcases decodeBitmap env s idx py"1" fs 64 false fields st with ⟨_ | ⟨idx, fields⟩, st⟩
    · rfl
    simp only
    split
    · rcases decSpec spec py"1" st with ⟨_ | fs, st⟩
      · rfl
      simp only
      rcases decodeBitmap env s idx py"1" fs 128 true (setRemove fields 1) st with ⟨_ | ⟨idx, fields⟩, st⟩
      · rfl
      simp only
      rcases decodeFields env spec s idx py"1" (sortedNat (setRemove fields 65)) st with ⟨_ | ⟨_, _⟩, _⟩ <;> rfl
    · simp only
      rcases decodeFields env spec s idx py"1" (sortedNat (setRemove fields 1)) st with ⟨_ | ⟨_, _⟩, _⟩ <;> rfl
  · split
    · rcases decSpec spec py"p" st with ⟨_ | fs, st⟩
      · rfl
      simp only
      rcases decodeBitmap env s idx py"p" fs 128 true fields st with ⟨_ | ⟨idx, fields⟩, st⟩
      · rfl
      simp only
      rcases decodeFields env spec s idx py"p" (sortedNat (setRemove fields 65)) st with ⟨_ | ⟨_, _⟩, _⟩ <;> rfl
    · simp only
      rcases decodeFields env spec s idx py"p" (sortedNat fields) st with ⟨_ | ⟨_, _⟩, _⟩ <;> rfl

/-! ### Header -/

theorem decodeHeader_of_reads {env : PyEnv} {spec : Spec} {s : Bytes} {hdr : List Item}
    (h : HeaderReads env spec hdr) (hp : wireOf hdr <+: s) :
    decodeHeader env spec s 0 (.of []) = (.ok (wireOf hdr).length, .of hdr) := by
  obtain ⟨fs, hs, h⟩ := h
  simp only [decodeHeader, decSpec, hs, run_bind, run_pure, run_ite]
  split at h
  · next hm => subst h; simp [hm]
  · next hm =>
    obtain ⟨n, it, rfl, hk, hr⟩ := h
    rw [if_neg hm, ← hk, decodeField_of_reads (items := []) (by simp) hr (by simpa using hp)]
    simp

theorem decodeHeader_cases (env : PyEnv) (spec : Spec) (s : Bytes) :
    (∃ hdr, HeaderReads env spec hdr ∧ wireOf hdr <+: s ∧
      decodeHeader env spec s 0 (.of []) = (.ok (wireOf hdr).length, .of hdr)) ∨
    (∃ m pos it, it.key = py"h" ∧ it.wire <+: s ∧ pos ≤ s.length ∧ m ≠ .extraData ∧
      (∃ fs, spec.get? py"h" = some fs ∧ fieldOut env s 0 fs = (.error (m, pos), it.val, it.entry)) ∧
      decodeHeader env spec s 0 (.of []) = (.error (.err m pos it.key), .of [it])) ∨
    (spec.get? py"h" = none ∧ decodeHeader env spec s 0 (.of []) = (.error (.keyError py"h"), .of [])) := by
  cases hs : spec.get? py"h" with
  | none => right; right; exact ⟨rfl, by simp [decodeHeader, decSpec, hs, run_bind]⟩
  | some fs =>
    by_cases hm : fs.maxLen ≤ 0
    · have hr : HeaderReads env spec [] := ⟨fs, hs, by simp [hm]⟩
      exact Or.inl ⟨[], hr, by simp, decodeHeader_of_reads hr (by simp)⟩
    · have hrun : decodeHeader env spec s 0 (.of []) = decodeField env s 0 py"h" fs (.of []) := by
        simp only [decodeHeader, decSpec, hs, run_bind, run_pure, run_ite, if_neg hm]
      rcases decodeField_cases env (s := s) (idx := 0) (key := py"h") fs (items := []) (by simp) (by omega) with
        ⟨n, it, hk, hr, hp, _⟩ | ⟨m, pos, it, hk, hp, hpos, hmm, hf, h⟩
      · left
        have hr : HeaderReads env spec [it] := ⟨fs, hs, by rw [if_neg hm]; exact ⟨n, it, rfl, hk, hr⟩⟩
        exact ⟨[it], hr, by simpa using hp, decodeHeader_of_reads hr (by simpa using hp)⟩
      · right; left
        exact ⟨m, pos, it, hk, by simpa using hp, hpos, hmm, ⟨fs, rfl, hf⟩, by rw [hrun, h, hk]; rfl⟩

/-! ### Type -/

theorem decodeType_of_reads {env : PyEnv} {spec : Spec} {s : Bytes} {idx : Nat} {items : List Item} {ty : Item}
    (h : TypeItem env spec ty) (hk : py"t" ∉ keysOf items) (hp : ty.wire <+: s.drop idx) :
    decodeType env spec s idx (.of items) = (.ok (idx + ty.wire.length), .of (items ++ [ty])) := by
  obtain ⟨fs, hs, hkey, hl, hr⟩ := h
  have hw : ty.wire = ty.data := by simp [Item.wire, hl]
  have h : typeOut env s idx fs = (.ok (idx + ty.wire.length), ty.val, ty.entry) :=
    typeOut_ok_iff.2 ⟨hr, hl, by simpa [hw, Item.entry] using hp, by simp [hw, Item.entry]⟩
  rw [decodeType_run, hs]
  simp only
  rw [h, ← DecState.set_of (by rw [hkey]; exact hk), hkey]
  rfl

theorem decodeType_cases (env : PyEnv) (spec : Spec) (s : Bytes) (idx : Nat) {items : List Item}
    (hk : py"t" ∉ keysOf items) (hidx : idx ≤ s.length) :
    (∃ ty, TypeItem env spec ty ∧ ty.wire <+: s.drop idx ∧
      decodeType env spec s idx (.of items) = (.ok (idx + ty.wire.length), .of (items ++ [ty]))) ∨
    (∃ m pos it, it.key = py"t" ∧ it.wire <+: s.drop idx ∧ pos ≤ s.length ∧ m ≠ .extraData ∧
      (∃ fs, spec.get? py"t" = some fs ∧ typeOut env s idx fs = (.error (m, pos), it.val, it.entry)) ∧
      decodeType env spec s idx (.of items) = (.error (.err m pos it.key), .of (items ++ [it]))) ∨
    (spec.get? py"t" = none ∧ decodeType env spec s idx (.of items) = (.error (.keyError py"t"), .of items)) := by
  cases hs : spec.get? py"t" with
  | none => right; right; exact ⟨rfl, by rw [decodeType_run, hs]⟩
  | some fs =>
    rcases h : typeOut env s idx fs with ⟨r, v, e⟩
    cases r with
    | ok idx' =>
      left
      obtain ⟨hr, hl, hp, rfl⟩ := typeOut_ok_iff.1 h
      have ht : TypeItem env spec ⟨py"t", e.len, e.data, v⟩ := ⟨fs, hs, rfl, hl, hr⟩
      have hp' : (⟨py"t", e.len, e.data, v⟩ : Item).wire <+: s.drop idx := by simpa [Item.wire, hl] using hp
      exact ⟨_, ht, hp', decodeType_of_reads ht hk hp'⟩
    | error mp =>
      right; left
      obtain ⟨m, pos⟩ := mp
      obtain ⟨hl, hp, rfl, hm⟩ := typeOut_error h
      refine ⟨m, pos, ⟨py"t", e.len, e.data, v⟩, rfl, by simpa [Item.wire, hl] using hp, hidx, hm, ?_, ?_⟩
      · exact ⟨fs, rfl, h⟩
      · rw [decodeType_run, hs]
        simp only
        rw [h, ← DecState.set_of (it := ⟨py"t", e.len, e.data, v⟩) hk]; rfl

/-! ### Bitmaps -/

theorem decodeBitmap_of_reads {env : PyEnv} {s : Bytes} {idx : Nat} {key : Str} {fs : FieldSpec} {off : Nat}
    {fields : List Nat} {items : List Item} {D bm : Bytes} {t : Str} (hk : key ∉ keysOf items)
    (hr : BitmapReads env fs D t bm) (hp : D <+: s.drop idx) :
    decodeBitmap env s idx key fs off false fields (.of items) =
      (.ok (idx + D.length, setUpdate fields (bitmapFields off bm)), .of (items ++ [⟨key, [], D, t⟩])) := by
  have h : bitmapOut env s idx fs 0 1 = (.ok (idx + D.length, bm), t, D) := bitmapOut_ok_iff.2 ⟨hr, hp, rfl⟩
  rw [decodeBitmap_run, h, ← DecState.set_of (it := ⟨key, [], D, t⟩) hk]
  rfl

theorem decodeBitmap_cases (env : PyEnv) (s : Bytes) (idx : Nat) {key : Str} (fs : FieldSpec) (off : Nat)
    (fields : List Nat) {items : List Item} (hk : key ∉ keysOf items) :
    (∃ D t bm, BitmapReads env fs D t bm ∧ D <+: s.drop idx ∧
      decodeBitmap env s idx key fs off false fields (.of items) =
        (.ok (idx + D.length, setUpdate fields (bitmapFields off bm)), .of (items ++ [⟨key, [], D, t⟩]))) ∨
    (∃ m D t, D <+: s.drop idx ∧ m ≠ .extraData ∧ bitmapOut env s idx fs 0 1 = (.error (m, idx), t, D) ∧
      decodeBitmap env s idx key fs off false fields (.of items) =
        (.error (.err m idx key), .of (items ++ [⟨key, [], D, t⟩]))) := by
  rcases h : bitmapOut env s idx fs 0 1 with ⟨r, t, D⟩
  cases r with
  | ok r =>
    obtain ⟨idx', bm⟩ := r
    obtain ⟨hr, hp, rfl⟩ := bitmapOut_ok_iff.1 h
    exact Or.inl ⟨D, t, bm, hr, hp, decodeBitmap_of_reads hk hr hp⟩
  | error mp =>
    obtain ⟨m, pos⟩ := mp
    obtain ⟨hp, rfl, hm⟩ := bitmapOut_error h
    refine Or.inr ⟨m, D, t, hp, hm, rfl, ?_⟩
    rw [decodeBitmap_run, h, ← DecState.set_of (it := ⟨key, [], D, t⟩) hk]
    rfl

theorem get?_decOf_last {items : List Item} {it : Item} (h : it.key ∉ keysOf items) :
    (decOf (items ++ [it])).get? it.key = some it.val := by
  rw [decOf_append, Dict.get?_append_right (by simpa using h)]
  simp [decOf, Dict.get?]

theorem get?_encOf_last {items : List Item} {it : Item} (h : it.key ∉ keysOf items) :
    (encOf (items ++ [it])).get? it.key = some it.entry := by
  rw [encOf_append, Dict.get?_append_right (by simpa using h)]
  simp [encOf, Dict.get?]

theorem set_of_last {items : List Item} {it it' : Item} (h : it.key ∉ keysOf items) (hk : it'.key = it.key) :
    (⟨(DecState.of (items ++ [it])).dec.set it.key it'.val, (DecState.of (items ++ [it])).enc.set it.key it'.entry⟩ : DecState)
      = DecState.of (items ++ [it']) := by
  simp only [DecState.of, decOf_append, encOf_append]
  rw [Dict.set_append_of_not_mem (by simpa using h), Dict.set_append_of_not_mem (by simpa using h)]
  simp [decOf, encOf, hk]

theorem decodeBitmap_ext_of_reads {env : PyEnv} {s : Bytes} {idx : Nat} {key : Str} {fs : FieldSpec} {off : Nat}
    {fields : List Nat} {items : List Item} {D1 D2 bm : Bytes} {t1 t2 : Str} (hk : key ∉ keysOf items)
    (hr : BitmapReads env fs D2 t2 bm) (hp : D2 <+: s.drop idx) :
    decodeBitmap env s idx key fs off true fields (.of (items ++ [⟨key, [], D1, t1⟩])) =
      (.ok (idx + D2.length, setUpdate fields (bitmapFields off bm)),
        .of (items ++ [⟨key, [], D1 ++ D2, t1 ++ t2⟩])) := by
  have hd := get?_decOf_last (it := ⟨key, [], D1, t1⟩) hk
  have he := get?_encOf_last (it := ⟨key, [], D1, t1⟩) hk
  rw [decodeBitmap_ext_run _ _ _ _ _ _ _ _ _ _ hd he]
  have h : bitmapOut env s idx fs D1.length 2 = (.ok (idx + D2.length, bm), t2, D2) := bitmapOut_ok_iff.2 ⟨hr, hp, rfl⟩
  simp only [Item.entry, h]
  rw [← set_of_last (it := ⟨key, [], D1, t1⟩) (it' := ⟨key, [], D1 ++ D2, t1 ++ t2⟩) hk]
  · rfl
  · rfl

theorem decodeBitmap_ext_cases (env : PyEnv) (s : Bytes) (idx : Nat) {key : Str} (fs : FieldSpec) (off : Nat)
    (fields : List Nat) {items : List Item} (hk : key ∉ keysOf items) (D1 : Bytes) (t1 : Str) :
    (∃ D2 t2 bm, BitmapReads env fs D2 t2 bm ∧ D2 <+: s.drop idx ∧
      decodeBitmap env s idx key fs off true fields (.of (items ++ [⟨key, [], D1, t1⟩])) =
        (.ok (idx + D2.length, setUpdate fields (bitmapFields off bm)),
          .of (items ++ [⟨key, [], D1 ++ D2, t1 ++ t2⟩]))) ∨
    (∃ m D2 t2, D2 <+: s.drop idx ∧ m ≠ .extraData ∧ bitmapOut env s idx fs D1.length 2 = (.error (m, idx), t2, D2) ∧
      decodeBitmap env s idx key fs off true fields (.of (items ++ [⟨key, [], D1, t1⟩])) =
        (.error (.err m idx key), .of (items ++ [⟨key, [], D1 ++ D2, t1 ++ t2⟩]))) := by
  rcases h : bitmapOut env s idx fs D1.length 2 with ⟨r, t, D⟩
  cases r with
  | ok r =>
    obtain ⟨idx', bm⟩ := r
    obtain ⟨hr, hp, rfl⟩ := bitmapOut_ok_iff.1 h
    exact Or.inl ⟨D, t, bm, hr, hp, decodeBitmap_ext_of_reads hk hr hp⟩
  | error mp =>
    obtain ⟨m, pos⟩ := mp
    obtain ⟨hp, rfl, hm⟩ := bitmapOut_error h
    refine Or.inr ⟨m, D, t, hp, hm, rfl, ?_⟩
    have hd := get?_decOf_last (it := ⟨key, [], D1, t1⟩) hk
    have he := get?_encOf_last (it := ⟨key, [], D1, t1⟩) hk
    rw [decodeBitmap_ext_run _ _ _ _ _ _ _ _ _ _ hd he]
    simp only [Item.entry, h]
    rw [← set_of_last (it := ⟨key, [], D1, t1⟩) (it' := ⟨key, [], D1 ++ D, t1 ++ t⟩) hk]
    · rfl
    · rfl

theorem decodeBitmaps_of_reads {env : PyEnv} {spec : Spec} {s : Bytes} {idx : Nat} {items bms : List Item} {F : List Nat}
    (h : BitmapsRead env spec bms F) (hp1 : py"p" ∉ keysOf items) (hk1 : py"1" ∉ keysOf items)
    (hp : wireOf bms <+: s.drop idx) :
    decodeBitmaps env spec s idx (.of items) =
      (.ok (lastKey py"p" bms, idx + (wireOf bms).length, F), .of (items ++ bms)) := by
  have hk1' : ∀ D t, py"1" ∉ keysOf (items ++ [⟨py"p", [], D, t⟩]) := by
    intro D t; simp [hk1]
  simp only [decodeBitmaps]
  cases h with
  | @primary fs D t bm hs hr h1 h65 =>
    simp only [wireOf_cons, wireOf_nil, List.append_nil, Item.wire, List.nil_append] at hp ⊢
    simp only [run_bind, run_pure, decSpec, hs, decodeBitmap_of_reads hp1 hr hp, run_ite]
    rw [if_neg (show ¬ 1 ∈ setUpdate [] (bitmapFields 0 bm) from h1), if_neg (show ¬ 65 ∈ setUpdate [] (bitmapFields 0 bm) from h65)]
    rfl
  | @secondary fs fs1 D D1 t t1 bm bm1 hs hr h1 hs1 hr1 h65 =>
    simp only [wireOf_cons, wireOf_nil, List.append_nil, Item.wire, List.nil_append] at hp ⊢
    rw [prefix_drop_append] at hp
    simp only [run_bind, run_pure, decSpec, hs, decodeBitmap_of_reads hp1 hr hp.1, run_ite]
    rw [if_pos (show 1 ∈ setUpdate [] (bitmapFields 0 bm) from h1)]
    simp only [hs1, run_pure, decodeBitmap_of_reads (hk1' D t) hr1 hp.2]
    rw [if_neg (show ¬ 65 ∈ setRemove (setUpdate (setUpdate [] (bitmapFields 0 bm)) (bitmapFields 64 bm1)) 1 from h65)]
    simp [lastKey, Nat.add_assoc, fields1, fields0]
  | @tertiary fs fs1 D D1 D2 t t1 t2 bm bm1 bm2 hs hr h1 hs1 hr1 h65 hr2 =>
    simp only [wireOf_cons, wireOf_nil, List.append_nil, Item.wire, List.nil_append] at hp ⊢
    rw [prefix_drop_append, prefix_drop_append] at hp
    simp only [run_bind, run_pure, decSpec, hs, decodeBitmap_of_reads hp1 hr hp.1, run_ite]
    rw [if_pos (show 1 ∈ setUpdate [] (bitmapFields 0 bm) from h1)]
    simp only [hs1, run_pure, decodeBitmap_of_reads (hk1' D t) hr1 hp.2.1]
    rw [if_pos (show 65 ∈ setRemove (setUpdate (setUpdate [] (bitmapFields 0 bm)) (bitmapFields 64 bm1)) 1 from h65), decodeBitmap_ext_of_reads (hk1' D t) hr2 hp.2.2]
    simp [lastKey, Nat.add_assoc, fields1, fields0, fields2]
  | @oddPrimary fs D D2 t t2 bm bm2 hs hr h1 h65 hr2 =>
    simp only [wireOf_cons, wireOf_nil, List.append_nil, Item.wire, List.nil_append] at hp ⊢
    rw [prefix_drop_append] at hp
    simp only [run_bind, run_pure, decSpec, hs, decodeBitmap_of_reads hp1 hr hp.1, run_ite]
    rw [if_neg (show ¬ 1 ∈ setUpdate [] (bitmapFields 0 bm) from h1), if_pos (show 65 ∈ setUpdate [] (bitmapFields 0 bm) from h65)]
    simp only [decodeBitmap_ext_of_reads hp1 hr2 hp.2]
    simp [lastKey, Nat.add_assoc, fields0, fields2]

/-- An item read in full. -/
inductive ItemOk (env : PyEnv) (spec : Spec) : Item → Prop
  | field {it : Item} {fs : FieldSpec} {n : Int} : spec.get? it.key = some fs →
      it.key ≠ py"t" → it.key ≠ py"p" → it.key ≠ py"1" → FieldReads env fs n it.len it.data it.val → ItemOk env spec it
  | type {it : Item} : TypeItem env spec it → ItemOk env spec it
  | bitmap {key : Str} {fs : FieldSpec} {D bm : Bytes} {t : Str} : spec.get? key = some fs →
      (key = py"p" ∨ key = py"1") → BitmapReads env fs D t bm → ItemOk env spec ⟨key, [], D, t⟩
  | bitmap2 {key : Str} {fs : FieldSpec} {D1 D2 bm1 bm2 : Bytes} {t1 t2 : Str} : spec.get? key = some fs →
      (key = py"p" ∨ key = py"1") → BitmapReads env fs D1 t1 bm1 → BitmapReads env fs D2 t2 bm2 →
      ItemOk env spec ⟨key, [], D1 ++ D2, t1 ++ t2⟩

/-- An item starting at `idx` that failed with message `m` at position `pos`.  In the last case
the item already held a bitmap and the tertiary bitmap failed. -/
inductive Fault (env : PyEnv) (spec : Spec) (s : Bytes) (m : DecMsg) (pos idx : Nat) : Item → Prop
  | field {it : Item} {fs : FieldSpec} : spec.get? it.key = some fs → it.key ≠ py"t" → it.key ≠ py"p" → it.key ≠ py"1" →
      fieldOut env s idx fs = (.error (m, pos), it.val, it.entry) → Fault env spec s m pos idx it
  | type {it : Item} {fs : FieldSpec} : spec.get? it.key = some fs → it.key = py"t" →
      typeOut env s idx fs = (.error (m, pos), it.val, it.entry) → Fault env spec s m pos idx it
  | bitmap {key : Str} {fs : FieldSpec} {D : Bytes} {t : Str} : spec.get? key = some fs → (key = py"p" ∨ key = py"1") →
      bitmapOut env s idx fs 0 1 = (.error (m, pos), t, D) → Fault env spec s m pos idx ⟨key, [], D, t⟩
  | tertiary {key : Str} {fs : FieldSpec} {D1 D2 bm1 : Bytes} {t1 t2 : Str} : spec.get? key = some fs →
      (key = py"p" ∨ key = py"1") → BitmapReads env fs D1 t1 bm1 → D1 <+: s.drop idx →
      bitmapOut env s (idx + D1.length) fs D1.length 2 = (.error (m, pos), t2, D2) →
      Fault env spec s m pos idx ⟨key, [], D1 ++ D2, t1 ++ t2⟩

theorem decodeBitmaps_cases (env : PyEnv) (spec : Spec) (s : Bytes) (idx : Nat) {items : List Item}
    (hp1 : py"p" ∉ keysOf items) (hk1 : py"1" ∉ keysOf items) (hidx : idx ≤ s.length) :
    (∃ bms F, BitmapsRead env spec bms F ∧ wireOf bms <+: s.drop idx ∧
      decodeBitmaps env spec s idx (.of items) =
        (.ok (lastKey py"p" bms, idx + (wireOf bms).length, F), .of (items ++ bms))) ∨
    (∃ m pos its it, (keysOf (its ++ [it]) = [py"p"] ∨ keysOf (its ++ [it]) = [py"p", py"1"]) ∧
      wireOf (its ++ [it]) <+: s.drop idx ∧ pos ≤ s.length ∧ m ≠ .extraData ∧
      Fault env spec s m pos (idx + (wireOf its).length) it ∧ (∀ x ∈ its, ItemOk env spec x) ∧
      decodeBitmaps env spec s idx (.of items) = (.error (.err m pos it.key), .of (items ++ its ++ [it]))) ∨
    (∃ k its, (k = py"p" ∨ k = py"1") ∧ spec.get? k = none ∧ wireOf its <+: s.drop idx ∧
      decodeBitmaps env spec s idx (.of items) = (.error (.keyError k), .of (items ++ its))) := by
  have hk1' : ∀ D t, py"1" ∉ keysOf (items ++ [⟨py"p", [], D, t⟩]) := by
    intro D t; simp [hk1]
  have tert : ∀ (key : Str) (fs : FieldSpec) (pre : List Item) (D1 : Bytes) (t1 : Str) (bm1 : Bytes) (fields : List Nat),
      key ∉ keysOf (items ++ pre) → spec.get? key = some fs → BitmapReads env fs D1 t1 bm1 →
      wireOf (pre ++ [⟨key, [], D1, t1⟩]) <+: s.drop idx →
      (keysOf (pre ++ [⟨key, [], D1, t1⟩]) = [py"p"] ∨ keysOf (pre ++ [⟨key, [], D1, t1⟩]) = [py"p", py"1"]) →
      (∃ D2 t2 bm2, BitmapReads env fs D2 t2 bm2 ∧ wireOf (pre ++ [⟨key, [], D1 ++ D2, t1 ++ t2⟩]) <+: s.drop idx) ∨
      (∃ m pos its it, (keysOf (its ++ [it]) = [py"p"] ∨ keysOf (its ++ [it]) = [py"p", py"1"]) ∧
        wireOf (its ++ [it]) <+: s.drop idx ∧ pos ≤ s.length ∧ m ≠ .extraData ∧
        Fault env spec s m pos (idx + (wireOf its).length) it ∧ its = pre ∧
        decodeBitmap env s (idx + (wireOf (pre ++ [⟨key, [], D1, t1⟩])).length) key fs 128 true fields
          (.of (items ++ pre ++ [⟨key, [], D1, t1⟩])) =
            (.error (.err m pos it.key), .of (items ++ its ++ [it]))) := by
    intro key fs pre D1 t1 bm1 fields hkey hs hr hp hkeys
    have hle := prefix_drop_le hp hidx
    rcases decodeBitmap_ext_cases env s (idx + (wireOf (pre ++ [⟨key, [], D1, t1⟩])).length) fs 128 fields hkey D1 t1 with
      ⟨D2, t2, bm2, hr2, hp2, _⟩ | ⟨m, D2, t2, hp2, hm, hf, hrun⟩
    · left
      refine ⟨D2, t2, bm2, hr2, ?_⟩
      have := prefix_drop_append.2 ⟨hp, hp2⟩
      simpa [Item.wire] using this
    · right
      refine ⟨m, _, pre, ⟨key, [], D1 ++ D2, t1 ++ t2⟩, by simpa using hkeys, ?_, hle, hm, ?_, rfl, hrun⟩
      · have := prefix_drop_append.2 ⟨hp, hp2⟩
        simpa [Item.wire] using this
      · have hkk : key = py"p" ∨ key = py"1" := by
          have hmem : key ∈ keysOf (pre ++ [⟨key, [], D1, t1⟩]) := by simp
          rcases hkeys with h | h <;> rw [h] at hmem <;> simp at hmem
          · exact Or.inl hmem
          · exact hmem
        rw [wireOf_append, prefix_drop_append] at hp
        refine .tertiary hs hkk hr (by simpa [Item.wire] using hp.2) ?_
        simpa [Item.wire, Nat.add_assoc] using hf
  cases hs : spec.get? py"p" with
  | none =>
    right; right
    exact ⟨py"p", [], Or.inl rfl, hs, by simp, by simp [decodeBitmaps, decSpec, hs, run_bind]⟩
  | some fs =>
    rcases decodeBitmap_cases env s idx fs 0 [] hp1 with ⟨D, t, bm, hr, hp, hrun⟩ | ⟨m, D, t, hp, hm, hf, hrun⟩
    · have hpre : ∀ st, decodeBitmaps env spec s idx (.of items) = st ↔
          (do
            let (field, idx, fields) ←
              if 1 ∈ fields0 bm then do
                let (idx, fields) ← decodeBitmap env s (idx + D.length) py"1" (← decSpec spec py"1") 64 false (fields0 bm)
                pure (py"1", idx, setRemove fields 1)
              else pure (py"p", idx + D.length, fields0 bm)
            if 65 ∈ fields then do
              let (idx, fields) ← decodeBitmap env s idx field (← decSpec spec field) 128 true fields
              pure (field, idx, setRemove fields 65)
            else pure (field, idx, fields) : DecM (Str × Nat × List Nat)) (.of (items ++ [⟨py"p", [], D, t⟩])) = st := by
        intro st
        simp only [decodeBitmaps, run_bind, decSpec, hs, run_pure, hrun, run_ite]
        rfl
      by_cases h1 : 1 ∈ fields0 bm
      · cases hs1 : spec.get? py"1" with
        | none =>
          right; right
          refine ⟨py"1", [⟨py"p", [], D, t⟩], Or.inr rfl, hs1, by simpa [Item.wire] using hp, ?_⟩
          rw [hpre]
          simp only [run_bind, if_pos h1, decSpec, hs1, run_raise]
        | some fs1 =>
          have hidx' := prefix_drop_le hp hidx
          rcases decodeBitmap_cases env s (idx + D.length) fs1 64 (fields0 bm) (hk1' D t) with
            ⟨D1, t1, bm1, hr1, hp1', hrun1⟩ | ⟨m, D1, t1, hp1', hm, hf1, hrun1⟩
          · have hpp : wireOf ([⟨py"p", [], D, t⟩] ++ [⟨py"1", [], D1, t1⟩]) <+: s.drop idx := by
              have := prefix_drop_append.2 ⟨hp, hp1'⟩
              simpa [Item.wire] using this
            by_cases h65 : 65 ∈ fields1 (fields0 bm) bm1
            · rcases tert py"1" fs1 [⟨py"p", [], D, t⟩] D1 t1 bm1 (fields1 (fields0 bm) bm1) (hk1' D t) hs1 hr1 hpp (by simp) with
                ⟨D2, t2, bm2, hr2, hp2⟩ | ⟨m, pos, its, it, h1', h2', h3', h4', h5', rfl, h6'⟩
              · left
                have hb := BitmapsRead.tertiary hs hr h1 hs1 hr1 h65 hr2
                exact ⟨_, _, hb, hp2, decodeBitmaps_of_reads hb (by assumption) hk1 hp2⟩
              · right; left
                refine ⟨m, pos, _, it, h1', h2', h3', h4', h5', by simpa using ItemOk.bitmap hs (Or.inl rfl) hr, ?_⟩
                rw [hpre]
                simp only [run_bind, run_ite, if_pos h1, decSpec, hs1, run_pure, hrun1]
                rw [if_pos (by exact h65)]
                simp only [List.singleton_append, wireOf_cons, Item.wire, wireOf_nil, List.append_nil, List.nil_append,
                  List.length_append] at h6'
                simp only [Nat.add_assoc]
                rw [show setRemove (setUpdate (fields0 bm) (bitmapFields 64 bm1)) 1 = fields1 (fields0 bm) bm1 from rfl, h6']
            · left
              have hb := BitmapsRead.secondary hs hr h1 hs1 hr1 h65
              exact ⟨_, _, hb, hpp, decodeBitmaps_of_reads hb (by assumption) hk1 hpp⟩
          · right; left
            refine ⟨m, idx + D.length, [⟨py"p", [], D, t⟩], ⟨py"1", [], D1, t1⟩, by simp, ?_, hidx', hm, ?_,
              by simpa using ItemOk.bitmap hs (Or.inl rfl) hr, ?_⟩
            · have := prefix_drop_append.2 ⟨hp, hp1'⟩
              simpa [Item.wire] using this
            · exact .bitmap hs1 (Or.inr rfl) (by simpa [Item.wire] using hf1)
            · rw [hpre]
              simp only [run_bind, if_pos h1, decSpec, hs1, run_pure, hrun1]
      · by_cases h65 : 65 ∈ fields0 bm
        · rcases tert py"p" fs [] D t bm (fields0 bm) (by simpa using hp1) hs hr (by simpa [Item.wire] using hp) (by simp) with
            ⟨D2, t2, bm2, hr2, hp2⟩ | ⟨m, pos, its, it, h1', h2', h3', h4', h5', rfl, h6'⟩
          · left
            have hb := BitmapsRead.oddPrimary hs hr h1 h65 hr2
            exact ⟨_, _, hb, hp2, decodeBitmaps_of_reads hb hp1 hk1 hp2⟩
          · right; left
            refine ⟨m, pos, _, it, h1', h2', h3', h4', h5', by simp, ?_⟩
            rw [hpre]
            simp only [run_bind, run_ite, if_neg h1, run_pure, if_pos h65, decSpec, hs]
            simp only [List.nil_append, wireOf_cons, Item.wire, wireOf_nil, List.append_nil] at h6'
            rw [h6']; simp
        · left
          have hb := BitmapsRead.primary hs hr h1 h65
          have hp' : wireOf [⟨py"p", [], D, t⟩] <+: s.drop idx := by simpa [Item.wire] using hp
          exact ⟨_, _, hb, hp', decodeBitmaps_of_reads hb hp1 hk1 hp'⟩
    · right; left
      refine ⟨m, idx, [], ⟨py"p", [], D, t⟩, by simp, by simpa [Item.wire] using hp, hidx, hm, ?_, by simp, ?_⟩
      · exact .bitmap hs (Or.inl rfl) (by simpa using hf)
      · simp only [decodeBitmaps, run_bind, decSpec, hs, run_pure, hrun]
        simp

/-! ### The whole message -/

theorem BitmapsRead.keys {env : PyEnv} {spec : Spec} {bms : List Item} {F : List Nat} (h : BitmapsRead env spec bms F) :
    keysOf bms = [py"p"] ∨ keysOf bms = [py"p", py"1"] := by
  cases h <;> simp

theorem nodup_fields0 (bm : Bytes) : (fields0 bm).Nodup := nodup_setUpdate List.nodup_nil

theorem mem_fields0 {bm : Bytes} {x : Nat} : x ∈ fields0 bm ↔ x ∈ bitmapFields 0 bm := by
  simp [fields0, mem_setUpdate]

theorem mem_fields1 {F : List Nat} {bm : Bytes} {x : Nat} :
    x ∈ fields1 F bm ↔ (x ∈ F ∨ x ∈ bitmapFields 64 bm) ∧ x ≠ 1 := by
  simp [fields1, mem_setUpdate]

theorem mem_fields2 {F : List Nat} {bm : Bytes} {x : Nat} :
    x ∈ fields2 F bm ↔ (x ∈ F ∨ x ∈ bitmapFields 128 bm) ∧ x ≠ 65 := by
  simp [fields2, mem_setUpdate]

theorem bitmapFields_gt {off x : Nat} {bm : Bytes} (h : x ∈ bitmapFields off bm) : off < x := by
  obtain ⟨i, hi, rfl, _⟩ := mem_bitmapFields.1 h; omega

theorem BitmapsRead.fields {env : PyEnv} {spec : Spec} {bms : List Item} {F : List Nat} (h : BitmapsRead env spec bms F) :
    F.Nodup ∧ 1 ∉ F ∧ 65 ∉ F ∧ 0 ∉ F := by
  have hz : ∀ bm, 0 ∉ fields0 bm := fun bm h => by
    have := bitmapFields_gt (mem_fields0.1 h); omega
  have n1 : ∀ (F : List Nat) bm, F.Nodup → (fields1 F bm).Nodup := fun F bm hF =>
    nodup_setRemove (nodup_setUpdate hF)
  have n2 : ∀ (F : List Nat) bm, F.Nodup → (fields2 F bm).Nodup := fun F bm hF =>
    nodup_setRemove (nodup_setUpdate hF)
  have z1 : ∀ (F : List Nat) bm, 0 ∉ F → 0 ∉ fields1 F bm := by
    intro F bm hF h
    rcases (mem_fields1.1 h).1 with h | h
    · exact hF h
    · have := bitmapFields_gt h; omega
  have z2 : ∀ (F : List Nat) bm, 0 ∉ F → 0 ∉ fields2 F bm := by
    intro F bm hF h
    rcases (mem_fields2.1 h).1 with h | h
    · exact hF h
    · have := bitmapFields_gt h; omega
  have o1 : ∀ (F : List Nat) bm, 1 ∉ fields1 F bm := by
    intro F bm h; exact (mem_fields1.1 h).2 rfl
  have o2 : ∀ (F : List Nat) bm, 1 ∉ F → 1 ∉ fields2 F bm := by
    intro F bm hF h
    rcases (mem_fields2.1 h).1 with h | h
    · exact hF h
    · have := bitmapFields_gt h; omega
  have s2 : ∀ (F : List Nat) bm, 65 ∉ fields2 F bm := by
    intro F bm h; exact (mem_fields2.1 h).2 rfl
  cases h with
  | primary _ _ h1 h65 => exact ⟨nodup_fields0 _, h1, h65, hz _⟩
  | secondary _ _ _ _ _ h65 => exact ⟨n1 _ _ (nodup_fields0 _), o1 _ _, h65, z1 _ _ (hz _)⟩
  | tertiary _ _ _ _ _ _ _ => exact ⟨n2 _ _ (n1 _ _ (nodup_fields0 _)), o2 _ _ (o1 _ _), s2 _ _, z2 _ _ (z1 _ _ (hz _))⟩
  | oddPrimary _ _ h1 _ _ => exact ⟨n2 _ _ (nodup_fields0 _), o2 _ _ h1, s2 _ _, z2 _ _ (hz _)⟩

theorem natStr_ne_letter {n c : Nat} (hc : ¬ (48 ≤ c ∧ c ≤ 57)) : natStr n ≠ [c] := by
  intro h
  have := natStr_digits n c (by rw [h]; simp)
  simp [isAsciiDigit] at this
  omega

theorem natStr_ne_one {n : Nat} (h : n ≠ 1) : natStr n ≠ py"1" := by
  intro e
  exact h (natStr_inj.1 (e.trans (show py"1" = natStr 1 from rfl)))

theorem HeaderReads.keys {env : PyEnv} {spec : Spec} {hdr : List Item} (h : HeaderReads env spec hdr) :
    keysOf hdr = [] ∨ keysOf hdr = [py"h"] := by
  obtain ⟨fs, _, h⟩ := h
  split at h
  · subst h; simp
  · obtain ⟨n, it, rfl, hk, _⟩ := h; simp [hk]

theorem nodup_msg_keys {K B : List Str} {F : List Nat} (hK : K = [] ∨ K = [py"h"])
    (hB : B = [py"p"] ∨ B = [py"p", py"1"]) (hF : F.Nodup) (h1 : 1 ∉ F) :
    (K ++ py"t" :: B ++ F.map natStr).Nodup := by
  have hl : ∀ n, natStr n ≠ py"h" ∧ natStr n ≠ py"t" ∧ natStr n ≠ py"p" := fun n =>
    ⟨natStr_ne_letter (by omega), natStr_ne_letter (by omega), natStr_ne_letter (by omega)⟩
  have ho : ∀ n ∈ F, natStr n ≠ py"1" := fun n hn => natStr_ne_one (by rintro rfl; exact h1 hn)
  have hm : (F.map natStr).Nodup := by
    rw [List.nodup_iff_pairwise_ne, List.pairwise_map]
    exact List.Pairwise.imp (fun {a b} h e => h (natStr_inj.1 e)) (List.nodup_iff_pairwise_ne.1 hF)
  rw [List.nodup_append]
  refine ⟨?_, hm, ?_⟩
  · rcases hK with rfl | rfl <;> rcases hB with rfl | rfl <;> simp
  · intro a ha b hb e
    subst e
    obtain ⟨n, hn, rfl⟩ := List.mem_map.1 hb
    have := hl n
    have := ho n hn
    rcases hK with rfl | rfl <;> rcases hB with rfl | rfl <;> simp_all

theorem HeaderReads.ok {env : PyEnv} {spec : Spec} {hdr : List Item} (h : HeaderReads env spec hdr) :
    ∀ x ∈ hdr, ItemOk env spec x := by
  obtain ⟨fs, hs, h⟩ := h
  split at h
  · subst h; simp
  · obtain ⟨n, it, rfl, hk, hr⟩ := h
    simp only [List.mem_singleton, forall_eq]
    exact .field (by rw [hk]; exact hs) (by simp [hk]) (by simp [hk]) (by simp [hk]) hr

theorem BitmapsRead.ok {env : PyEnv} {spec : Spec} {bms : List Item} {F : List Nat} (h : BitmapsRead env spec bms F) :
    ∀ x ∈ bms, ItemOk env spec x := by
  cases h with
  | primary hs hr => simpa using ItemOk.bitmap hs (Or.inl rfl) hr
  | secondary hs hr _ hs1 hr1 =>
    simpa using ⟨ItemOk.bitmap hs (Or.inl rfl) hr, ItemOk.bitmap hs1 (Or.inr rfl) hr1⟩
  | tertiary hs hr _ hs1 hr1 _ hr2 =>
    simpa using ⟨ItemOk.bitmap hs (Or.inl rfl) hr, ItemOk.bitmap2 hs1 (Or.inr rfl) hr1 hr2⟩
  | oddPrimary hs hr _ _ hr2 => simpa using ItemOk.bitmap2 hs (Or.inl rfl) hr hr2

theorem FieldsRead.ok {env : PyEnv} {spec : Spec} {is : List Nat} {its : List Item} (h : FieldsRead env spec is its)
    (h1 : 1 ∉ is) : ∀ x ∈ its, ItemOk env spec x := by
  induction h with
  | nil => simp
  | @cons i is it its fs n hs hk hr _ ih =>
    simp only [List.mem_cons, not_or] at h1
    intro x hx
    rcases List.mem_cons.1 hx with rfl | hx
    · exact .field (by rw [hk]; exact hs) (by rw [hk]; exact natStr_ne_letter (by decide))
        (by rw [hk]; exact natStr_ne_letter (by decide)) (by rw [hk]; exact natStr_ne_one (Ne.symm h1.1)) hr
    · exact ih h1.2 x hx

theorem MsgReads.ok {env : PyEnv} {spec : Spec} {items : List Item} (h : MsgReads env spec items) :
    ∀ x ∈ items, ItemOk env spec x := by
  obtain ⟨hdr, ty, bms, flds, F, rfl, hh, ht, hb, hf⟩ := h
  obtain ⟨_, h1, _, _⟩ := hb.fields
  intro x hx
  simp only [List.append_assoc, List.cons_append, List.mem_append, List.mem_cons] at hx
  rcases hx with hx | rfl | hx | hx
  · exact hh.ok x hx
  · exact .type ht
  · exact hb.ok x hx
  · exact hf.ok (by simpa using h1) x hx

theorem decodeCore_of_reads {env : PyEnv} {spec : Spec} {s : Bytes} {items : List Item} (h : MsgReads env spec items)
    (hp : wireOf items <+: s) :
    ∃ last, decodeCore env spec s (.of []) = (.ok ((wireOf items).length, last), .of items) := by
  obtain ⟨hdr, ty, bms, flds, F, rfl, hh, ht, hb, hf⟩ := h.parts
  have hK := hh.keys
  have hB := hb.keys
  obtain ⟨hF, hF1, _, _⟩ := hb.fields
  have hty : ty.key = py"t" := ht.choose_spec.2.1
  have hp0 : wireOf hdr ++ (ty.wire ++ (wireOf bms ++ wireOf flds)) <+: s.drop 0 := by simpa using hp
  rw [prefix_drop_append, prefix_drop_append, prefix_drop_append] at hp0
  obtain ⟨p1, p2, p3, p4⟩ := hp0
  refine ⟨lastKey (lastKey py"p" bms) flds, ?_⟩
  simp only [decodeCore, run_bind]
  rw [decodeHeader_of_reads hh (by simpa using p1)]
  simp only
  rw [decodeType_of_reads ht (by rcases hK with h | h <;> simp [h]) (by simpa using p2)]
  simp only
  rw [decodeBitmaps_of_reads hb (by rcases hK with h | h <;> simp [h, hty]) (by rcases hK with h | h <;> simp [h, hty])
    (by simpa using p3)]
  simp only
  rw [decodeFields_of_reads hf ?_ (by simpa using p4)]
  · simp [Nat.add_assoc]
  · have := nodup_msg_keys (F := sortedNat F) hK hB (sortedNat_nodup hF) (by simpa using hF1)
    simpa [hf.keys, hty] using this

/-- What `decodeCore` does in every case. -/
theorem decodeCore_cases (env : PyEnv) (spec : Spec) (s : Bytes) :
    (∃ items last, MsgReads env spec items ∧ wireOf items <+: s ∧ (items.getLast?.map Item.key) = some last ∧
      decodeCore env spec s (.of []) = (.ok ((wireOf items).length, last), .of items)) ∨
    (∃ m pos its it, (keysOf (its ++ [it])).Nodup ∧ wireOf (its ++ [it]) <+: s ∧ pos ≤ s.length ∧ m ≠ .extraData ∧
      Fault env spec s m pos (wireOf its).length it ∧ (∀ x ∈ its, ItemOk env spec x) ∧
      decodeCore env spec s (.of []) = (.error (.err m pos it.key), .of (its ++ [it]))) ∨
    (∃ k items, (k ∈ [py"h", py"t", py"p", py"1"] ∨ ∃ bms F i, BitmapsRead env spec bms F ∧ i ∈ F ∧ k = natStr i) ∧
      spec.get? k = none ∧ wireOf items <+: s ∧
      decodeCore env spec s (.of []) = (.error (.keyError k), .of items)) := by
  simp only [decodeCore, run_bind]
  rcases decodeHeader_cases env spec s with ⟨hdr, hh, hp, hrun⟩ | ⟨m, pos, it, hk, hp, hpos, hm, hf, hrun⟩ | ⟨hk, hrun⟩
  rotate_left
  · right; left
    obtain ⟨fs, hs, hf⟩ := hf
    exact ⟨m, pos, [], it, by simp, by simpa using hp, hpos, hm,
      .field (by rw [hk]; exact hs) (by simp [hk]) (by simp [hk]) (by simp [hk]) (by simpa using hf), by simp, by rw [hrun]; rfl⟩
  · right; right
    exact ⟨py"h", [], by simp, hk, by simp, by rw [hrun]⟩
  rw [hrun]
  simp only
  have hK := hh.keys
  have hidx : (wireOf hdr).length ≤ s.length := hp.length_le
  rcases decodeType_cases env spec s (wireOf hdr).length (items := hdr) (by rcases hK with h | h <;> simp [h]) hidx with
    ⟨ty, ht, hp2, hrun2⟩ | ⟨m, pos, it, hk, hp2, hpos, hm, hf, hrun2⟩ | ⟨hk, hrun2⟩
  rotate_left
  · right; left
    refine ⟨m, pos, hdr, it, by rcases hK with h | h <;> simp [h, hk], ?_, hpos, hm,
      .type (by rw [hk]; exact hf.choose_spec.1) hk hf.choose_spec.2, hh.ok, by rw [hrun2]⟩
    have := prefix_drop_append.2 ⟨(show wireOf hdr <+: s.drop 0 by simpa using hp), (by simpa using hp2)⟩
    simpa using this
  · right; right
    exact ⟨py"t", hdr, by simp, hk, hp, by rw [hrun2]⟩
  rw [hrun2]
  simp only
  have hty : ty.key = py"t" := ht.choose_spec.2.1
  have hp2' : wireOf (hdr ++ [ty]) <+: s := by
    have := prefix_drop_append.2 ⟨(show wireOf hdr <+: s.drop 0 by simpa using hp), (by simpa using hp2)⟩
    simpa using this
  have hidx2 : (wireOf hdr).length + ty.wire.length ≤ s.length := by simpa using hp2'.length_le
  have join : ∀ {a : Bytes}, a <+: s.drop ((wireOf hdr).length + ty.wire.length) → wireOf (hdr ++ [ty]) ++ a <+: s := by
    intro a ha
    have := prefix_drop_append.2 ⟨(show wireOf (hdr ++ [ty]) <+: s.drop 0 by simpa using hp2'), (by simpa using ha)⟩
    simpa using this
  rcases decodeBitmaps_cases env spec s ((wireOf hdr).length + ty.wire.length) (items := hdr ++ [ty])
      (by rcases hK with h | h <;> simp [h, hty]) (by rcases hK with h | h <;> simp [h, hty]) hidx2 with
    ⟨bms, F, hb, hp3, hrun3⟩ | ⟨m, pos, its, it, hkeys, hp3, hpos, hm, hf, hok, hrun3⟩ | ⟨k, its, hkk, hk, hp3, hrun3⟩
  rotate_left
  · right; left
    refine ⟨m, pos, hdr ++ [ty] ++ its, it, ?_, ?_, hpos, hm, ?_, ?_, by rw [hrun3]⟩
    · have := nodup_msg_keys (F := []) hK hkeys List.nodup_nil (by simp)
      simpa [hty] using this
    · have := join hp3
      simpa using this
    · simpa [Nat.add_assoc] using hf
    · intro x hx
      simp only [List.append_assoc, List.mem_append, List.mem_singleton] at hx
      rcases hx with hx | rfl | hx
      · exact hh.ok x hx
      · exact .type ht
      · exact hok x hx
  · right; right
    refine ⟨k, hdr ++ [ty] ++ its, by rcases hkk with rfl | rfl <;> simp, hk, ?_, by rw [hrun3]⟩
    have := join hp3
    simpa using this
  rw [hrun3]
  simp only
  have hB := hb.keys
  obtain ⟨hF, hF1, _, _⟩ := hb.fields
  have hnd := nodup_msg_keys (F := sortedNat F) hK hB (sortedNat_nodup hF) (by simpa using hF1)
  have hidx3 := prefix_drop_le hp3 hidx2
  have hj := join hp3
  rcases decodeFields_cases env spec s (sortedNat F) _ (lastKey py"p" bms) (hdr ++ [ty] ++ bms)
      (by simpa [hty] using hnd) hidx3 with
    ⟨flds, hfl, hp4, hrun4⟩ | ⟨m, pos, pre, i, post, its, it, hsplit, hpre, hk, hp4, hpos, hm, hf, hrun4⟩ |
    ⟨pre, i, post, its, hsplit, hpre, hk, hp4, hrun4⟩
  · left
    refine ⟨hdr ++ ty :: bms ++ flds, lastKey (lastKey py"p" bms) flds, ⟨hdr, ty, bms, flds, F, rfl, hh, ht, hb, hfl⟩, ?_, ?_, ?_⟩
    · have := prefix_drop_append.2 ⟨(show wireOf (hdr ++ [ty]) ++ wireOf bms <+: s.drop 0 by simpa using hj),
        (by simpa [Nat.add_assoc] using hp4)⟩
      simpa using this
    · have : bms ≠ [] := by rintro rfl; rcases hB with h | h <;> simp at h
      rcases list_concat_cases flds with rfl | ⟨l, a, rfl⟩
      · simp only [List.append_nil, lastKey]
        obtain ⟨x, hx⟩ : ∃ x, bms.getLast? = some x := ⟨bms.getLast this, List.getLast?_eq_some_getLast this⟩
        simp [List.getLast?_cons, hx]
      · simp [lastKey, List.getLast?_cons]
    · rw [hrun4]; simp [Nat.add_assoc]
  · right; left
    refine ⟨m, pos, hdr ++ [ty] ++ bms ++ its, it, ?_, ?_, hpos, hm, ?_, ?_, ?_⟩
    · have hs : (pre ++ [i]).Sublist (sortedNat F) := by rw [hsplit]; simp
      have := nodup_msg_keys (F := pre ++ [i]) hK hB (hs.nodup (sortedNat_nodup hF))
        (fun h => hF1 (by simpa using hs.subset h))
      simpa [hty, hpre.keys, hk] using this
    · have := prefix_drop_append.2 ⟨(show wireOf (hdr ++ [ty]) ++ wireOf bms <+: s.drop 0 by simpa using hj),
        (by simpa [Nat.add_assoc] using hp4)⟩
      simpa using this
    · obtain ⟨fs, hs, hf⟩ := hf
      have hi : i ≠ 1 := by
        rintro rfl
        apply hF1
        have : 1 ∈ sortedNat F := by rw [hsplit]; simp
        simpa using this
      exact .field (by rw [hk]; exact hs) (by rw [hk]; exact natStr_ne_letter (by decide))
        (by rw [hk]; exact natStr_ne_letter (by decide)) (by rw [hk]; exact natStr_ne_one hi)
        (by simpa [Nat.add_assoc] using hf)
    · have hs1 : 1 ∉ pre := by
        intro h
        apply hF1
        have : 1 ∈ sortedNat F := by rw [hsplit]; simp [h]
        simpa using this
      intro x hx
      simp only [List.append_assoc, List.mem_append, List.mem_singleton] at hx
      rcases hx with hx | rfl | hx | hx
      · exact hh.ok x hx
      · exact .type ht
      · exact hb.ok x hx
      · exact hpre.ok hs1 x hx
    · rw [hrun4]
  · right; right
    refine ⟨natStr i, hdr ++ [ty] ++ bms ++ its, Or.inr ⟨bms, F, i, hb, ?_, rfl⟩, hk, ?_, by rw [hrun4]⟩
    · have : i ∈ sortedNat F := by rw [hsplit]; simp
      simpa using this
    have := prefix_drop_append.2 ⟨(show wireOf (hdr ++ [ty]) ++ wireOf bms <+: s.drop 0 by simpa using hj),
      (by simpa [Nat.add_assoc] using hp4)⟩
    simpa using this

end Iso8583
