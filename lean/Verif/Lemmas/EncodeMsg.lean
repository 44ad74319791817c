import Verif.Lemmas.EncodeField
import Verif.Lemmas.Decode
/-!
# Encoding a whole message: what success means, and reading it back

The items of a successful encode, in order, mirror the items of a successful decode.  The `val`
of an item is the text decode gives back.
-/

namespace Iso8583

/-- The outcome of `encode` in terms of the pure function. -/
def excOf (dec : Doc) (enc : EncDoc) : EncRaise → EncodeExc
  | .err m f => .encodeError ⟨m, dec, enc, f⟩
  | .keyError k => .keyError k
  | .valueError => .valueError
  | .typeError => .typeError
  | .unboundLocal => .unboundLocal
  | .indexError => .indexError

/-- Values looked up in the caller's dict. -/
def lookup (doc : Doc) (k : Str) : Option Val := doc.get? (.str k)

/-- The numbers the keys denote. -/
def numsOf (env : PyEnv) (doc : Doc) : Except EncRaise (List Int) := numericKeys env (cleaned doc).keys (cleaned doc).keys

theorem encode_run (env : PyEnv) (spec : Spec) (doc : Doc) :
    encode env spec doc =
      let R := encPure env spec (lookup doc) (numsOf env doc)
      ((match R.1 with
        | .ok s => .ok (s, R.2.1)
        | .error r => .error (excOf (applySets (cleaned doc) R.2.2) R.2.1 r)), applySets (cleaned doc) R.2.2) := by
  unfold encode
  rw [encodeBody_run]
  simp only
  have : (fun k => doc.get? (.str k)) = lookup doc := rfl
  rw [this]
  have : numericKeys env (cleaned doc).keys (cleaned doc).keys = numsOf env doc := rfl
  rw [this]
  cases (encPure env spec (lookup doc) (numsOf env doc)).1 with
  | ok s => rfl
  | error r => cases r <;> rfl

/-! ## Items -/

/-- The header item. -/
def HeaderWrites (env : PyEnv) (spec : Spec) (g : Str → Option Val) (hdr : List Item) : Prop :=
  ∃ fs, spec.get? py"h" = some fs ∧
    if fs.maxLen ≤ 0 then hdr = []
    else ∃ v n it, hdr = [it] ∧ it.key = py"h" ∧ g py"h" = some v ∧ FieldWrites env fs v n it.len it.data ∧
      it.val = readBack fs v

/-- The message type item. -/
def TypeWrites (env : PyEnv) (spec : Spec) (g : Str → Option Val) (it : Item) : Prop :=
  ∃ fs v, spec.get? py"t" = some fs ∧ g py"t" = some v ∧ it.key = py"t" ∧ it.len = [] ∧
    DataWrites env (asType fs) v (typeWidth fs) it.data ∧ (fs.isBinary → v.Hexable (asType fs)) ∧ it.val = readBack fs v

/-- `D` is what is written for bitmap `bm`. -/
def BitmapWrites (env : PyEnv) (fs : FieldSpec) (bm D : Bytes) : Prop :=
  if fs.isBinary then D = bm else ∃ c, env.codec fs.dataEnc = some c ∧ c.encode (hexText bm) = some D

/-- The bitmap items. -/
inductive BitmapsWrite (env : PyEnv) (spec : Spec) (F : List Nat) : List Item → Prop
  | primary {fs : FieldSpec} {D : Bytes} : spec.get? py"p" = some fs → BitmapWrites env fs (bitmapOf 0 (priOf F)) D →
      1 ∉ f2Of F → BitmapsWrite env spec F [⟨py"p", [], D, hexText (bitmapOf 0 (priOf F))⟩]
  | secondary {fs fs1 : FieldSpec} {D D1 : Bytes} : spec.get? py"p" = some fs →
      BitmapWrites env fs (bitmapOf 0 (priOf F)) D → 1 ∈ f2Of F → spec.get? py"1" = some fs1 →
      BitmapWrites env fs1 (bitmapOf 64 (secOf F)) D1 → 65 ∉ f2Of F →
      BitmapsWrite env spec F
        [⟨py"p", [], D, hexText (bitmapOf 0 (priOf F))⟩, ⟨py"1", [], D1, hexText (bitmapOf 64 (secOf F))⟩]
  | tertiary {fs fs1 : FieldSpec} {D D1 D2 : Bytes} : spec.get? py"p" = some fs →
      BitmapWrites env fs (bitmapOf 0 (priOf F)) D → 1 ∈ f2Of F → spec.get? py"1" = some fs1 →
      BitmapWrites env fs1 (bitmapOf 64 (secOf F)) D1 → 65 ∈ f2Of F → BitmapWrites env fs1 (bitmapOf 128 (terOf F)) D2 →
      BitmapsWrite env spec F
        [⟨py"p", [], D, hexText (bitmapOf 0 (priOf F))⟩,
         ⟨py"1", [], D1 ++ D2, hexText (bitmapOf 64 (secOf F)) ++ hexText (bitmapOf 128 (terOf F))⟩]

/-- The field items. -/
inductive FieldsWrite (env : PyEnv) (spec : Spec) (g : Str → Option Val) : List Nat → List Item → Prop
  | nil : FieldsWrite env spec g [] []
  | cons {i : Nat} {is : List Nat} {it : Item} {items : List Item} {fs : FieldSpec} {v : Val} {n : Nat} :
      spec.get? (natStr i) = some fs → g (natStr i) = some v → it.key = natStr i →
      FieldWrites env fs v n it.len it.data → it.val = readBack fs v →
      FieldsWrite env spec g is items → FieldsWrite env spec g (i :: is) (it :: items)

/-- All items of a message with field numbers `F`. -/
structure MsgWrites (env : PyEnv) (spec : Spec) (g : Str → Option Val) (F : List Nat) (items bms : List Item) : Prop where
  parts : ∃ hdr ty flds, items = hdr ++ ty :: bms ++ flds ∧ HeaderWrites env spec g hdr ∧ TypeWrites env spec g ty ∧
    BitmapsWrite env spec F bms ∧ FieldsWrite env spec g (sortedNat (restOf F)) flds

/-- The texts written into the caller's dict. -/
def textsOf (bms : List Item) : List (Str × Str) := bms.map fun it => (it.key, it.val)

/-! ## Success of the parts -/

theorem retBytes_ok {o : Except EncRaise Unit × EncEntry} {w : Bytes} :
    retBytes o = .ok w ↔ o = (.ok (), o.2) ∧ w = o.2.len ++ o.2.data := by
  obtain ⟨r, e⟩ := o
  cases r <;> simp [retBytes, eq_comm]

theorem hdrPure_ok_iff {env : PyEnv} {spec : Spec} {g : Str → Option Val} {w : Bytes} {enc : EncDoc} :
    hdrPure env spec g = (.ok w, enc) ↔ ∃ hdr, HeaderWrites env spec g hdr ∧ w = wireOf hdr ∧ enc = encOf hdr := by
  unfold hdrPure HeaderWrites
  cases hs : spec.get? py"h" with
  | none => simp
  | some fs =>
    simp only [Option.some.injEq]
    by_cases hm : fs.maxLen ≤ 0
    · rw [if_pos hm]
      constructor
      · intro h; cases h; exact ⟨[], ⟨fs, rfl, by rw [if_pos hm]⟩, rfl, rfl⟩
      · rintro ⟨hdr, ⟨fs', rfl, h⟩, rfl, rfl⟩
        rw [if_pos hm] at h
        subst h; rfl
    · rw [if_neg hm]
      cases hg : g py"h" with
      | none =>
        simp only [Prod.mk.injEq, reduceCtorEq, false_and, false_iff]
        rintro ⟨hdr, ⟨fs', rfl, h⟩, _⟩
        rw [if_neg hm] at h
        obtain ⟨v, n, it, _, _, h, _⟩ := h
      | some v =>
        simp only [Prod.mk.injEq]
        constructor
        · rintro ⟨h1, h2⟩
          obtain ⟨h3, h4⟩ := retBytes_ok.1 h1
          obtain ⟨n, hw⟩ := encOut_ok_iff.1 h3
          refine ⟨[⟨py"h", (encOut env py"h" fs v).2.len, (encOut env py"h" fs v).2.data, readBack fs v⟩], ⟨fs, rfl, ?_⟩, ?_, ?_⟩
          · rw [if_neg hm]; exact ⟨v, n, _, rfl, rfl, rfl, hw, rfl⟩
          · rw [h4]; simp [Item.wire]
          · rw [← h2]; simp [encOf, Item.entry]
        · rintro ⟨hdr, ⟨fs', rfl, h⟩, rfl, rfl⟩
          rw [if_neg hm] at h
          obtain ⟨v', n, it, rfl, hk, hv, hw, _⟩ := h
          cases hv
          have := (encOut_ok_iff (e := it.entry) (key := py"h")).2 ⟨n, hw⟩
          rw [this]
          simp [retBytes, Item.wire, Item.entry, encOf, hk]

theorem typeEnc_ok_iff {env : PyEnv} {fs : FieldSpec} {v : Val} {w D : Bytes} :
    typeEnc env fs v = (.ok w, D) ↔
      DataWrites env (asType fs) v (typeWidth fs) D ∧ (fs.isBinary → v.Hexable (asType fs)) ∧ w = D := by
  have hcount : (asType fs).count = py"bytes" := rfl
  have hdata : (asType fs).dataEnc = fs.dataEnc := rfl
  have hbin : ∀ v : Val, encodeBinaryField v py"t" fs py"bytes" = encodeBinaryField v py"t" (asType fs) py"bytes" := by
    intro v
    unfold encodeBinaryField
    simp
  have htxt : ∀ v : Val, encodeTextField env v py"t" fs py"bytes" = encodeTextField env v py"t" (asType fs) py"bytes" := by
    intro v; rfl
  have key : (if fs.dataEnc = py"b" then encodeBinaryField v py"t" fs py"bytes"
      else encodeTextField env v py"t" fs py"bytes") = encData env py"t" (asType fs) v := by
    unfold encData
    rw [hcount, hdata, hbin, htxt]
  unfold typeEnc
  rw [key]
  have hbb : (asType fs).isBinary ↔ fs.isBinary := Iff.rfl
  cases hd : encData env py"t" (asType fs) v with
  | error r =>
    simp only [Prod.mk.injEq, reduceCtorEq, false_and, false_iff]
    rintro ⟨h1, h2, _⟩
    rw [encData_ok.2 ⟨h1, h2⟩] at hd; cases hd
  | ok dn =>
    obtain ⟨D', n⟩ := dn
    simp only
    constructor
    · intro h
      split at h
      · cases h
      · next hn =>
        cases h
        obtain ⟨h1, h2⟩ := encData_ok.1 hd
        have : n = typeWidth fs := by omega
        subst this
        exact ⟨h1, h2, rfl⟩
    · rintro ⟨h1, h2, rfl⟩
      rw [encData_ok.2 ⟨h1, h2⟩] at hd
      cases hd
      simp

theorem typePure_ok_iff {env : PyEnv} {spec : Spec} {g : Str → Option Val} {w : Bytes} {enc : EncDoc} :
    typePure env spec g = (.ok w, enc) ↔ ∃ ty, TypeWrites env spec g ty ∧ w = ty.wire ∧ enc = encOf [ty] := by
  unfold typePure TypeWrites
  cases hg : g py"t" with
  | none => simp
  | some v =>
    cases hs : spec.get? py"t" with
    | none => simp
    | some fs =>
      simp only [Prod.mk.injEq, Option.some.injEq]
      constructor
      · rintro ⟨h1, rfl⟩
        obtain ⟨h3, h4, h5⟩ := typeEnc_ok_iff.1 (Prod.ext h1 rfl)
        exact ⟨⟨py"t", [], _, readBack fs v⟩, ⟨fs, v, rfl, rfl, rfl, rfl, h3, h4, rfl⟩, by simp [Item.wire, h5],
          by simp [encOf, Item.entry]⟩
      · rintro ⟨ty, ⟨fs', v', rfl, rfl, hk, hl, h1, h2, h3⟩, rfl, rfl⟩
        have := typeEnc_ok_iff.2 ⟨h1, h2, rfl⟩
        rw [this]
        simp [Item.wire, hl, encOf, Item.entry, hk]

theorem hexUp_eq_hexText (b : Bytes) : hexUp b = hexText b := hexText_eq b

theorem bmData_ok_iff {env : PyEnv} {key : Str} {fs : FieldSpec} {bm D : Bytes} :
    bmData env key fs bm = .ok D ↔ BitmapWrites env fs bm D := by
  unfold bmData BitmapWrites
  by_cases hb : fs.isBinary
  · rw [if_pos (show fs.dataEnc = py"b" from hb), if_pos hb]
    simp [eq_comm]
  · rw [if_neg (show ¬ fs.dataEnc = py"b" from hb), if_neg hb]
    simp only [encodeTextField, strEncode, hexUp_eq_hexText]
    cases env.codec fs.dataEnc with
    | none => simp
    | some c => cases h : c.encode (hexText bm) <;> simp [h]

theorem bmsPure_ok_iff {env : PyEnv} {spec : Spec} {F : List Nat} {w : Bytes} {enc : EncDoc} {texts : List (Str × Str)} :
    bmsPure env spec (priOf F) (secOf F) (terOf F) (1 ∈ f2Of F) (65 ∈ f2Of F) = (.ok w, enc, texts) ↔
      ∃ bms, BitmapsWrite env spec F bms ∧ w = wireOf bms ∧ enc = encOf bms ∧ texts = textsOf bms := by
  constructor
  · unfold bmsPure
    cases hp : spec.get? py"p" with
    | none => simp
    | some fs =>
      dsimp only
      cases hd : bmData env py"p" fs (bitmapOf 0 (priOf F)) with
      | error r => simp
      | ok D =>
        have hw := bmData_ok_iff.1 hd
        by_cases h1 : 1 ∈ f2Of F
        · simp only [h1, decide_true, if_true]
          cases hs1 : spec.get? py"1" with
          | none => simp
          | some fs1 =>
            dsimp only
            cases hd1 : bmData env py"1" fs1 (bitmapOf 64 (secOf F)) with
            | error r => simp
            | ok D1 =>
              have hw1 := bmData_ok_iff.1 hd1
              by_cases h65 : 65 ∈ f2Of F
              · simp only [h65, decide_true, if_true]
                cases hd2 : bmData env py"1" fs1 (bitmapOf 128 (terOf F)) with
                | error r => simp
                | ok D2 =>
                  have hw2 := bmData_ok_iff.1 hd2
                  intro h; cases h
                  exact ⟨_, .tertiary hp hw h1 hs1 hw1 h65 hw2, by simp [Item.wire], by simp [encOf, Item.entry],
                    by simp [textsOf, hexUp_eq_hexText]⟩
              · simp only [h65, decide_false, Bool.false_eq_true, if_false]
                intro h; cases h
                exact ⟨_, .secondary hp hw h1 hs1 hw1 h65, by simp [Item.wire], by simp [encOf, Item.entry],
                  by simp [textsOf, hexUp_eq_hexText]⟩
        · simp only [h1, decide_false, Bool.false_eq_true, if_false]
          intro h; cases h
          exact ⟨_, .primary hp hw h1, by simp [Item.wire], by simp [encOf, Item.entry],
            by simp [textsOf, hexUp_eq_hexText]⟩
  · rintro ⟨bms, h, rfl, rfl, rfl⟩
    unfold bmsPure
    cases h with
    | primary hp hw h1 =>
      simp [hp, bmData_ok_iff.2 hw, h1, Item.wire, encOf, Item.entry, textsOf, hexUp_eq_hexText]
    | secondary hp hw h1 hs1 hw1 h65 =>
      simp [hp, bmData_ok_iff.2 hw, h1, hs1, bmData_ok_iff.2 hw1, h65, Item.wire, encOf, Item.entry, textsOf,
        hexUp_eq_hexText]
    | tertiary hp hw h1 hs1 hw1 h65 hw2 =>
      simp [hp, bmData_ok_iff.2 hw, h1, hs1, bmData_ok_iff.2 hw1, h65, bmData_ok_iff.2 hw2, Item.wire, encOf, Item.entry,
        textsOf, hexUp_eq_hexText]

theorem fieldsPure_ok_iff {env : PyEnv} {spec : Spec} {g : Str → Option Val} : ∀ {is : List Nat} {w : Bytes} {enc : EncDoc},
    fieldsPure env spec g is = (.ok w, enc) ↔ ∃ flds, FieldsWrite env spec g is flds ∧ w = wireOf flds ∧ enc = encOf flds
  | [], w, enc => by
    simp only [fieldsPure, Prod.mk.injEq, Except.ok.injEq]
    constructor
    · rintro ⟨rfl, rfl⟩; exact ⟨[], .nil, rfl, rfl⟩
    · rintro ⟨flds, h, rfl, rfl⟩; cases h; exact ⟨rfl, rfl⟩
  | i :: is, w, enc => by
    constructor
    · rw [fieldsPure]
      cases hs : spec.get? (natStr i) with
      | none => simp
      | some fs =>
        dsimp only
        cases hg : g (natStr i) with
        | none => simp
        | some v =>
          dsimp only
          cases hr : retBytes (encOut env (natStr i) fs v) with
          | error r => simp
          | ok w0 =>
            dsimp only
            cases hq : fieldsPure env spec g is with
            | mk q1 q2 =>
              cases q1 with
              | error r => simp
              | ok ws =>
                intro h
                cases h
                obtain ⟨flds, h1, rfl, rfl⟩ := (fieldsPure_ok_iff (is := is)).1 hq
                obtain ⟨h2, rfl⟩ := retBytes_ok.1 hr
                obtain ⟨n, hw⟩ := encOut_ok_iff.1 h2
                exact ⟨⟨natStr i, _, _, readBack fs v⟩ :: flds, .cons hs hg rfl hw rfl h1, by simp [Item.wire],
                  by simp [encOf, Item.entry]⟩
    · rintro ⟨flds, h, rfl, rfl⟩
      cases h with
      | cons hs hg hk hw hv hrest =>
        next it items fs v n =>
        have h1 := (fieldsPure_ok_iff (is := is)).2 ⟨items, hrest, rfl, rfl⟩
        have h2 := (encOut_ok_iff (e := it.entry) (key := natStr i)).2 ⟨n, hw⟩
        rw [fieldsPure]
        simp [hs, hg, h1, h2, retBytes, Item.entry, Item.wire, encOf, hk]

theorem encPure_ok_iff {env : PyEnv} {spec : Spec} {g : Str → Option Val} {nums : Except EncRaise (List Int)} {s : Bytes}
    {enc : EncDoc} {texts : List (Str × Str)} :
    encPure env spec g nums = (.ok s, enc, texts) ↔
      ∃ ns, nums = .ok ns ∧ (setUpdate [] ns).all inRange = true ∧ ∃ items bms,
        MsgWrites env spec g ((setUpdate [] ns).map Int.toNat) items bms ∧ s = wireOf items ∧ enc = encOf items ∧
        texts = textsOf bms := by
  constructor
  · unfold encPure
    cases hH : hdrPure env spec g with
    | mk H1 H2 =>
    cases H1 with
    | error r => simp
    | ok h =>
    obtain ⟨hdr, hh, rfl, rfl⟩ := hdrPure_ok_iff.1 hH
    dsimp only
    cases hT : typePure env spec g with
    | mk T1 T2 =>
    cases T1 with
    | error r => simp
    | ok t =>
    obtain ⟨ty, ht, rfl, rfl⟩ := typePure_ok_iff.1 hT
    dsimp only
    cases nums with
    | error r => simp
    | ok ns =>
    simp only [Except.ok.injEq, exists_eq_left']
    split
    · next hr =>
      unfold bodyPure
      cases hB : bmsPure env spec (priOf ((setUpdate [] ns).map Int.toNat)) (secOf ((setUpdate [] ns).map Int.toNat))
          (terOf ((setUpdate [] ns).map Int.toNat)) (1 ∈ f2Of ((setUpdate [] ns).map Int.toNat))
          (65 ∈ f2Of ((setUpdate [] ns).map Int.toNat)) with
      | mk B1 B2 =>
      obtain ⟨B2, B3⟩ := B2
      cases B1 with
      | error r => simp
      | ok b =>
      obtain ⟨bms, hb, rfl, rfl, rfl⟩ := bmsPure_ok_iff.1 hB
      dsimp only
      cases hQ : fieldsPure env spec g (sortedNat (restOf ((setUpdate [] ns).map Int.toNat))) with
      | mk Q1 Q2 =>
      cases Q1 with
      | error r => simp
      | ok q =>
      obtain ⟨flds, hf, rfl, rfl⟩ := fieldsPure_ok_iff.1 hQ
      intro h
      cases h
      exact ⟨hr, hdr ++ ty :: bms ++ flds, bms, ⟨hdr, ty, flds, rfl, hh, ht, hb, hf⟩, by simp, by simp [encOf], rfl⟩
    · simp
  · rintro ⟨ns, rfl, hr, items, bms, ⟨hdr, ty, flds, rfl, hh, ht, hb, hf⟩, rfl, rfl, rfl⟩
    unfold encPure
    rw [hdrPure_ok_iff.2 ⟨hdr, hh, rfl, rfl⟩, typePure_ok_iff.2 ⟨ty, ht, rfl, rfl⟩]
    dsimp only
    rw [if_pos hr]
    unfold bodyPure
    rw [bmsPure_ok_iff.2 ⟨bms, hb, rfl, rfl, rfl⟩]
    dsimp only
    rw [fieldsPure_ok_iff.2 ⟨flds, hf, rfl, rfl⟩]
    simp [encOf]

/-- Success of `encode`. -/
theorem encode_ok_iff {env : PyEnv} {spec : Spec} {doc doc' : Doc} {s : Bytes} {enc : EncDoc} :
    encode env spec doc = (.ok (s, enc), doc') ↔
      ∃ ns, numsOf env doc = .ok ns ∧ (setUpdate [] ns).all inRange = true ∧ ∃ items bms,
        MsgWrites env spec (lookup doc) ((setUpdate [] ns).map Int.toNat) items bms ∧ s = wireOf items ∧
        enc = encOf items ∧ doc' = applySets (cleaned doc) (textsOf bms) := by
  rw [encode_run]
  cases hR : encPure env spec (lookup doc) (numsOf env doc) with
  | mk R1 R2 =>
  obtain ⟨R2, R3⟩ := R2
  cases R1 with
  | error r =>
    simp only [Prod.mk.injEq, reduceCtorEq, false_and, false_iff]
    rintro ⟨ns, h1, h2, items, bms, hw, _⟩
    rw [encPure_ok_iff.2 ⟨ns, h1, h2, items, bms, hw, rfl, rfl, rfl⟩] at hR
    cases hR
  | ok s' =>
    simp only [Prod.mk.injEq, Except.ok.injEq]
    constructor
    · rintro ⟨⟨rfl, rfl⟩, rfl⟩
      obtain ⟨ns, h1, h2, items, bms, hw, h3, h4, h5⟩ := encPure_ok_iff.1 hR
      exact ⟨ns, h1, h2, items, bms, hw, h3, h4, by rw [h5]⟩
    · rintro ⟨ns, h1, h2, items, bms, hw, rfl, rfl, rfl⟩
      rw [encPure_ok_iff.2 ⟨ns, h1, h2, items, bms, hw, rfl, rfl, rfl⟩] at hR
      cases hR
      exact ⟨⟨rfl, rfl⟩, rfl⟩

end Iso8583
