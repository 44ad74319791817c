import Verif.Lemmas.DecodeMsg
/-!
# Encoding as a pure function

`encodeBody` is shown equal to a pure function `encPure` of the values looked up in the caller's
dict and of the numbers its keys denote.
-/

namespace Iso8583
open PyM

/-! ## One field -/

/-- Encoded data of a field and its number of units. -/
def encData (env : PyEnv) (key : Str) (fs : FieldSpec) (v : Val) : Except EncRaise (Bytes × Nat) :=
  if fs.dataEnc = py"b" then encodeBinaryField v key fs fs.count
  else encodeTextField env v key fs fs.count

/-- Encoded length prefix: outcome, and what the entry's `len` is left at. -/
def lenOut (env : PyEnv) (key : Str) (fs : FieldSpec) (n : Nat) : Except EncRaise Unit × Bytes :=
  if fs.lenEnc = py"b" then
    match toBytesBE n fs.lenType with
    | none => (.error (.err .lenDoesNotFit key), [])
    | some l => (.ok (), l)
  else if fs.lenEnc = py"bcd" then
    let t := zeroPad (fs.lenType * 2) n
    if t.length > fs.lenType * 2 then (.error (.err .lenDoesNotFit key), [])
    else match a2bHex t with
      | none => (.error .valueError, [])
      | some l => (.ok (), l)
  else
    match strEncode env fs.lenEnc (zeroPad fs.lenType n) with
    | .error .lookup => (.error (.err .lenUnknownEncoding key), [])
    | .error .invalid => (.error (.err .lenInvalid key), [])
    | .ok l => if l.length > fs.lenType then (.error (.err .lenDoesNotFit key), l) else (.ok (), l)

theorem encodeLength_run (env : PyEnv) (n : Nat) (key : Str) (fs : FieldSpec) (st : EncState) (e : EncEntry)
    (he : st.enc.get? key = some e) (hl : e.len = []) :
    encodeLength env n key fs st =
      ((lenOut env key fs n).1, { st with enc := st.enc.set key { e with len := (lenOut env key fs n).2 } }) := by
  have hself : st.enc.set key { e with len := [] } = st.enc := by
    have : ({ e with len := [] } : EncEntry) = e := by cases e; simp_all
    rw [this]; exact Dict.set_get?_self he
  simp only [encodeLength, run_bind, encGet, run_get, he, run_pure, lenOut, run_ite]
  split
  · cases toBytesBE n fs.lenType with
    | none => simp [encFail, hself]
    | some l => simp [encSet]
  · split
    · split
      · simp [encFail, hself]
      · cases a2bHex (zeroPad (fs.lenType * 2) n) with
        | none => simp [hself]
        | some l => simp [encSet]
    · cases strEncode env fs.lenEnc (zeroPad fs.lenType n) with
      | error c => cases c <;> simp [encFail, hself]
      | ok l =>
        simp only [run_bind, encSet, run_modify, run_ite]
        split <;> simp [encFail]

/-- Outcome of encoding one field, and the entry it leaves behind. -/
def encOut (env : PyEnv) (key : Str) (fs : FieldSpec) (v : Val) : Except EncRaise Unit × EncEntry :=
  match encData env key fs v with
  | .error r => (.error r, ⟨[], []⟩)
  | .ok (D, n) =>
    if fs.lenType = 0 then
      if (n : Int) ≠ fs.maxLen then (.error (.err (.fixedLen n fs.count fs.maxLen) key), ⟨[], D⟩)
      else (.ok (), ⟨[], D⟩)
    else if (n : Int) > fs.maxLen then (.error (.err (.tooLong n fs.count fs.maxLen) key), ⟨[], D⟩)
    else ((lenOut env key fs n).1, ⟨(lenOut env key fs n).2, D⟩)

/-- The bytes returned on success. -/
def retBytes (o : Except EncRaise Unit × EncEntry) : Except EncRaise Bytes :=
  match o.1 with
  | .ok _ => .ok (o.2.len ++ o.2.data)
  | .error r => .error r

theorem encodeField_run (env : PyEnv) (key : Str) (fs : FieldSpec) (st : EncState) :
    encodeField env key fs st =
      match st.dec.get? (.str key) with
      | none => (.error (.keyError key), { st with enc := st.enc.set key ⟨[], []⟩ })
      | some v => (retBytes (encOut env key fs v), { st with enc := st.enc.set key (encOut env key fs v).2 }) := by
  simp only [encodeField, run_bind, encSet, run_modify, docGet, run_get]
  cases st.dec.get? (.str key) with
  | none => rfl
  | some v =>
    simp only [run_pure, run_lift]
    have : (if fs.dataEnc = py"b" then encodeBinaryField v key fs fs.count
        else encodeTextField env v key fs fs.count) = encData env key fs v := rfl
    rw [this]
    unfold encOut
    cases encData env key fs v with
    | error r => simp [retBytes]
    | ok dn =>
      obtain ⟨D, n⟩ := dn
      simp only [Dict.set_set, run_ite, encFail]
      by_cases h0 : fs.lenType = 0
      · simp only [if_pos h0]
        split <;> simp [retBytes, run_bind]
      · simp only [if_neg h0]
        split
        · simp [retBytes, run_bind]
        · rw [run_bind, encodeLength_run _ _ _ _ _ ⟨[], D⟩ (by simp [Dict.get?_set_same]) rfl]
          simp only [Dict.set_set]
          cases h : (lenOut env key fs n).1 with
          | error r => simp [retBytes]
          | ok _ => simp [encGet, run_bind, Dict.get?_set_same, retBytes]

/-! ## Header and type -/

/-- Header: outcome and entries. -/
def hdrPure (env : PyEnv) (spec : Spec) (g : Str → Option Val) : Except EncRaise Bytes × EncDoc :=
  match spec.get? py"h" with
  | none => (.error (.keyError py"h"), [])
  | some fs =>
    if fs.maxLen ≤ 0 then (.ok [], [])
    else match g py"h" with
      | none => (.error (.err .requiredBySpec py"h"), [])
      | some v => (retBytes (encOut env py"h" fs v), [(py"h", (encOut env py"h" fs v).2)])

theorem encodeHeader_run (env : PyEnv) (spec : Spec) (doc : Doc) :
    encodeHeader env spec ⟨doc, []⟩ =
      ((hdrPure env spec (fun k => doc.get? (.str k))).1,
       ⟨doc, (hdrPure env spec (fun k => doc.get? (.str k))).2⟩) := by
  simp only [encodeHeader, run_bind, encSpec, hdrPure]
  cases spec.get? py"h" with
  | none => rfl
  | some fs =>
    simp only [run_pure, run_ite]
    split
    · rfl
    · simp only [run_bind, run_get, encFail]
      cases h : doc.get? (.str py"h") with
      | none =>
        rw [if_pos (by simp [Dict.contains, h])]
        simp [run_bind]
      | some v =>
        rw [if_neg (by simp [Dict.contains, h])]
        rw [encodeField_run, h]
        simp [Dict.set]

/-- Message type of `v`: outcome and the entry's data. -/
def typeEnc (env : PyEnv) (fs : FieldSpec) (v : Val) : Except EncRaise Bytes × Bytes :=
  match (if fs.dataEnc = py"b" then encodeBinaryField v py"t" fs py"bytes"
      else encodeTextField env v py"t" fs py"bytes") with
  | .error r => (.error r, [])
  | .ok (D, n) => if n ≠ typeWidth fs then (.error (.err (.typeLen n (typeWidth fs)) py"t"), D) else (.ok D, D)

/-- Message type: outcome and entries. -/
def typePure (env : PyEnv) (spec : Spec) (g : Str → Option Val) : Except EncRaise Bytes × EncDoc :=
  match g py"t" with
  | none => (.error (.err .required py"t"), [])
  | some v =>
    match spec.get? py"t" with
    | none => (.error (.keyError py"t"), [])
    | some fs => ((typeEnc env fs v).1, [(py"t", ⟨[], (typeEnc env fs v).2⟩)])

theorem encodeType_run (env : PyEnv) (spec : Spec) (doc : Doc) (enc : EncDoc) (hk : py"t" ∉ enc.keys) :
    encodeType env spec ⟨doc, enc⟩ =
      ((typePure env spec (fun k => doc.get? (.str k))).1,
       ⟨doc, enc ++ (typePure env spec (fun k => doc.get? (.str k))).2⟩) := by
  simp only [encodeType, run_bind, encSpec, typePure, run_get, encFail]
  cases h : doc.get? (.str py"t") with
  | none =>
    rw [if_pos (by simp [Dict.contains, h])]
    simp [run_bind]
  | some v =>
    rw [if_neg (by simp [Dict.contains, h])]
    simp only [run_bind]
    cases spec.get? py"t" with
    | none => simp
    | some fs =>
      have hset : ∀ e, enc.set py"t" e = enc ++ [(py"t", e)] := fun e => Dict.set_of_not_mem hk
      simp only [run_pure, encSet, run_modify, docGet, run_bind, run_get, h, run_lift, typeEnc]
      have hw : (if fs.dataEnc = py"b" then 2 else 4) = typeWidth fs := rfl
      rw [hw]
      cases (if fs.dataEnc = py"b" then encodeBinaryField v py"t" fs py"bytes"
          else encodeTextField env v py"t" fs py"bytes") with
      | error r => simp [hset]
      | ok dn =>
        obtain ⟨D, n⟩ := dn
        simp only [Dict.set_set, run_ite]
        simp only [hset]
        split <;> simp [run_bind]

/-! ## Bitmaps -/

/-- Upper-case hex text of bytes. -/
def hexUp (b : Bytes) : Str := upperAscii (bytesHex b)

/-- The bitmap of a set of fields. -/
def bitmapOf (off : Nat) (F : List Nat) : Bytes := (bitmapLoop off F (List.replicate 8 0)).getD []

theorem bitmapOf_some {off : Nat} {F : List Nat} (h : ∀ f ∈ F, off + 1 ≤ f ∧ f ≤ off + 64) :
    bitmapLoop off F (List.replicate 8 0) = some (bitmapOf off F) := by
  obtain ⟨bm, h1, _⟩ := bitmapLoop_zero h
  simp only [bitmapOf, h1, Option.getD_some]

/-- The bytes written for a bitmap. -/
def bmData (env : PyEnv) (key : Str) (fs : FieldSpec) (bm : Bytes) : Except EncRaise Bytes :=
  if fs.dataEnc = py"b" then .ok bm
  else match encodeTextField env (.str (hexUp bm)) key fs py"bytes" with
    | .ok (d, _) => .ok d
    | .error r => .error r

theorem encodeBitmap_run {env : PyEnv} {key : Str} {fs : FieldSpec} {off : Nat} {F : List Nat} {st : EncState}
    {bm : Bytes} (hb : bitmapLoop off F (List.replicate 8 0) = some bm) :
    encodeBitmap env key fs off false F st =
      match bmData env key fs bm with
      | .ok d => (.ok d, ⟨st.dec.set (.str key) (.str (hexUp bm)), st.enc.set key ⟨[], d⟩⟩)
      | .error r => (.error r, ⟨st.dec.set (.str key) (.str (hexUp bm)), st.enc.set key ⟨[], []⟩⟩) := by
  simp only [encodeBitmap, hb, run_bind, run_pure, docSet, encSet, run_modify, Bool.false_eq_true, if_false, bmData, run_ite,
    run_lift]
  have hh : upperAscii (bytesHex bm) = hexUp bm := rfl
  rw [hh]
  split
  · simp [encGet, run_bind, Dict.get?_set_same, Dict.set_set]
  · cases encodeTextField env (.str (hexUp bm)) key fs py"bytes" with
    | error r => rfl
    | ok dn => simp [encGet, run_bind, Dict.get?_set_same, Dict.set_set]

theorem encodeBitmap_ext_run {env : PyEnv} {key : Str} {fs : FieldSpec} {off : Nat} {F : List Nat} {st : EncState}
    {bm : Bytes} {t0 : Str} {e0 : EncEntry} (hb : bitmapLoop off F (List.replicate 8 0) = some bm)
    (hd : st.dec.get? (.str key) = some (.str t0)) (he : st.enc.get? key = some e0) :
    encodeBitmap env key fs off true F st =
      match bmData env key fs bm with
      | .ok d => (.ok d, ⟨st.dec.set (.str key) (.str (t0 ++ hexUp bm)), st.enc.set key { e0 with data := e0.data ++ d }⟩)
      | .error r => (.error r, ⟨st.dec.set (.str key) (.str (t0 ++ hexUp bm)), st.enc⟩) := by
  simp only [encodeBitmap, hb, run_bind, run_pure, docAppend, docGet, run_get, hd, docSet, encSet, run_modify, if_true, bmData,
    run_ite, run_lift]
  have hh : upperAscii (bytesHex bm) = hexUp bm := rfl
  rw [hh]
  split
  · simp [encGet, run_bind, he]
  · cases encodeTextField env (.str (hexUp bm)) key fs py"bytes" with
    | error r => rfl
    | ok dn => simp [encGet, run_bind, he]

/-- The texts written into the caller's dict. -/
def applySets (doc : Doc) (sets : List (Str × Str)) : Doc :=
  sets.foldl (fun d kv => d.set (.str kv.1) (.str kv.2)) doc

/-- All bitmaps: outcome, entries, and texts written into the caller's dict. -/
def bmsPure (env : PyEnv) (spec : Spec) (pri sec ter : List Nat) (has1 has65 : Bool) :
    Except EncRaise Bytes × EncDoc × List (Str × Str) :=
  match spec.get? py"p" with
  | none => (.error (.keyError py"p"), [], [])
  | some fs =>
    let bm := bitmapOf 0 pri
    match bmData env py"p" fs bm with
    | .error r => (.error r, [(py"p", ⟨[], []⟩)], [(py"p", hexUp bm)])
    | .ok d =>
      if has1 then
        match spec.get? py"1" with
        | none => (.error (.keyError py"1"), [(py"p", ⟨[], d⟩)], [(py"p", hexUp bm)])
        | some fs1 =>
          let bm1 := bitmapOf 64 sec
          match bmData env py"1" fs1 bm1 with
          | .error r =>
            (.error r, [(py"p", ⟨[], d⟩), (py"1", ⟨[], []⟩)], [(py"p", hexUp bm), (py"1", hexUp bm1)])
          | .ok d1 =>
            if has65 then
              let bm2 := bitmapOf 128 ter
              match bmData env py"1" fs1 bm2 with
              | .error r =>
                (.error r, [(py"p", ⟨[], d⟩), (py"1", ⟨[], d1⟩)], [(py"p", hexUp bm), (py"1", hexUp bm1 ++ hexUp bm2)])
              | .ok d2 =>
                (.ok (d ++ d1 ++ d2), [(py"p", ⟨[], d⟩), (py"1", ⟨[], d1 ++ d2⟩)],
                  [(py"p", hexUp bm), (py"1", hexUp bm1 ++ hexUp bm2)])
            else (.ok (d ++ d1), [(py"p", ⟨[], d⟩), (py"1", ⟨[], d1⟩)], [(py"p", hexUp bm), (py"1", hexUp bm1)])
      else (.ok d, [(py"p", ⟨[], d⟩)], [(py"p", hexUp bm)])

/-! ## The list of fields -/

/-- Fields in order: outcome and entries. -/
def fieldsPure (env : PyEnv) (spec : Spec) (g : Str → Option Val) : List Nat → Except EncRaise Bytes × EncDoc
  | [] => (.ok [], [])
  | i :: rest =>
    match spec.get? (natStr i) with
    | none => (.error (.keyError (natStr i)), [])
    | some fs =>
      match g (natStr i) with
      | none => (.error (.keyError (natStr i)), [(natStr i, ⟨[], []⟩)])
      | some v =>
        let o := encOut env (natStr i) fs v
        match retBytes o with
        | .error r => (.error r, [(natStr i, o.2)])
        | .ok w =>
          let q := fieldsPure env spec g rest
          ((match q.1 with | .ok ws => .ok (w ++ ws) | .error r => .error r), (natStr i, o.2) :: q.2)

theorem encodeFields_run (env : PyEnv) (spec : Spec) (doc : Doc) (g : Str → Option Val) : ∀ (is : List Nat) (enc : EncDoc),
    (enc.keys ++ is.map natStr).Nodup → (∀ i ∈ is, doc.get? (.str (natStr i)) = g (natStr i)) →
    encodeFields env spec is ⟨doc, enc⟩ = ((fieldsPure env spec g is).1, ⟨doc, enc ++ (fieldsPure env spec g is).2⟩)
  | [], enc, _, _ => by simp [encodeFields, fieldsPure]
  | i :: is, enc, hnd, hg => by
    have hfresh : natStr i ∉ enc.keys := by
      simp [List.nodup_append] at hnd
      intro hmem
      exact (hnd.2.2 _ hmem).1 rfl
    have hset : ∀ e, enc.set (natStr i) e = enc ++ [(natStr i, e)] := fun e => Dict.set_of_not_mem hfresh
    simp only [encodeFields, run_bind, encSpec, fieldsPure]
    cases spec.get? (natStr i) with
    | none => simp
    | some fs =>
      simp only [run_pure, encodeField_run, hg i (by simp)]
      cases g (natStr i) with
      | none => simp [hset]
      | some v =>
        simp only [hset]
        cases retBytes (encOut env (natStr i) fs v) with
        | error r => rfl
        | ok w =>
          simp only
          rw [encodeFields_run env spec doc g is _ (by simpa [Dict.keys] using hnd) (fun j hj => hg j (by simp [hj]))]
          cases (fieldsPure env spec g is).1 <;> simp

/-! ## The whole message -/

/-- Fields above 128. -/
def terOf (F : List Nat) : List Nat := setInter F 129 193
/-- Adds 65 when a tertiary bitmap is needed. -/
def f1Of (F : List Nat) : List Nat := if terOf F ≠ [] then setAdd F 65 else F
/-- Fields of the secondary bitmap. -/
def secOf (F : List Nat) : List Nat := setInter (f1Of F) 65 129
/-- Adds 1 when a secondary bitmap is needed. -/
def f2Of (F : List Nat) : List Nat := if secOf F ≠ [] then setAdd (f1Of F) 1 else f1Of F
/-- Fields of the primary bitmap. -/
def priOf (F : List Nat) : List Nat := setInter (f2Of F) 1 65
/-- Fields carrying data. -/
def restOf (F : List Nat) : List Nat := setRemove (setRemove (f2Of F) 1) 65

theorem has1_of_has65 {F : List Nat} (h : 65 ∈ f2Of F) : 1 ∈ f2Of F := by
  have h65 : 65 ∈ f1Of F := by
    unfold f2Of at h
    split at h
    · simpa [mem_setAdd] using h
    · exact h
  have hs : secOf F ≠ [] := by
    intro e
    have : 65 ∈ secOf F := by simp [secOf, mem_setInter, h65]
    simp [e] at this
  simp [f2Of, hs, mem_setAdd]

/-- Bitmaps and fields: outcome, entries, texts written into the caller's dict. -/
def bodyPure (env : PyEnv) (spec : Spec) (g : Str → Option Val) (F : List Nat) :
    Except EncRaise Bytes × EncDoc × List (Str × Str) :=
  let B := bmsPure env spec (priOf F) (secOf F) (terOf F) (1 ∈ f2Of F) (65 ∈ f2Of F)
  match B.1 with
  | .error r => (.error r, B.2)
  | .ok b =>
    let Q := fieldsPure env spec g (sortedNat (restOf F))
    ((match Q.1 with | .ok w => .ok (b ++ w) | .error r => .error r), B.2.1 ++ Q.2, B.2.2)

/-- Everything: outcome, entries, texts written into the caller's dict. -/
def encPure (env : PyEnv) (spec : Spec) (g : Str → Option Val) (nums : Except EncRaise (List Int)) :
    Except EncRaise Bytes × EncDoc × List (Str × Str) :=
  let H := hdrPure env spec g
  match H.1 with
  | .error r => (.error r, H.2, [])
  | .ok h =>
    let T := typePure env spec g
    match T.1 with
    | .error r => (.error r, H.2 ++ T.2, [])
    | .ok t =>
      match nums with
      | .error r => (.error r, H.2 ++ T.2, [])
      | .ok ns =>
        if (setUpdate [] ns).all inRange then
          let R := bodyPure env spec g ((setUpdate [] ns).map Int.toNat)
          ((match R.1 with | .ok w => .ok (h ++ t ++ w) | .error r => .error r), H.2 ++ T.2 ++ R.2.1, R.2.2)
        else
          (.error (.err (.outOfRange (sortedBy id ((setUpdate [] ns).filter fun n => ¬ inRange n))) py"p"),
            H.2 ++ T.2, [])

theorem hdrPure_keys (env : PyEnv) (spec : Spec) (g : Str → Option Val) :
    Dict.keys (hdrPure env spec g).2 = [] ∨ Dict.keys (hdrPure env spec g).2 = [py"h"] := by
  unfold hdrPure
  split
  · simp [Dict.keys]
  · split
    · simp [Dict.keys]
    · split <;> simp [Dict.keys]

theorem typePure_keys (env : PyEnv) (spec : Spec) (g : Str → Option Val) :
    Dict.keys (typePure env spec g).2 = [] ∨ Dict.keys (typePure env spec g).2 = [py"t"] := by
  unfold typePure
  split
  · simp [Dict.keys]
  · split <;> simp [Dict.keys]

theorem typePure_ok_keys {env : PyEnv} {spec : Spec} {g : Str → Option Val} {t : Bytes}
    (h : (typePure env spec g).1 = .ok t) : Dict.keys (typePure env spec g).2 = [py"t"] := by
  unfold typePure at *
  cases hg : g py"t" with
  | none => simp [hg] at h
  | some v =>
    cases hs : spec.get? py"t" with
    | none => simp [hg, hs] at h
    | some fs => simp

theorem bmsPure_keys (env : PyEnv) (spec : Spec) (pri sec ter : List Nat) (a b : Bool) :
    ∀ k ∈ Dict.keys (bmsPure env spec pri sec ter a b).2.1, k = py"p" ∨ k = py"1" := by
  unfold bmsPure
  cases spec.get? py"p" with
  | none => simp
  | some fs =>
    dsimp only
    cases bmData env py"p" fs (bitmapOf 0 pri) with
    | error r => simp
    | ok d =>
      cases a with
      | false => simp
      | true =>
        simp only [if_true]
        cases spec.get? py"1" with
        | none => simp
        | some fs1 =>
          dsimp only
          cases bmData env py"1" fs1 (bitmapOf 64 sec) with
          | error r => simp
          | ok d1 =>
            cases b with
            | false => simp
            | true =>
              simp only [if_true]
              cases bmData env py"1" fs1 (bitmapOf 128 ter) <;> simp

theorem bmsPure_ok_keys (env : PyEnv) (spec : Spec) (pri sec ter : List Nat) (a b : Bool) {w : Bytes}
    (h : (bmsPure env spec pri sec ter a b).1 = .ok w) :
    Dict.keys (bmsPure env spec pri sec ter a b).2.1 = [py"p"] ∨
      Dict.keys (bmsPure env spec pri sec ter a b).2.1 = [py"p", py"1"] := by
  revert h
  unfold bmsPure
  cases spec.get? py"p" with
  | none => simp
  | some fs =>
    dsimp only
    cases bmData env py"p" fs (bitmapOf 0 pri) with
    | error r => simp
    | ok d =>
      cases a with
      | false => simp
      | true =>
        simp only [if_true]
        cases spec.get? py"1" with
        | none => simp
        | some fs1 =>
          dsimp only
          cases bmData env py"1" fs1 (bitmapOf 64 sec) with
          | error r => simp
          | ok d1 =>
            cases b with
            | false => simp
            | true =>
              simp only [if_true]
              cases bmData env py"1" fs1 (bitmapOf 128 ter) <;> simp

theorem bmsPure_sets (env : PyEnv) (spec : Spec) (pri sec ter : List Nat) (a b : Bool) :
    ∀ kv ∈ (bmsPure env spec pri sec ter a b).2.2, kv.1 = py"p" ∨ kv.1 = py"1" := by
  unfold bmsPure
  cases spec.get? py"p" with
  | none => simp
  | some fs =>
    dsimp only
    cases bmData env py"p" fs (bitmapOf 0 pri) with
    | error r => simp
    | ok d =>
      cases a with
      | false => simp
      | true =>
        simp only [if_true]
        cases spec.get? py"1" with
        | none => simp
        | some fs1 =>
          dsimp only
          cases bmData env py"1" fs1 (bitmapOf 64 sec) with
          | error r => simp
          | ok d1 =>
            cases b with
            | false => simp
            | true =>
              simp only [if_true]
              cases bmData env py"1" fs1 (bitmapOf 128 ter) <;> simp

theorem applySets_get? {sets : List (Str × Str)} {k : Str} (h : ∀ kv ∈ sets, kv.1 ≠ k) :
    ∀ doc : Doc, (applySets doc sets).get? (.str k) = doc.get? (.str k) := by
  induction sets with
  | nil => intro doc; rfl
  | cons kv t ih =>
    intro doc
    simp only [applySets, List.foldl_cons]
    have := ih (fun x hx => h x (by simp [hx])) (doc.set (.str kv.1) (.str kv.2))
    simp only [applySets] at this
    rw [this, Dict.get?_set_ne]
    intro e
    exact h kv (by simp) (by injection e with e; exact e.symm)

/-- The bitmap part of `encodeBody`, as it appears there. -/
def encodeBitmaps (env : PyEnv) (spec : Spec) (F : List Nat) : EncM (Bytes × List Nat) := do
  let p ← encodeBitmap env py"p" (← encSpec spec py"p") 0 false (priOf F)
  let (b1, fields) ←
    if 1 ∈ f2Of F then do
      let w ← encodeBitmap env py"1" (← encSpec spec py"1") 64 false (secOf F)
      pure (w, setRemove (f2Of F) 1)
    else pure ([], f2Of F)
  let (b2, fields) ←
    if 65 ∈ fields then do
      let w ← encodeBitmap env py"1" (← encSpec spec py"1") 128 true (terOf F)
      pure (w, setRemove fields 65)
    else pure ([], fields)
  return (p ++ b1 ++ b2, fields)

/-- The bitmaps and fields part of `encodeBody`, as it appears there. -/
def encodeTail (env : PyEnv) (spec : Spec) (h t : Bytes) (F : List Nat) : EncM Bytes := do
  let p ← encodeBitmap env py"p" (← encSpec spec py"p") 0 false (priOf F)
  let (b1, fields) ←
    if 1 ∈ f2Of F then do
      let w ← encodeBitmap env py"1" (← encSpec spec py"1") 64 false (secOf F)
      pure (w, setRemove (f2Of F) 1)
    else pure ([], f2Of F)
  let (b2, fields) ←
    if 65 ∈ fields then do
      let w ← encodeBitmap env py"1" (← encSpec spec py"1") 128 true (terOf F)
      pure (w, setRemove fields 65)
    else pure ([], fields)
  let ws ← encodeFields env spec (sortedNat fields)
  return h ++ t ++ p ++ b1 ++ b2 ++ ws

theorem encodeBody_eq (env : PyEnv) (spec : Spec) :
    encodeBody env spec = (do
      PyM.modify fun st => { st with dec := (st.dec.pop (.str py"1")).pop (.str py"65") }
      let h ← encodeHeader env spec
      let t ← encodeType env spec
      let ks := (← PyM.get).dec.keys
      let nums ← PyM.lift (numericKeys env ks ks)
      let ints := setUpdate [] nums
      if ¬ ints.all inRange then
        encFail (.outOfRange (sortedBy id (ints.filter fun n => ¬ inRange n))) py"p"
      encodeTail env spec h t (ints.map Int.toNat) : EncM Bytes) := rfl

theorem encodeTail_eq (env : PyEnv) (spec : Spec) (h t : Bytes) (F : List Nat) (st : EncState) :
    encodeTail env spec h t F st = (do
      let (b, fields) ← encodeBitmaps env spec F
      let ws ← encodeFields env spec (sortedNat fields)
      return h ++ t ++ b ++ ws : EncM Bytes) st := by
  simp only [encodeTail, encodeBitmaps, run_bind]
  rcases encSpec spec py"p" st with ⟨_ | fs, st⟩
  · rfl
  simp only
  rcases encodeBitmap env py"p" fs 0 false (priOf F) st with ⟨_ | p, st⟩
  · rfl
  simp only [run_ite, run_bind]
  generalize f2Of F = G
  split
  · rcases encSpec spec py"1" st with ⟨_ | fs, st⟩
    · rfl
    simp only
    rcases encodeBitmap env py"1" fs 64 false (secOf F) st with ⟨_ | w, st⟩
    · rfl
    simp only [run_pure]
    split
    · rcases encSpec spec py"1" st with ⟨_ | fs, st⟩
      · rfl
      simp only
      rcases encodeBitmap env py"1" fs 128 true (terOf F) st with ⟨_ | w', st⟩
      · rfl
      simp only [run_pure]
      rcases encodeFields env spec _ st with ⟨_ | ws, st⟩ <;> simp
    · simp only
      rcases encodeFields env spec _ st with ⟨_ | ws, st⟩ <;> simp
  · simp only [run_pure]
    split
    · rcases encSpec spec py"1" st with ⟨_ | fs, st⟩
      · rfl
      simp only
      rcases encodeBitmap env py"1" fs 128 true (terOf F) st with ⟨_ | w', st⟩
      · rfl
      simp only [run_pure]
      rcases encodeFields env spec _ st with ⟨_ | ws, st⟩ <;> simp
    · simp only
      rcases encodeFields env spec _ st with ⟨_ | ws, st⟩ <;> simp

theorem setRemove_of_not_mem {F : List Nat} {x : Nat} (h : x ∉ F) : setRemove F x = F := by
  simp only [setRemove, List.filter_eq_self]
  intro a ha
  simp only [ne_eq, decide_eq_true_eq]
  intro e
  exact h (e ▸ ha)

theorem encodeBitmaps_run {env : PyEnv} {spec : Spec} {F : List Nat} {doc : Doc} {enc : EncDoc}
    (hp : py"p" ∉ enc.keys) (h1 : py"1" ∉ enc.keys) :
    encodeBitmaps env spec F ⟨doc, enc⟩ =
      let B := bmsPure env spec (priOf F) (secOf F) (terOf F) (1 ∈ f2Of F) (65 ∈ f2Of F)
      ((match B.1 with | .ok w => .ok (w, restOf F) | .error r => .error r),
        ⟨applySets doc B.2.2, enc ++ B.2.1⟩) := by
  have hbP : bitmapLoop 0 (priOf F) (List.replicate 8 0) = some (bitmapOf 0 (priOf F)) :=
    bitmapOf_some (fun f hf => by simp [priOf, mem_setInter] at hf; omega)
  have hbS : bitmapLoop 64 (secOf F) (List.replicate 8 0) = some (bitmapOf 64 (secOf F)) :=
    bitmapOf_some (fun f hf => by simp [secOf, mem_setInter] at hf; omega)
  have hbT : bitmapLoop 128 (terOf F) (List.replicate 8 0) = some (bitmapOf 128 (terOf F)) :=
    bitmapOf_some (fun f hf => by simp [terOf, mem_setInter] at hf; omega)
  have h1' : ∀ d, py"1" ∉ Dict.keys (enc ++ [(py"p", ⟨[], d⟩)]) := by
    intro d; simp; exact h1
  unfold encodeBitmaps bmsPure
  simp only [run_bind, encSpec]
  cases spec.get? py"p" with
  | none => simp [applySets]
  | some fs =>
    simp only [run_pure, encodeBitmap_run hbP]
    cases bmData env py"p" fs (bitmapOf 0 (priOf F)) with
    | error r => simp [applySets, Dict.set_of_not_mem hp]
    | ok d =>
      by_cases c1 : 1 ∈ f2Of F
      · simp only [run_bind, decide_true, if_true, c1]
        cases spec.get? py"1" with
        | none => simp [applySets, Dict.set_of_not_mem hp]
        | some fs1 =>
          simp only [run_pure, encodeBitmap_run hbS]
          cases bmData env py"1" fs1 (bitmapOf 64 (secOf F)) with
          | error r => simp [applySets, Dict.set_of_not_mem hp, Dict.set_of_not_mem (h1' d)]
          | ok d1 =>
            by_cases c65 : 65 ∈ f2Of F
            · have c65' : 65 ∈ setRemove (f2Of F) 1 := by simp [mem_setRemove, c65]
              simp only [run_ite, if_pos c65', run_bind, run_pure, c65, decide_true, if_true]
              rw [encodeBitmap_ext_run (t0 := hexUp (bitmapOf 64 (secOf F))) (e0 := ⟨[], d1⟩) hbT
                (by simp) (by simp)]
              cases bmData env py"1" fs1 (bitmapOf 128 (terOf F)) with
              | error r => simp [applySets, Dict.set_of_not_mem hp, Dict.set_of_not_mem (h1' d)]
              | ok d2 =>
                simp only [Dict.set_of_not_mem hp, Dict.set_of_not_mem (h1' d), Dict.set_append_last (h1' d)]
                simp [applySets, restOf]
            · have c65' : 65 ∉ setRemove (f2Of F) 1 := by simp [mem_setRemove, c65]
              simp only [run_ite, if_neg c65', c65, decide_false, Bool.false_eq_true, if_false]
              simp [run_bind, applySets, Dict.set_of_not_mem hp, Dict.set_of_not_mem (h1' d), restOf,
                setRemove_of_not_mem c65']
      · have c65 : 65 ∉ f2Of F := fun h => c1 (has1_of_has65 h)
        simp only [if_neg c65, run_ite, run_bind, run_pure, c1, decide_false, Bool.false_eq_true, if_false]
        simp [applySets, Dict.set_of_not_mem hp, restOf, setRemove_of_not_mem c1, setRemove_of_not_mem c65]

theorem mem_restOf {F : List Nat} {x : Nat} : x ∈ restOf F ↔ x ∈ F ∧ x ≠ 1 ∧ x ≠ 65 := by
  simp only [restOf, mem_setRemove, f2Of, f1Of]
  constructor
  · rintro ⟨⟨h, h1⟩, h65⟩
    refine ⟨?_, h1, h65⟩
    split at h <;> split at h <;> simp_all [mem_setAdd]
  · rintro ⟨h, h1, h65⟩
    refine ⟨⟨?_, h1⟩, h65⟩
    split <;> split <;> simp_all [mem_setAdd]

theorem f2Of_nodup {F : List Nat} (h : F.Nodup) : (f2Of F).Nodup := by
  unfold f2Of f1Of
  split <;> split <;> simp_all [nodup_setAdd]

theorem restOf_nodup {F : List Nat} (h : F.Nodup) : (restOf F).Nodup :=
  nodup_setRemove (nodup_setRemove (f2Of_nodup h))

/-- The caller's dict after the initial `pop`s. -/
def cleaned (doc : Doc) : Doc := (doc.pop (.str py"1")).pop (.str py"65")

theorem cleaned_get? {doc : Doc} {k : Str} (h1 : k ≠ py"1") (h65 : k ≠ py"65") :
    (cleaned doc).get? (.str k) = doc.get? (.str k) := by
  unfold cleaned
  rw [Dict.get?_pop_ne _ (by simpa using h65), Dict.get?_pop_ne _ (by simpa using h1)]

theorem toNat_nodup {l : List Int} (h : l.Nodup) (hr : l.all inRange = true) : (l.map Int.toNat).Nodup := by
  rw [List.nodup_iff_pairwise_ne, List.pairwise_map]
  rw [List.nodup_iff_pairwise_ne] at h
  rw [List.all_eq_true] at hr
  refine List.Pairwise.imp_of_mem ?_ h
  intro a b ha hb hab e
  have h1 := hr a ha
  have h2 := hr b hb
  simp [inRange] at h1 h2
  omega

theorem encodeBody_run (env : PyEnv) (spec : Spec) (doc : Doc) :
    encodeBody env spec ⟨doc, []⟩ =
      let R := encPure env spec (fun k => doc.get? (.str k))
        (numericKeys env (cleaned doc).keys (cleaned doc).keys)
      (R.1, ⟨applySets (cleaned doc) R.2.2, R.2.1⟩) := by
  rw [encodeBody_eq]
  simp only [run_bind, run_modify, ← cleaned.eq_1, encodeHeader_run, encPure]
  have hH : hdrPure env spec (fun k => (cleaned doc).get? (.str k)) = hdrPure env spec (fun k => doc.get? (.str k)) := by
    simp only [hdrPure, cleaned_get? (show py"h" ≠ py"1" by decide) (show py"h" ≠ py"65" by decide)]
  have hT : typePure env spec (fun k => (cleaned doc).get? (.str k)) = typePure env spec (fun k => doc.get? (.str k)) := by
    simp only [typePure, cleaned_get? (show py"t" ≠ py"1" by decide) (show py"t" ≠ py"65" by decide)]
  have hkH := hdrPure_keys env spec (fun k => doc.get? (.str k))
  have hkT := typePure_keys env spec (fun k => doc.get? (.str k))
  rw [hH]
  generalize hg : (fun k => doc.get? (.str k)) = g at *
  have hkey : ∀ k ∈ Dict.keys ((hdrPure env spec g).2 ++ (typePure env spec g).2), k = py"h" ∨ k = py"t" := by
    rcases hkH with h | h <;> rcases hkT with h' | h' <;> simp [h, h']
  cases hh : (hdrPure env spec g).1 with
  | error r => simp [applySets]
  | ok h =>
    simp only
    rw [encodeType_run _ _ _ _ (by rcases hkH with h | h <;> simp [h]), hT]
    cases ht : (typePure env spec g).1 with
    | error r => simp [applySets]
    | ok t =>
      simp only [run_get, run_lift]
      cases numericKeys env (cleaned doc).keys (cleaned doc).keys with
      | error r => simp [applySets]
      | ok ns =>
        simp only [run_ite, encFail]
        by_cases hr : (setUpdate [] ns).all inRange = true
        · rw [if_neg (by simpa using hr), if_pos hr, encodeTail_eq]
          generalize hF : (setUpdate [] ns).map Int.toNat = F
          have hnd : F.Nodup := by
            rw [← hF]; exact toNat_nodup (nodup_setUpdate (by simp)) hr
          have hF1 : ∀ i ∈ F, 1 ≤ i := by
            intro i hi
            rw [← hF, List.mem_map] at hi
            obtain ⟨a, ha, rfl⟩ := hi
            have := (List.all_eq_true.1 hr) a ha
            simp [inRange] at this
            omega
          simp only [run_bind]
          rw [encodeBitmaps_run (by intro h; have := hkey _ h; simp at this) (by intro h; have := hkey _ h; simp at this)]
          simp only [bodyPure]
          cases hB : (bmsPure env spec (priOf F) (secOf F) (terOf F) (1 ∈ f2Of F) (65 ∈ f2Of F)).1 with
          | error r => simp
          | ok b =>
            simp only
            rw [encodeFields_run env spec _ g]
            · cases (fieldsPure env spec g (sortedNat (restOf F))).1 <;> simp
            · have hkT' : Dict.keys (typePure env spec g).2 = [py"t"] := typePure_ok_keys ht
              have := nodup_msg_keys hkH (bmsPure_ok_keys _ _ _ _ _ _ _ hB) (sortedNat_nodup (restOf_nodup hnd))
                (by simp [mem_restOf])
              simp only [Dict.keys_append, hkT']
              simpa using this
            · intro i hi
              simp only [mem_sortedNat, mem_restOf] at hi
              rw [applySets_get?, cleaned_get?, ← hg]
              · exact natStr_ne_one hi.2.1
              · intro e
                exact hi.2.2 (natStr_inj.1 (e.trans (show py"65" = natStr 65 from rfl)))
              · intro kv hkv e
                rcases bmsPure_sets _ _ _ _ _ _ _ kv hkv with h | h
                · exact natStr_ne_letter (n := i) (c := 112) (by omega) (e.symm.trans h)
                · exact natStr_ne_one hi.2.1 (e.symm.trans h)
        · rw [if_pos (by simpa using hr), if_neg hr]
          simp [run_bind, applySets]

end Iso8583
