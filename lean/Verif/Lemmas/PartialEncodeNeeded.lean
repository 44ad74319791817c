import Verif.Lemmas.PartialEncode
import Verif.Lemmas.PartialNeeded
import Verif.Lemmas.EncodeRun
/-!
# `encode` reports a missing property only where completions part ways
-/

namespace Iso8583
open PyM

variable {α β : Type}

/-- The outcome is an exception other than `EncodeError`. -/
def Raw (r : Except EncRaise α × EncState) : Prop := ∃ x, r.1 = .error x ∧ ∀ m f, x ≠ .err m f

/-- Two outcomes differ in what they say about field `k`. -/
def Differ (k : Str) (r1 r2 : Except EncRaise α × EncState) : Prop :=
  Raw r1 ∨ Raw r2 ∨ (∃ m, r1.1 = .error (.err m k) ∧ r2.1 ≠ .error (.err m k)) ∨ r1.2.enc.get? k ≠ r2.2.enc.get? k

/-- The program never raises `EncodeError` with message `m` for field `k`. -/
def Never (m : EncMsg) (k : Str) (p : EncM α) : Prop := ∀ st, (p st).1 ≠ .error (.err m k)

namespace Never
variable {m : EncMsg} {k : Str}

theorem bind {p : EncM α} {f : α → EncM β} (h : Never m k p) (hf : ∀ a, Never m k (f a)) : Never m k (p >>= f) := by
  intro st
  have h1 := h st
  simp only [run_bind]
  rcases hp : p st with ⟨r, st1⟩
  rw [hp] at h1
  cases r with
  | error e => exact fun hc => h1 (by cases hc; rfl)
  | ok a => exact hf a st1

theorem ite {c : Prop} [Decidable c] {a b : EncM α} (ha : c → Never m k a) (hb : ¬ c → Never m k b) : Never m k (if c then a else b) := by
  by_cases h : c
  · rw [if_pos h]; exact ha h
  · rw [if_neg h]; exact hb h

theorem pure {a : α} : Never m k (Pure.pure a : EncM α) := fun _ h => by cases h
theorem pure_bind {a : α} {f : α → EncM β} (h : Never m k (f a)) : Never m k (Pure.pure a >>= f) := h
theorem get : Never m k (PyM.get : EncM EncState) := fun _ h => by cases h
theorem raise {x : EncRaise} (hx : x ≠ .err m k) : Never m k (PyM.raise x : EncM α) := fun _ h => hx (by cases h; rfl)
theorem encFail {m' : EncMsg} {k' : Str} (hm : m' ≠ m ∨ k' ≠ k) : Never m k (Iso8583.encFail m' k' : EncM α) :=
  raise fun h => by cases h; rcases hm with h | h <;> exact h rfl
theorem encSet {k' : Str} {e : EncEntry} : Never m k (Iso8583.encSet k' e) := fun _ h => by cases h
theorem docSet {k' v : Str} : Never m k (Iso8583.docSet k' v) := fun _ h => by cases h
theorem encGet {k' : Str} : Never m k (Iso8583.encGet k') := by
  intro st
  simp only [Iso8583.encGet, run_bind, run_get]
  cases st.enc.get? k' <;> exact fun h => by cases h
theorem docGet {k' : Str} : Never m k (Iso8583.docGet k') := by
  intro st
  simp only [Iso8583.docGet, run_bind, run_get]
  cases st.dec.get? (.str k') <;> exact fun h => by cases h
theorem encSpec {spec : Spec} {k' : Str} : Never m k (Iso8583.encSpec spec k') := by
  intro st
  simp only [Iso8583.encSpec]
  cases spec.get? k' <;> exact fun h => by cases h
theorem docAppend {k' v : Str} : Never m k (Iso8583.docAppend k' v) := by
  unfold Iso8583.docAppend
  refine bind docGet fun x => ?_
  cases x with
  | str s => exact docSet
  | _ => exact raise (by simp)
theorem lift {r : Except EncRaise α} (h : r ≠ .error (.err m k)) : Never m k (PyM.lift r : EncM α) := by
  intro st
  cases r with
  | ok a => exact fun h => by cases h
  | error e => exact fun h' => h (by cases h'; rfl)

end Never

/-- The program neither touches the entry of field `k` nor blames that field. -/
def LetsBe (k : Str) (p : EncM α) : Prop := (∀ st, (p st).2.enc.get? k = st.enc.get? k) ∧ ∀ m, Never m k p

namespace LetsBe
variable {k : Str}

theorem bind {p : EncM α} {f : α → EncM β} (h : LetsBe k p) (hf : ∀ a, LetsBe k (f a)) : LetsBe k (p >>= f) := by
  refine ⟨fun st => ?_, fun m => Never.bind (h.2 m) fun a => (hf a).2 m⟩
  have h1 := h.1 st
  simp only [run_bind]
  rcases hp : p st with ⟨r, st1⟩
  rw [hp] at h1
  cases r with
  | error e => exact h1
  | ok a => exact ((hf a).1 st1).trans h1

theorem ite {c : Prop} [Decidable c] {a b : EncM α} (ha : LetsBe k a) (hb : LetsBe k b) : LetsBe k (if c then a else b) := by
  by_cases h : c
  · rw [if_pos h]; exact ha
  · rw [if_neg h]; exact hb

theorem pure {a : α} : LetsBe k (Pure.pure a : EncM α) := ⟨fun _ => rfl, fun _ => Never.pure⟩
theorem get : LetsBe k (PyM.get : EncM EncState) := ⟨fun _ => rfl, fun _ => Never.get⟩
theorem raise {x : EncRaise} (hx : ∀ m, x ≠ .err m k) : LetsBe k (PyM.raise x : EncM α) := ⟨fun _ => rfl, fun m => Never.raise (hx m)⟩
theorem encFail {m : EncMsg} {k' : Str} (hk : k' ≠ k) : LetsBe k (Iso8583.encFail m k' : EncM α) :=
  ⟨fun _ => rfl, fun _ => Never.encFail (.inr hk)⟩
theorem encSet {k' : Str} {e : EncEntry} (hk : k' ≠ k) : LetsBe k (Iso8583.encSet k' e) :=
  ⟨fun st => Dict.get?_set_ne _ _ (Ne.symm hk), fun _ => Never.encSet⟩
theorem docSet {k' v : Str} : LetsBe k (Iso8583.docSet k' v) := ⟨fun _ => rfl, fun _ => Never.docSet⟩
theorem encGet {k' : Str} : LetsBe k (Iso8583.encGet k') := by
  refine ⟨fun st => ?_, fun _ => Never.encGet⟩
  simp only [Iso8583.encGet, run_bind, run_get]
  cases st.enc.get? k' <;> rfl
theorem docGet {k' : Str} : LetsBe k (Iso8583.docGet k') := by
  refine ⟨fun st => ?_, fun _ => Never.docGet⟩
  simp only [Iso8583.docGet, run_bind, run_get]
  cases st.dec.get? (.str k') <;> rfl
theorem encSpec {spec : Spec} {k' : Str} : LetsBe k (Iso8583.encSpec spec k') := by
  refine ⟨fun st => ?_, fun _ => Never.encSpec⟩
  simp only [Iso8583.encSpec]
  cases spec.get? k' <;> rfl
theorem docAppend {k' v : Str} : LetsBe k (Iso8583.docAppend k' v) := by
  unfold Iso8583.docAppend
  refine bind docGet fun x => ?_
  cases x with
  | str s => exact docSet
  | _ => exact raise (by simp)
theorem lift {r : Except EncRaise α} (h : ∀ m, r ≠ .error (.err m k)) : LetsBe k (PyM.lift r : EncM α) := by
  refine ⟨fun st => ?_, fun m => Never.lift (h m)⟩
  cases r <;> rfl

end LetsBe

theorem encodeTextField_blames {env : PyEnv} {v : Val} {key k : Str} {g : FieldSpec} {c : Str} (hk : key ≠ k) (m : EncMsg) :
    encodeTextField env v key g c ≠ .error (.err m k) := by
  unfold encodeTextField
  cases v with
  | str t =>
    dsimp only
    cases h : strEncode env g.dataEnc t with
    | ok b => intro h; cases h
    | error e => cases e <;> exact fun h => hk (by cases h; rfl)
  | _ => exact fun h => hk (by cases h; rfl)

/-- The messages of a binary field. -/
def EncMsg.blamesHex : EncMsg → Prop
  | .oddNibbles => True
  | .oddHex => True
  | .nonHex => True
  | _ => False

theorem encodeBinaryField_blames {v : Val} {key k : Str} {g : FieldSpec} {c : Str} {m : EncMsg}
    (h : encodeBinaryField v key g c = .error (.err m k)) : k = key ∧ m.blamesHex := by
  unfold encodeBinaryField at h
  dsimp only at h
  generalize hd : (if c = py"nibbles" then
      match v.len? with
      | none => none
      | some n => if n % 2 = 1 then addPadField v g else some v
    else some v) = dte at h
  cases hb : dte.bind Val.a2bHex with
  | none =>
    rw [hb] at h
    cases dte with
    | none => cases h
    | some w =>
      simp only [binaryHandler] at h
      cases hw : w.len? with
      | none => rw [hw] at h; cases h
      | some n =>
        rw [hw] at h
        dsimp only at h
        by_cases h1 : c = py"nibbles" ∧ n % 2 = 1
        · rw [if_pos h1] at h; cases h; exact ⟨rfl, trivial⟩
        · rw [if_neg h1] at h
          by_cases h2 : n % 2 = 1
          · rw [if_pos h2] at h; cases h; exact ⟨rfl, trivial⟩
          · rw [if_neg h2] at h; cases h; exact ⟨rfl, trivial⟩
  | some b =>
    rw [hb] at h
    dsimp only at h
    by_cases h1 : c = py"nibbles"
    · rw [if_pos h1] at h
      cases hw : v.len? with
      | none => rw [hw] at h; cases h
      | some n => rw [hw] at h; cases h
    · rw [if_neg h1] at h; cases h

theorem encodeLength_letsBe {env : PyEnv} {n : Nat} {key k : Str} {g : FieldSpec} (hk : key ≠ k) : LetsBe k (encodeLength env n key g) := by
  unfold encodeLength
  simp only [encFail_bind]
  refine LetsBe.bind LetsBe.encGet fun e => LetsBe.ite ?_ (LetsBe.ite (LetsBe.ite (LetsBe.encFail hk) ?_) ?_)
  · cases toBytesBE n g.lenType with
    | none => exact LetsBe.encFail hk
    | some l => exact LetsBe.encSet hk
  · cases a2bHex (zeroPad (g.lenType * 2) n) with
    | none => exact LetsBe.raise (by simp)
    | some l => exact LetsBe.encSet hk
  · cases strEncode env g.lenEnc (zeroPad g.lenType n) with
    | error e => cases e <;> exact LetsBe.encFail hk
    | ok l => exact LetsBe.bind (LetsBe.encSet hk) fun _ => LetsBe.ite (LetsBe.encFail hk) LetsBe.pure

theorem dataLift_letsBe {env : PyEnv} {v : Val} {key k : Str} {g : FieldSpec} {c : Str} (hk : key ≠ k) :
    LetsBe k (PyM.lift (if g.dataEnc = py"b" then encodeBinaryField v key g c else encodeTextField env v key g c)) := by
  refine LetsBe.lift fun m => ?_
  by_cases h : g.dataEnc = py"b"
  · rw [if_pos h]; exact fun h => hk (encodeBinaryField_blames h).1.symm
  · rw [if_neg h]; exact encodeTextField_blames hk m

theorem encodeField_letsBe {env : PyEnv} {key k : Str} {g : FieldSpec} (hk : key ≠ k) : LetsBe k (encodeField env key g) := by
  unfold encodeField
  simp only [encFail_bind]
  refine LetsBe.bind (LetsBe.encSet hk) fun _ => LetsBe.bind LetsBe.docGet fun v => LetsBe.bind (dataLift_letsBe hk) fun x => ?_
  refine LetsBe.bind (LetsBe.encSet hk) fun _ => LetsBe.ite (LetsBe.ite (LetsBe.encFail hk) LetsBe.pure) ?_
  refine LetsBe.ite (LetsBe.encFail hk) ?_
  exact LetsBe.bind (encodeLength_letsBe hk) fun _ => LetsBe.bind LetsBe.encGet fun _ => LetsBe.pure

theorem encodeType_letsBe {env : PyEnv} {k : Str} {spec : Spec} (hk : py"t" ≠ k) : LetsBe k (encodeType env spec) := by
  unfold encodeType
  simp only [encFail_bind]
  refine LetsBe.bind LetsBe.get fun _ => LetsBe.ite (LetsBe.encFail hk) (LetsBe.bind LetsBe.encSpec fun g => ?_)
  refine LetsBe.bind (LetsBe.encSet hk) fun _ => LetsBe.bind LetsBe.docGet fun v => LetsBe.bind (dataLift_letsBe hk) fun x => ?_
  exact LetsBe.bind (LetsBe.encSet hk) fun _ => LetsBe.ite (LetsBe.encFail hk) LetsBe.pure

theorem encodeBitmap_letsBe {env : PyEnv} {key k : Str} {g : FieldSpec} {off : Nat} {e : Bool} {F : List Nat} (hk : key ≠ k) :
    LetsBe k (encodeBitmap env key g off e F) := by
  unfold encodeBitmap
  cases bitmapLoop off F (List.replicate 8 0) with
  | none => exact LetsBe.raise (by simp)
  | some bm =>
    dsimp only
    have tl : ∀ d : Bytes, LetsBe k (do
        let en ← encGet key
        if e = true then do
          encSet key { en with data := en.data ++ d }
          pure d
        else do
          encSet key { en with data := d }
          pure d : EncM Bytes) := fun d =>
      LetsBe.bind LetsBe.encGet fun _ => LetsBe.ite (LetsBe.bind (LetsBe.encSet hk) fun _ => LetsBe.pure)
        (LetsBe.bind (LetsBe.encSet hk) fun _ => LetsBe.pure)
    have md : LetsBe k (if g.dataEnc = py"b" then pure bm >>= fun d => (do
        let en ← encGet key
        if e = true then do
          encSet key { en with data := en.data ++ d }
          pure d
        else do
          encSet key { en with data := d }
          pure d : EncM Bytes) else do
        let x ← PyM.lift (encodeTextField env (.str (upperAscii (bytesHex bm))) key g py"bytes")
        pure x.1 >>= fun d => (do
        let en ← encGet key
        if e = true then do
          encSet key { en with data := en.data ++ d }
          pure d
        else do
          encSet key { en with data := d }
          pure d : EncM Bytes)) :=
      LetsBe.ite (LetsBe.bind LetsBe.pure tl) (LetsBe.bind (LetsBe.lift fun m => encodeTextField_blames hk m) fun _ => LetsBe.bind LetsBe.pure tl)
    refine LetsBe.ite (LetsBe.bind LetsBe.docAppend fun _ => md) (LetsBe.bind LetsBe.docSet fun _ => LetsBe.bind (LetsBe.encSet hk) fun _ => md)

theorem encodeFields_letsBe {env : PyEnv} {k : Str} {spec : Spec} : ∀ {l : List Nat}, (∀ i ∈ l, natStr i ≠ k) → LetsBe k (encodeFields env spec l)
  | [], _ => LetsBe.pure
  | i :: l, h => by
    unfold encodeFields
    exact LetsBe.bind LetsBe.encSpec fun _ => LetsBe.bind (encodeField_letsBe (h i (by simp))) fun _ =>
      LetsBe.bind (encodeFields_letsBe fun j hj => h j (by simp [hj])) fun _ => LetsBe.pure

theorem numericKeys_letsBe {env : PyEnv} {k : Str} {all ks : List Key} (hk : py"p" ≠ k) : LetsBe k (PyM.lift (numericKeys env all ks)) := by
  refine LetsBe.lift fun m => ?_
  induction ks with
  | nil => intro h; cases h
  | cons a t ih =>
    unfold numericKeys
    cases a with
    | obj r => intro h; cases h; exact hk rfl
    | str s =>
      dsimp only
      by_cases hn : isNumeric env s = true
      · rw [if_pos hn]
        cases pyInt env s with
        | none => intro h; cases h
        | some n =>
          dsimp only
          cases hr : numericKeys env all t with
          | error e => intro h; cases h; exact ih hr
          | ok ns => intro h; cases h
      · rw [if_neg hn]; exact ih

/-! ## One field -/

/-- Run from `st`, either all completions do the same as `F`, or two of them differ. -/
def EFPin (C : FieldSpec → Prop) (key : Str) (F : EncM α) (M : FieldSpec → EncM α) (st : EncState) : Prop :=
  (∀ g, C g → M g st = F st) ∨ ∃ g1 g2, C g1 ∧ C g2 ∧ Differ key (M g1 st) (M g2 st)

namespace EFPin
variable {C : FieldSpec → Prop} {key : Str} {st : EncState}

theorem refl (m : EncM α) : EFPin C key m (fun _ => m) st := .inl fun _ _ => rfl

theorem bind {m : EncM α} {f : α → EncM β} {f' : FieldSpec → α → EncM β}
    (hf : ∀ a st, EFPin C key (f a) (fun g => f' g a) st) : EFPin C key (m >>= f) (fun g => m >>= f' g) st := by
  rcases hm : m st with ⟨r, st1⟩
  cases r with
  | error e => exact .inl fun g _ => by simp only [run_bind]; rw [hm]
  | ok a =>
    rcases hf a st1 with h | ⟨g1, g2, h1, h2, h⟩
    · exact .inl fun g hg => by simp only [run_bind]; rw [hm]; exact h g hg
    · refine .inr ⟨g1, g2, h1, h2, ?_⟩
      simp only [run_bind]
      rw [hm]
      exact h

theorem pure_bind {a : α} {f : α → EncM β} {f' : FieldSpec → α → EncM β} (h : EFPin C key (f a) (fun g => f' g a) st) :
    EFPin C key (pure a >>= f) (fun g => pure a >>= f' g) st := h

theorem ite {c : Prop} [Decidable c] {a b : EncM α} {a' b' : FieldSpec → EncM α} (ha : c → EFPin C key a a' st)
    (hb : ¬ c → EFPin C key b b' st) : EFPin C key (if c then a else b) (fun g => if c then a' g else b' g) st := by
  by_cases h : c
  · simp only [if_pos h]; exact ha h
  · simp only [if_neg h]; exact hb h

theorem differ {F : EncM α} {M : FieldSpec → EncM α} {g1 g2 : FieldSpec} (h1 : C g1) (h2 : C g2) (h : Differ key (M g1 st) (M g2 st)) :
    EFPin C key F M st := .inr ⟨g1, g2, h1, h2, h⟩

theorem congr {F : EncM α} {M M' : FieldSpec → EncM α} (h : ∀ g, C g → M g = M' g) (hp : EFPin C key F M' st) : EFPin C key F M st := by
  rcases hp with hp | ⟨g1, g2, h1, h2, hd⟩
  · exact .inl fun g hg => by rw [h g hg]; exact hp g hg
  · exact .inr ⟨g1, g2, h1, h2, by rw [h g1 h1, h g2 h2]; exact hd⟩

end EFPin

/-- No codec turns a text into nothing. -/
def NoEmptyCode (env : PyEnv) : Prop := ∀ name c t, env.codec name = some c → t ≠ [] → c.encode t ≠ some []

/-- The part of `encodeField` behind the data. -/
def lenTail (env : PyEnv) (key : Str) (count : Str) (data : Bytes) (n : Nat) (g : FieldSpec) : EncM Bytes := do
  if g.lenType = 0 then
    if (n : Int) ≠ g.maxLen then encFail (.fixedLen n count g.maxLen) key
    else return data
  else
    if (n : Int) > g.maxLen then encFail (.tooLong n count g.maxLen) key
    else do
      encodeLength env n key g
      let e ← encGet key
      return e.len ++ e.data

/-- The same on a field with gaps. -/
def lenTailP (env : PyEnv) (key : Str) (count : Str) (data : Bytes) (n : Nat) (f : PartialField) : EncM Bytes := do
  let lenType ← need .keyError py"len_type" f.lenType
  let maxLen ← need .keyError py"max_len" f.maxLen
  if lenType = 0 then
    if (n : Int) ≠ maxLen then encFail (.fixedLen n count maxLen) key
    else return data
  else
    if (n : Int) > maxLen then encFail (.tooLong n count maxLen) key
    else do
      let _ ← need .keyError py"len_enc" f.lenEnc
      encodeLength env n key f.seen
      let e ← encGet key
      return e.len ++ e.data

/-- Messages about the length prefix. -/
def EncMsg.blamesPrefix : EncMsg → Prop
  | .lenDoesNotFit => True
  | .lenUnknownEncoding => True
  | .lenInvalid => True
  | _ => False

theorem encodeLength_never {env : PyEnv} {n : Nat} {key : Str} {g : FieldSpec} {m : EncMsg} (hm : ¬ m.blamesPrefix) :
    Never m key (encodeLength env n key g) := by
  have h1 : EncMsg.lenDoesNotFit ≠ m := fun h => hm (by rw [← h]; trivial)
  have h2 : EncMsg.lenUnknownEncoding ≠ m := fun h => hm (by rw [← h]; trivial)
  have h3 : EncMsg.lenInvalid ≠ m := fun h => hm (by rw [← h]; trivial)
  unfold encodeLength
  simp only [encFail_bind]
  refine Never.bind Never.encGet fun e => Never.ite (fun _ => ?_) fun _ => Never.ite (fun _ => Never.ite (fun _ => Never.encFail (.inl h1)) fun _ => ?_) fun _ => ?_
  · cases toBytesBE n g.lenType with
    | none => exact Never.encFail (.inl h1)
    | some l => exact Never.encSet
  · cases a2bHex (zeroPad (g.lenType * 2) n) with
    | none => exact Never.raise (by simp)
    | some l => exact Never.encSet
  · cases strEncode env g.lenEnc (zeroPad g.lenType n) with
    | error e => cases e with
      | lookup => exact Never.encFail (.inl h2)
      | invalid => exact Never.encFail (.inl h3)
    | ok l => exact Never.bind Never.encSet fun _ => Never.ite (fun _ => Never.encFail (.inl h1)) fun _ => Never.pure

theorem encodeLength_b_never {env : PyEnv} {n : Nat} {key : Str} {g : FieldSpec} (hb : g.lenEnc = py"b") :
    Never .lenUnknownEncoding key (encodeLength env n key g) := by
  unfold encodeLength
  refine Never.bind Never.encGet fun e => ?_
  rw [if_pos hb]
  cases toBytesBE n g.lenType with
  | none => exact Never.encFail (.inl (by simp))
  | some l => exact Never.encSet

theorem lenTail_never {env : PyEnv} {key count : Str} {data : Bytes} {n : Nat} {g : FieldSpec} {m : EncMsg}
    (h1 : g.lenType = 0 → EncMsg.fixedLen n count g.maxLen ≠ m) (h2 : EncMsg.tooLong n count g.maxLen ≠ m)
    (h3 : Never m key (encodeLength env n key g)) : Never m key (lenTail env key count data n g) := by
  unfold lenTail
  refine Never.ite (fun h0 => Never.ite (fun _ => Never.encFail (.inl (h1 h0))) fun _ => Never.pure) fun _ => ?_
  exact Never.ite (fun _ => Never.encFail (.inl h2)) fun _ => Never.bind h3 fun _ => Never.bind Never.encGet fun _ => Never.pure

/-- A length prefix of a text is not empty. -/
theorem encodeLength_entry {env : PyEnv} (he : NoEmptyCode env) {n : Nat} {key : Str} {g : FieldSpec} (hl : g.lenType ≠ 0) {st : EncState}
    {e : EncEntry} (hk : st.enc.get? key = some e) :
    (∃ x, (encodeLength env n key g st).1 = .error x ∧ ((∃ m, x = .err m key) ∨ ∀ m f, x ≠ .err m f)) ∨
    ∃ l, l ≠ [] ∧ encodeLength env n key g st = (.ok (), { st with enc := st.enc.set key { e with len := l } }) := by
  have hg : encGet key st = (.ok e, st) := by
    simp only [encGet, run_bind, run_get]
    rw [hk]; rfl
  unfold encodeLength
  simp only [encFail_bind]
  simp only [run_bind, hg]
  by_cases h1 : g.lenEnc = py"b"
  · rw [if_pos h1]
    cases ht : toBytesBE n g.lenType with
    | none => exact .inl ⟨_, rfl, .inl ⟨_, rfl⟩⟩
    | some l =>
      refine .inr ⟨l, ?_, rfl⟩
      have := (toBytesBE_some ht).1
      intro hc
      rw [hc] at this
      exact hl (by simpa using this.symm)
  · rw [if_neg h1]
    by_cases h2 : g.lenEnc = py"bcd"
    · rw [if_pos h2]
      by_cases h3 : (zeroPad (g.lenType * 2) n).length > g.lenType * 2
      · rw [if_pos h3]; exact .inl ⟨_, rfl, .inl ⟨_, rfl⟩⟩
      · rw [if_neg h3]
        cases ha : a2bHex (zeroPad (g.lenType * 2) n) with
        | none => exact .inl ⟨_, rfl, .inr (by simp)⟩
        | some l =>
          refine .inr ⟨l, ?_, rfl⟩
          have := a2bHex_length ha
          intro hc
          rw [hc] at this
          exact zeroPad_ne_nil _ _ (List.eq_nil_of_length_eq_zero (by simpa using this))
    · rw [if_neg h2]
      cases hs : strEncode env g.lenEnc (zeroPad g.lenType n) with
      | error x => cases x <;> exact .inl ⟨_, rfl, .inl ⟨_, rfl⟩⟩
      | ok l =>
        dsimp only
        by_cases h3 : l.length > g.lenType
        · simp only [if_pos h3]; exact .inl ⟨_, rfl, .inl ⟨_, rfl⟩⟩
        · simp only [if_neg h3]
          refine .inr ⟨l, ?_, rfl⟩
          unfold strEncode at hs
          cases hc : env.codec g.lenEnc with
          | none => rw [hc] at hs; cases hs
          | some c =>
            rw [hc] at hs
            dsimp only at hs
            cases hce : c.encode (zeroPad g.lenType n) with
            | none => rw [hce] at hs; cases hs
            | some b =>
              rw [hce] at hs
              cases hs
              intro h0
              subst h0
              exact he _ _ _ hc (zeroPad_ne_nil _ _) hce

theorem lenTailP_pin {env : PyEnv} (hu : SomeUnknown env) (he : NoEmptyCode env) {key count : Str} {data : Bytes} {n : Nat}
    {f : PartialField} {st : EncState} {e : EncEntry} (hk : st.enc.get? key = some e) (hel : e.len = []) :
    EFPin f.FilledBy key (lenTailP env key count data n f) (lenTail env key count data n) st := by
  unfold lenTailP
  cases ht : f.lenType with
  | none =>
    have fx : ∀ g : FieldSpec, g.lenType = 0 → g.maxLen ≠ n → (lenTail env key count data n g st).1 = .error (.err (.fixedLen n count g.maxLen) key) := by
      intro g h0 hm
      unfold lenTail
      rw [if_pos h0, if_pos (Ne.symm hm)]
      rfl
    cases hm : f.maxLen with
    | none =>
      refine EFPin.differ (g1 := { f.seen with lenType := 0, maxLen := n + 1 }) (g2 := { f.seen with lenType := 0, maxLen := n + 2 })
        (filled_maxLen (filled_lenType (filled_seen f) ht 0) hm _) (filled_maxLen (filled_lenType (filled_seen f) ht 0) hm _) (.inr (.inr (.inl ⟨_, fx _ rfl ?_, ?_⟩)))
      · dsimp only; omega
      · rw [fx _ rfl (by dsimp only; omega)]
        intro hc
        injection hc with hc
        injection hc with hc
        injection hc with _ _ hc
        simp only at hc; omega
    | some mx =>
      have hs : f.seen.maxLen = mx := by simp [PartialField.seen, hm]
      by_cases hn : mx ≠ n
      · refine EFPin.differ (g1 := { f.seen with lenType := 0 }) (g2 := { f.seen with lenType := 1 })
          (filled_lenType (filled_seen f) ht _) (filled_lenType (filled_seen f) ht _) (.inr (.inr (.inl ⟨_, fx _ rfl (by dsimp only; rw [hs]; exact hn), ?_⟩)))
        exact lenTail_never (by dsimp only; omega) (by simp) (encodeLength_never (by simp [EncMsg.blamesPrefix])) st
      · have hn : mx = n := by omega
        refine EFPin.differ (g1 := { f.seen with lenType := 1 }) (g2 := { f.seen with lenType := 0 })
          (filled_lenType (filled_seen f) ht _) (filled_lenType (filled_seen f) ht _) ?_
        have h2 : lenTail env key count data n { f.seen with lenType := 0 } st = (.ok data, st) := by
          unfold lenTail
          rw [if_pos rfl, if_neg (by dsimp only; rw [hs, hn]; simp)]
          rfl
        rw [h2]
        have h1 : lenTail env key count data n { f.seen with lenType := 1 } =
            (encodeLength env n key { f.seen with lenType := 1 } >>= fun _ => encGet key >>= fun e => pure (e.len ++ e.data)) := by
          unfold lenTail
          rw [if_neg (by dsimp only; omega), if_neg (by dsimp only; rw [hs, hn]; omega)]
        rw [h1]
        simp only [run_bind]
        rcases encodeLength_entry he (n := n) (g := { f.seen with lenType := 1 }) (by simp) hk with ⟨x, hx, hc⟩ | ⟨l, hl, hx⟩
        · rcases hL : encodeLength env n key { f.seen with lenType := 1 } st with ⟨r, st1⟩
          rw [hL] at hx
          cases hx
          rcases hc with ⟨m, rfl⟩ | hc
          · exact .inr (.inr (.inl ⟨m, rfl, by simp⟩))
          · exact .inl ⟨x, rfl, hc⟩
        · rw [hx]
          refine .inr (.inr (.inr ?_))
          simp only [encGet, run_bind, run_get, Dict.get?_set_same]
          show Dict.get? (Dict.set _ _ _) _ ≠ _
          rw [Dict.get?_set_same, hk]
          intro hc
          injection hc with hc
          rw [← hc] at hel
          exact hl hel
  | some lt =>
    cases hm : f.maxLen with
    | none =>
      have ht' := seen_lenType ht
      by_cases h0 : lt = 0
      · have fx : ∀ mx : Int, mx ≠ n → (lenTail env key count data n { f.seen with maxLen := mx } st).1 = .error (.err (.fixedLen n count mx) key) := by
          intro mx hm
          unfold lenTail
          rw [if_pos (by rw [← h0, ← ht']), if_pos (Ne.symm hm)]
          rfl
        refine EFPin.differ (filled_maxLen (filled_seen f) hm (n + 1)) (filled_maxLen (filled_seen f) hm (n + 2)) (.inr (.inr (.inl ⟨_, fx _ (by omega), ?_⟩)))
        rw [fx _ (by omega)]
        intro hc
        injection hc with hc
        injection hc with hc
        injection hc with _ _ hc
        omega
      · have fx : ∀ mx : Int, n > mx → (lenTail env key count data n { f.seen with maxLen := mx } st).1 = .error (.err (.tooLong n count mx) key) := by
          intro mx hm
          unfold lenTail
          rw [if_neg (by show f.seen.lenType ≠ 0; rw [ht']; exact h0), if_pos hm]
          rfl
        refine EFPin.differ (filled_maxLen (filled_seen f) hm (n - 1)) (filled_maxLen (filled_seen f) hm (n - 2)) (.inr (.inr (.inl ⟨_, fx _ (by omega), ?_⟩)))
        rw [fx _ (by omega)]
        intro hc
        injection hc with hc
        injection hc with hc
        injection hc with _ _ hc
        omega
    | some mx =>
      refine EFPin.congr (M' := fun g =>
        if lt = 0 then
          if (n : Int) ≠ mx then encFail (.fixedLen n count mx) key
          else return data
        else
          if (n : Int) > mx then encFail (.tooLong n count mx) key
          else do
            encodeLength env n key g
            let e ← encGet key
            return e.len ++ e.data) (fun g hg => by unfold lenTail; rw [hg.2.2.1 lt ht, hg.2.2.2.1 mx hm]) ?_
      refine EFPin.pure_bind (f' := fun g (lt : Nat) =>
        if lt = 0 then
          if (n : Int) ≠ mx then encFail (.fixedLen n count mx) key
          else return data
        else
          if (n : Int) > mx then encFail (.tooLong n count mx) key
          else do
            encodeLength env n key g
            let e ← encGet key
            return e.len ++ e.data) ?_
      refine EFPin.pure_bind (f' := fun g (mx : Int) =>
        if lt = 0 then
          if (n : Int) ≠ mx then encFail (.fixedLen n count mx) key
          else return data
        else
          if (n : Int) > mx then encFail (.tooLong n count mx) key
          else do
            encodeLength env n key g
            let e ← encGet key
            return e.len ++ e.data) ?_
      refine EFPin.ite (fun _ => EFPin.refl _) fun h0 => EFPin.ite (fun _ => EFPin.refl _) fun h1 => ?_
      cases hle : f.lenEnc with
      | some le =>
        refine EFPin.congr (M' := fun _ => do
            encodeLength env n key f.seen
            let e ← encGet key
            return e.len ++ e.data) (fun g hg => ?_) (EFPin.refl _)
        rw [encodeLength_congr (f := g) (g := f.seen) (by rw [hg.2.1 le hle, seen_lenEnc hle]) (by rw [hg.2.2.1 lt ht, seen_lenType ht])]
      | none =>
        obtain ⟨u, ub, ud, hu⟩ := hu
        refine EFPin.differ (filled_lenEnc (filled_seen f) hle u) (filled_lenEnc (filled_seen f) hle py"b") (.inr (.inr (.inl ⟨.lenUnknownEncoding, ?_, ?_⟩)))
        · simp only [run_bind]
          have : encodeLength env n key { f.seen with lenEnc := u } st = (.error (.err .lenUnknownEncoding key), st) := by
            unfold encodeLength
            simp only [encGet, run_bind, run_get]
            rw [hk]
            simp only [if_neg ub, if_neg ud, strEncode, hu]
            rfl
          rw [this]
        · exact Never.bind (encodeLength_b_never rfl) (fun _ => Never.bind Never.encGet fun _ => Never.pure) st

theorem encodeField_eq (env : PyEnv) (key : Str) (g : FieldSpec) : encodeField env key g =
    (encSet key ⟨[], []⟩ >>= fun _ => docGet key >>= fun v =>
      PyM.lift (if g.dataEnc = py"b" then encodeBinaryField v key g g.count else encodeTextField env v key g g.count) >>= fun x =>
      encSet key ⟨[], x.1⟩ >>= fun _ => lenTail env key g.count x.1 x.2 g) := by
  unfold encodeField lenTail
  simp only [encFail_bind]

theorem encodeFieldP_eq (env : PyEnv) (key : Str) (f : PartialField) : encodeFieldP env key f =
    (encSet key ⟨[], []⟩ >>= fun _ => need .keyError py"data_enc" f.dataEnc >>= fun d => docGet key >>= fun v =>
      PyM.lift (if d = py"b" then encodeBinaryField v key f.seen f.seen.count else encodeTextField env v key f.seen f.seen.count) >>= fun x =>
      encSet key ⟨[], x.1⟩ >>= fun _ => lenTailP env key f.seen.count x.1 x.2 f) := by
  unfold encodeFieldP lenTailP
  simp only [encFail_bind]
  rfl

/-- An encoding that does not exist is reported, whatever the value. -/
theorem encodeTextField_unknown {env : PyEnv} {v : Val} {key c : Str} {g : FieldSpec} (h : env.codec g.dataEnc = none) :
    ∃ m : EncMsg, (m = .unknownEncoding ∨ m = .invalidData) ∧ encodeTextField env v key g c = .error (.err m key) := by
  unfold encodeTextField
  cases v with
  | str t => exact ⟨_, .inl rfl, by simp only [strEncode, h]⟩
  | _ => exact ⟨_, .inr rfl, rfl⟩

theorem docGet_cases (key : Str) (st : EncState) : (∃ v, docGet key st = (.ok v, st)) ∨ docGet key st = (.error (.keyError key), st) := by
  simp only [docGet, run_bind, run_get]
  cases st.dec.get? (.str key) with
  | none => exact .inr rfl
  | some v => exact .inl ⟨v, rfl⟩

theorem encodeFieldP_pin {env : PyEnv} (hu : SomeUnknown env) (he : NoEmptyCode env) {key : Str} {f : PartialField} {st : EncState} :
    EFPin f.FilledBy key (encodeFieldP env key f) (encodeField env key) st := by
  rw [encodeFieldP_eq]
  refine EFPin.congr (fun g _ => encodeField_eq env key g) ?_
  refine EFPin.bind fun _ st => ?_
  have hc : ∀ g : FieldSpec, f.FilledBy g → g.count = f.seen.count := fun g hg => by
    unfold FieldSpec.count; rw [hg.2.2.2.2.1]; rfl
  cases hd : f.dataEnc with
  | some w =>
    refine EFPin.congr (M' := fun g => docGet key >>= fun v =>
      PyM.lift (if w = py"b" then encodeBinaryField v key f.seen f.seen.count else encodeTextField env v key f.seen f.seen.count) >>= fun x =>
      encSet key ⟨[], x.1⟩ >>= fun _ => lenTail env key f.seen.count x.1 x.2 g) (fun g hg => ?_) ?_
    · have hbin : ∀ v c, encodeBinaryField v key g c = encodeBinaryField v key f.seen c :=
        fun v c => encodeBinaryField_congr (by rw [hg.2.2.2.2.2.1]; rfl) (by rw [hg.2.2.2.2.2.2.1]; rfl)
      have htxt : ∀ v c, encodeTextField env v key g c = encodeTextField env v key f.seen c :=
        fun v c => encodeTextField_congr (by rw [hg.1 w hd, seen_dataEnc hd])
      simp only [hc g hg, hbin, htxt, hg.1 w hd]
    · refine EFPin.pure_bind (f' := fun g (d : Str) => docGet key >>= fun v =>
        PyM.lift (if d = py"b" then encodeBinaryField v key f.seen f.seen.count else encodeTextField env v key f.seen f.seen.count) >>= fun x =>
        encSet key ⟨[], x.1⟩ >>= fun _ => lenTail env key f.seen.count x.1 x.2 g) ?_
      refine EFPin.bind fun v st => EFPin.bind fun x st => ?_
      have := lenTailP_pin hu he (key := key) (count := f.seen.count) (data := x.1) (n := x.2) (f := f)
        (st := { st with enc := st.enc.set key ⟨[], x.1⟩ }) (e := ⟨[], x.1⟩) (Dict.get?_set_same ..) rfl
      exact this
  | none =>
    obtain ⟨u, ub, _, hu⟩ := hu
    refine EFPin.differ (filled_dataEnc (filled_seen f) hd u) (filled_dataEnc (filled_seen f) hd py"b") ?_
    rcases docGet_cases key st with ⟨v, hv⟩ | hv
    · obtain ⟨m, hm, ht⟩ := encodeTextField_unknown (v := v) (key := key) (c := f.seen.count) (g := { f.seen with dataEnc := u }) hu
      refine .inr (.inr (.inl ⟨m, ?_, ?_⟩))
      · simp only [run_bind, hv, if_neg ub]
        have ht' : encodeTextField env v key { f.seen with dataEnc := u } (FieldSpec.count { f.seen with dataEnc := u }) = .error (.err m key) := ht
        rw [ht']
        rfl
      · refine Never.bind Never.docGet (fun v => Never.bind (Never.lift ?_) fun x => Never.bind Never.encSet fun _ => ?_) st
        · rw [if_pos rfl]
          intro h
          have := (encodeBinaryField_blames h).2
          rcases hm with rfl | rfl <;> exact this
        · refine lenTail_never (fun _ h => ?_) (fun h => ?_) (encodeLength_never ?_)
          · rcases hm with rfl | rfl <;> cases h
          · rcases hm with rfl | rfl <;> cases h
          · rcases hm with rfl | rfl <;> exact id
    · refine .inl ⟨.keyError key, ?_, by simp⟩
      simp only [run_bind, hv]

/-- The part of `encodeHeaderP` behind the lookup. -/
def headP (env : PyEnv) (f : PartialField) : EncM Bytes := do
  let maxLen ← need .keyError py"max_len" f.maxLen
  if maxLen ≤ 0 then
    return []
  if ¬ (← PyM.get).dec.contains (.str py"h") then
    encFail .requiredBySpec py"h"
  encodeFieldP env py"h" f

/-- The part of `encodeHeader` behind the lookup. -/
def headG (env : PyEnv) (fs : FieldSpec) : EncM Bytes := do
  if fs.maxLen ≤ 0 then
    return []
  if ¬ (← PyM.get).dec.contains (.str py"h") then
    encFail .requiredBySpec py"h"
  encodeField env py"h" fs

theorem headP_pin {env : PyEnv} (hu : SomeUnknown env) (he : NoEmptyCode env) {f : PartialField} {st : EncState}
    (h0 : st.enc.get? py"h" = none) : EFPin f.FilledBy py"h" (headP env f) (headG env) st := by
  unfold headP headG
  simp only [encFail_bind]
  cases hm : f.maxLen with
  | some mx =>
    refine EFPin.congr (M' := fun g => do
        let maxLen ← pure mx
        if maxLen ≤ 0 then
          pure []
        else do
          let x ← PyM.get
          if ¬ x.dec.contains (.str py"h") then encFail .requiredBySpec py"h"
          else encodeField env py"h" g) (fun g hg => by rw [hg.2.2.2.1 mx hm]; rfl) ?_
    refine EFPin.bind fun _ st => EFPin.ite (fun _ => EFPin.refl _) fun _ => EFPin.bind fun x st => ?_
    exact EFPin.ite (fun _ => EFPin.refl _) fun _ => encodeFieldP_pin hu he
  | none =>
    refine EFPin.differ (filled_maxLen (filled_seen f) hm 1) (filled_maxLen (filled_seen f) hm 0) ?_
    simp only [show ¬ (1 : Int) ≤ 0 by omega, show (0 : Int) ≤ 0 by omega, if_true, if_false, run_bind, run_get]
    by_cases hc : ¬ st.dec.contains (.str py"h") = true
    · rw [if_pos hc]
      exact .inr (.inr (.inl ⟨.requiredBySpec, rfl, by simp [run_pure]⟩))
    · rw [if_neg hc]
      refine .inr (.inr (.inr ?_))
      show _ ≠ st.enc.get? py"h"
      rw [h0]
      rw [encodeField_run]
      cases st.dec.get? (.str py"h") <;> exact fun hn => by rw [Dict.get?_set_same] at hn; cases hn

/-- The part of `encodeTypeP` behind the lookup. -/
def etypeP (env : PyEnv) (f : PartialField) : EncM Bytes := do
  let dataEnc ← need .keyError py"data_enc" f.dataEnc
  let expected : Nat := if dataEnc = py"b" then 2 else 4
  encSet py"t" ⟨[], []⟩
  let v ← docGet py"t"
  let (data, encLen) ← PyM.lift <|
    if dataEnc = py"b" then encodeBinaryField v py"t" f.seen py"bytes"
    else encodeTextField env v py"t" f.seen py"bytes"
  encSet py"t" ⟨[], data⟩
  if encLen ≠ expected then
    encFail (.typeLen encLen expected) py"t"
  return data

/-- The part of `encodeType` behind the lookup. -/
def etypeG (env : PyEnv) (fs : FieldSpec) : EncM Bytes := do
  let expected : Nat := if fs.dataEnc = py"b" then 2 else 4
  encSet py"t" ⟨[], []⟩
  let v ← docGet py"t"
  let (data, encLen) ← PyM.lift <|
    if fs.dataEnc = py"b" then encodeBinaryField v py"t" fs py"bytes"
    else encodeTextField env v py"t" fs py"bytes"
  encSet py"t" ⟨[], data⟩
  if encLen ≠ expected then
    encFail (.typeLen encLen expected) py"t"
  return data

theorem etypeP_pin {env : PyEnv} (hu : SomeUnknown env) {f : PartialField} {st : EncState} :
    EFPin f.FilledBy py"t" (etypeP env f) (etypeG env) st := by
  unfold etypeP etypeG
  simp only [encFail_bind]
  cases hd : f.dataEnc with
  | some w =>
    refine .inl fun g hg => ?_
    have hbin : ∀ v c, encodeBinaryField v py"t" g c = encodeBinaryField v py"t" f.seen c :=
      fun v c => encodeBinaryField_congr (by rw [hg.2.2.2.2.2.1]; rfl) (by rw [hg.2.2.2.2.2.2.1]; rfl)
    have htxt : ∀ v c, encodeTextField env v py"t" g c = encodeTextField env v py"t" f.seen c :=
      fun v c => encodeTextField_congr (by rw [hg.1 w hd, seen_dataEnc hd])
    simp only [hbin, htxt, hg.1 w hd]
    rfl
  | none =>
    obtain ⟨u, ub, _, hu⟩ := hu
    refine EFPin.differ (filled_dataEnc (filled_seen f) hd u) (filled_dataEnc (filled_seen f) hd py"b") ?_
    rcases docGet_cases py"t" { st with enc := st.enc.set py"t" ⟨[], []⟩ } with ⟨v, hv⟩ | hv
    · obtain ⟨m, hm, ht⟩ := encodeTextField_unknown (v := v) (key := py"t") (c := py"bytes") (g := { f.seen with dataEnc := u }) hu
      refine .inr (.inr (.inl ⟨m, ?_, ?_⟩))
      · simp only [run_bind, encSet, run_modify, hv, if_neg ub]
        rw [ht]
        rfl
      · refine Never.bind Never.encSet (fun _ => Never.bind Never.docGet fun v => Never.bind (Never.lift ?_) fun x => Never.bind Never.encSet fun _ => ?_) st
        · rw [if_pos rfl]
          intro h
          have := (encodeBinaryField_blames h).2
          rcases hm with rfl | rfl <;> exact this
        · refine Never.ite (fun _ => Never.encFail (.inl fun h => ?_)) fun _ => Never.pure
          rcases hm with rfl | rfl <;> cases h
    · refine .inl ⟨.keyError py"t", ?_, by simp⟩
      simp only [run_bind, encSet, run_modify, hv]

theorem encodeBitmap_known {env : PyEnv} {key : Str} {off : Nat} {e : Bool} {F : List Nat} {f : PartialField} {g : FieldSpec} {w : Str}
    (hd : f.dataEnc = some w) (h : f.FilledBy g) : encodeBitmap env key g off e F = encodeBitmapP env key f off e F := by
  funext st
  rcases encodeBitmapP_fsim (env := env) (key := key) (off := off) (e := e) (F := F) h st with h | ⟨p, st', ⟨_, hp⟩, _⟩
  · exact h.symm
  · rw [hd] at hp; cases hp

/-- The beginning of a bitmap, up to where its encoding is needed. -/
theorem encodeBitmap_unknown {env : PyEnv} {key : Str} {off : Nat} {F : List Nat} {bm : Bytes} {g : FieldSpec}
    (hb : bitmapLoop off F (List.replicate 8 0) = some bm) (ub : g.dataEnc ≠ py"b") (hu : env.codec g.dataEnc = none) (st : EncState) :
    (encodeBitmap env key g off false F st).1 = .error (.err .unknownEncoding key) := by
  unfold encodeBitmap
  simp only [hb, Bool.false_eq_true, if_false, if_neg ub, encodeTextField, strEncode, hu]
  rfl

theorem encodeBitmap_b_never {env : PyEnv} {key : Str} {off : Nat} {e : Bool} {F : List Nat} {g : FieldSpec} (hb : g.dataEnc = py"b")
    {m : EncMsg} {k : Str} : Never m k (encodeBitmap env key g off e F) := by
  unfold encodeBitmap
  cases bitmapLoop off F (List.replicate 8 0) with
  | none => exact Never.raise (by simp)
  | some bm =>
    simp only [if_pos hb]
    have tl : ∀ d : Bytes, Never m k (do
        let en ← encGet key
        if e = true then do
          encSet key { en with data := en.data ++ d }
          pure d
        else do
          encSet key { en with data := d }
          pure d : EncM Bytes) := fun d =>
      Never.bind Never.encGet fun _ => Never.ite (fun _ => Never.bind Never.encSet fun _ => Never.pure)
        (fun _ => Never.bind Never.encSet fun _ => Never.pure)
    refine Never.ite (fun _ => Never.bind Never.docAppend fun _ => Never.bind Never.pure tl)
      (fun _ => Never.bind Never.docSet fun _ => Never.bind Never.encSet fun _ => Never.bind Never.pure tl)

theorem encodeBitmapP_pin {env : PyEnv} (hu : SomeUnknown env) {key : Str} {off : Nat} {F : List Nat} {f : PartialField} {st : EncState} :
    EFPin f.FilledBy key (encodeBitmapP env key f off false F) (fun g => encodeBitmap env key g off false F) st := by
  cases hb : bitmapLoop off F (List.replicate 8 0) with
  | none =>
    refine .inl fun g _ => ?_
    unfold encodeBitmapP encodeBitmap
    simp only [hb]
  | some bm =>
    cases hd : f.dataEnc with
    | some w => exact .inl fun g hg => congrFun (encodeBitmap_known hd hg) st
    | none =>
      obtain ⟨u, ub, _, hu⟩ := hu
      refine EFPin.differ (filled_dataEnc (filled_seen f) hd u) (filled_dataEnc (filled_seen f) hd py"b") (.inr (.inr (.inl ⟨.unknownEncoding, ?_, ?_⟩)))
      · exact encodeBitmap_unknown hb ub hu st
      · exact encodeBitmap_b_never rfl st

/-! ## The message -/

/-- Run from `st`, either all completions of the specification do the same as `m`, or two differ. -/
def EPin (raw : PartialSpec) (m : EncM α) (M : Spec → EncM α) (st : EncState) : Prop :=
  (∀ spec, raw.FilledBy spec → M spec st = m st) ∨
  ∃ spec1 spec2 k, raw.FilledBy spec1 ∧ raw.FilledBy spec2 ∧ Differ k (M spec1 st) (M spec2 st)

theorem Differ.bind {k : Str} {p1 p2 : EncM α} {f1 f2 : α → EncM β} {st : EncState} (h : Differ k (p1 st) (p2 st))
    (h1 : ∀ a, LetsBe k (f1 a)) (h2 : ∀ a, LetsBe k (f2 a)) : Differ k ((p1 >>= f1) st) ((p2 >>= f2) st) := by
  have enc : ∀ {p : EncM α} {f : α → EncM β}, (∀ a, LetsBe k (f a)) → ((p >>= f) st).2.enc.get? k = (p st).2.enc.get? k := by
    intro p f hf
    simp only [run_bind]
    rcases p st with ⟨r, st1⟩
    cases r with
    | error e => rfl
    | ok a => exact (hf a).1 st1
  have err : ∀ {p : EncM α} {f : α → EncM β} {x : EncRaise}, (p st).1 = .error x → ((p >>= f) st).1 = .error x := by
    intro p f x hx
    simp only [run_bind]
    rcases hp : p st with ⟨r, st1⟩
    rw [hp] at hx
    cases hx
    rfl
  rcases h with ⟨x, hx, hr⟩ | ⟨x, hx, hr⟩ | ⟨m, hm, hn⟩ | h
  · exact .inl ⟨x, err hx, hr⟩
  · exact .inr (.inl ⟨x, err hx, hr⟩)
  · refine .inr (.inr (.inl ⟨m, err hm, ?_⟩))
    simp only [run_bind]
    rcases hp : p2 st with ⟨r, st1⟩
    rw [hp] at hn
    cases r with
    | error e => exact fun hc => hn (by cases hc; rfl)
    | ok a => exact (h2 a).2 m st1
  · exact .inr (.inr (.inr (by rw [enc h1, enc h2]; exact h)))

namespace EPin
variable {raw : PartialSpec} {st : EncState}

theorem refl (m : EncM α) : EPin raw m (fun _ => m) st := .inl fun _ _ => rfl

theorem bind {m : EncM α} {f : α → EncM β} {f' : Spec → α → EncM β} (hf : ∀ a st, EPin raw (f a) (fun spec => f' spec a) st) :
    EPin raw (m >>= f) (fun spec => m >>= f' spec) st := by
  rcases hm : m st with ⟨r, st1⟩
  cases r with
  | error e => exact .inl fun g _ => by simp only [run_bind]; rw [hm]
  | ok a =>
    rcases hf a st1 with h | ⟨g1, g2, k, h1, h2, h⟩
    · exact .inl fun g hg => by simp only [run_bind]; rw [hm]; exact h g hg
    · refine .inr ⟨g1, g2, k, h1, h2, ?_⟩
      simp only [run_bind]
      rw [hm]
      exact h

theorem ite {c : Prop} [Decidable c] {a b : EncM α} {a' b' : Spec → EncM α} (ha : c → EPin raw a a' st)
    (hb : ¬ c → EPin raw b b' st) : EPin raw (if c then a else b) (fun g => if c then a' g else b' g) st := by
  by_cases h : c
  · simp only [if_pos h]; exact ha h
  · simp only [if_neg h]; exact hb h

/-- A field that leaves nothing open, or does not exist. -/
theorem known {k : Str} {F : PartialField → EncM α} {G : Spec → FieldSpec → EncM α}
    (hF : ∀ f, raw.get? k = some f → EPin raw (F f) (fun spec => match spec.get? k with | some g => G spec g | none => F f) st) :
    EPin raw (partialSpec .keyError raw k >>= F) (fun spec => encSpec spec k >>= G spec) st := by
  cases hf : raw.get? k with
  | none =>
    left
    intro spec hs
    unfold partialSpec encSpec
    dsimp only
    rcases hs k with ⟨h1, h2⟩ | ⟨f, g, h1, _⟩
    · rw [h1, h2]; rfl
    · rw [hf] at h1; cases h1
  | some f =>
    have e : ∀ spec, raw.FilledBy spec → (encSpec spec k >>= G spec) st = (match spec.get? k with | some g => G spec g | none => F f) st := by
      intro spec hs
      unfold encSpec
      rcases hs k with ⟨h1, h2⟩ | ⟨f', g, h1, h2, hg⟩
      · rw [hf] at h1; cases h1
      · rw [h2]; rfl
    unfold partialSpec
    rw [hf]
    rcases hF f hf with h | ⟨s1, s2, k', h1, h2, h⟩
    · exact .inl fun spec hs => (e spec hs).trans (h spec hs)
    · exact .inr ⟨s1, s2, k', h1, h2, by dsimp only; rw [e s1 h1, e s2 h2]; exact h⟩

/-- A field for which all completions do the same, then the rest. -/
theorem same_bind {k : Str} {f : PartialField} {F : PartialField → EncM α} {G : FieldSpec → EncM α} {r : α → EncM β}
    {r' : Spec → α → EncM β} (hf : raw.get? k = some f) (h : ∀ g, f.FilledBy g → G g st = F f st)
    (hr : ∀ a st, EPin raw (r a) (fun spec => r' spec a) st) :
    EPin raw (partialSpec .keyError raw k >>= fun f => F f >>= r) (fun spec => encSpec spec k >>= fun g => G g >>= r' spec) st := by
  refine known (G := fun spec g => G g >>= r' spec) fun f' hf' => ?_
  rw [hf] at hf'
  cases hf'
  have h' : EPin raw (F f >>= r) (fun spec => F f >>= r' spec) st := bind hr
  have e : ∀ spec, raw.FilledBy spec → (match spec.get? k with | some g => G g >>= r' spec | none => F f >>= r) st = (F f >>= r' spec) st := by
    intro spec hs
    rcases hs k with ⟨h1, h2⟩ | ⟨f', g, h1, h2, hg⟩
    · rw [hf] at h1; cases h1
    · rw [hf] at h1
      cases h1
      rw [h2]
      simp only [run_bind]
      rw [h g hg]
  rcases h' with h' | ⟨s1, s2, k', h1, h2, h'⟩
  · exact .inl fun spec hs => (e spec hs).trans (h' spec hs)
  · exact .inr ⟨s1, s2, k', h1, h2, by dsimp only; rw [e s1 h1, e s2 h2]; exact h'⟩

/-- One field, then the rest. -/
theorem field_bind {k : Str} {F : PartialField → EncM α} {G : FieldSpec → EncM α} {r : α → EncM β} {r' : Spec → α → EncM β}
    (hF : ∀ f, raw.get? k = some f → EFPin f.FilledBy k (F f) G st) (hl : ∀ spec a, LetsBe k (r' spec a))
    (hr : ∀ a st, EPin raw (r a) (fun spec => r' spec a) st) :
    EPin raw (partialSpec .keyError raw k >>= fun f => F f >>= r) (fun spec => encSpec spec k >>= fun g => G g >>= r' spec) st := by
  cases hf : raw.get? k with
  | none => exact known (G := fun spec g => G g >>= r' spec) fun f hf' => by rw [hf] at hf'; cases hf'
  | some f =>
    rcases hF f hf with h | ⟨g1, g2, h1, h2, h⟩
    · exact same_bind hf h hr
    · refine .inr ⟨fillWith raw k g1, fillWith raw k g2, k, fillWith_filled hf h1, fillWith_filled hf h2, ?_⟩
      unfold encSpec
      dsimp only
      rw [fillWith_self hf, fillWith_self hf]
      exact Differ.bind (p1 := G g1) (p2 := G g2) h (hl (fillWith raw k g1)) (hl (fillWith raw k g2))

end EPin

theorem encodeFieldsP_pin {env : PyEnv} (hu : SomeUnknown env) (he : NoEmptyCode env) {raw : PartialSpec} : ∀ {l : List Nat} {st : EncState}, l.Nodup →
    EPin raw (encodeFieldsP env raw l) (fun spec => encodeFields env spec l) st
  | [], _, _ => EPin.refl _
  | i :: l, _, nd => by
    unfold encodeFieldsP encodeFields
    refine EPin.field_bind (fun f _ => encodeFieldP_pin hu he) (fun spec _ => LetsBe.bind (encodeFields_letsBe fun j hj hc => ?_) fun _ => LetsBe.pure) fun w st => ?_
    · exact (List.nodup_cons.1 nd).1 (by rw [← natStr_inj.1 hc]; exact hj)
    · have h := encodeFieldsP_pin hu he (raw := raw) (l := l) (st := st) (List.nodup_cons.1 nd).2
      rcases h with h | ⟨s1, s2, k, h1, h2, h⟩
      · exact .inl fun spec hs => by have := h spec hs; dsimp only at this; simp only [run_bind]; rw [this]
      · exact .inr ⟨s1, s2, k, h1, h2, Differ.bind h (fun _ => LetsBe.pure) fun _ => LetsBe.pure⟩

/-- From the third bitmap on. -/
def etailP (env : PyEnv) (raw : PartialSpec) (a : Bytes) (ter F : List Nat) (b1 : Bytes) : EncM Bytes := do
  let (b2, fields) ←
    if 65 ∈ F then do
      let w ← encodeBitmapP env py"1" (← partialSpec .keyError raw py"1") 128 true ter
      pure (w, setRemove F 65)
    else pure ([], F)
  let ws ← encodeFieldsP env raw (sortedNat fields)
  return a ++ b1 ++ b2 ++ ws

/-- From the third bitmap on. -/
def etail (env : PyEnv) (spec : Spec) (a : Bytes) (ter F : List Nat) (b1 : Bytes) : EncM Bytes := do
  let (b2, fields) ←
    if 65 ∈ F then do
      let w ← encodeBitmap env py"1" (← encSpec spec py"1") 128 true ter
      pure (w, setRemove F 65)
    else pure ([], F)
  let ws ← encodeFields env spec (sortedNat fields)
  return a ++ b1 ++ b2 ++ ws

/-- From the second bitmap on. -/
def etail2P (env : PyEnv) (raw : PartialSpec) (a : Bytes) (sec ter F : List Nat) : EncM Bytes := do
  let (b1, F) ←
    if 1 ∈ F then do
      let w ← encodeBitmapP env py"1" (← partialSpec .keyError raw py"1") 64 false sec
      pure (w, setRemove F 1)
    else pure ([], F)
  etailP env raw a ter F b1

/-- From the second bitmap on. -/
def etail2 (env : PyEnv) (spec : Spec) (a : Bytes) (sec ter F : List Nat) : EncM Bytes := do
  let (b1, F) ←
    if 1 ∈ F then do
      let w ← encodeBitmap env py"1" (← encSpec spec py"1") 64 false sec
      pure (w, setRemove F 1)
    else pure ([], F)
  etail env spec a ter F b1

/-- From the numbers of the fields on. -/
def etail3P (env : PyEnv) (raw : PartialSpec) (h t : Bytes) : EncM Bytes := do
  let ks := (← PyM.get).dec.keys
  let nums ← PyM.lift (numericKeys env ks ks)
  let ints := setUpdate [] nums
  if ¬ ints.all inRange then
    encFail (.outOfRange (sortedBy id (ints.filter fun n => ¬ inRange n))) py"p"
  let fields := ints.map Int.toNat
  let tertiary := setInter fields 129 193
  let fields := if tertiary ≠ [] then setAdd fields 65 else fields
  let secondary := setInter fields 65 129
  let fields := if secondary ≠ [] then setAdd fields 1 else fields
  let p ← encodeBitmapP env py"p" (← partialSpec .keyError raw py"p") 0 false (setInter fields 1 65)
  etail2P env raw (h ++ t ++ p) secondary tertiary fields

/-- From the numbers of the fields on. -/
def etail3 (env : PyEnv) (spec : Spec) (h t : Bytes) : EncM Bytes := do
  let ks := (← PyM.get).dec.keys
  let nums ← PyM.lift (numericKeys env ks ks)
  let ints := setUpdate [] nums
  if ¬ ints.all inRange then
    encFail (.outOfRange (sortedBy id (ints.filter fun n => ¬ inRange n))) py"p"
  let fields := ints.map Int.toNat
  let tertiary := setInter fields 129 193
  let fields := if tertiary ≠ [] then setAdd fields 65 else fields
  let secondary := setInter fields 65 129
  let fields := if secondary ≠ [] then setAdd fields 1 else fields
  let p ← encodeBitmap env py"p" (← encSpec spec py"p") 0 false (setInter fields 1 65)
  etail2 env spec (h ++ t ++ p) secondary tertiary fields

theorem encodeBodyP_etail (env : PyEnv) (raw : PartialSpec) : encodeBodyP env raw =
    (PyM.modify (fun st => { st with dec := (st.dec.pop (.str py"1")).pop (.str py"65") }) >>= fun _ =>
      encodeHeaderP env raw >>= fun h => encodeTypeP env raw >>= fun t => etail3P env raw h t) := rfl

theorem encodeBody_etail (env : PyEnv) (spec : Spec) : encodeBody env spec =
    (PyM.modify (fun st => { st with dec := (st.dec.pop (.str py"1")).pop (.str py"65") }) >>= fun _ =>
      encodeHeader env spec >>= fun h => encodeType env spec >>= fun t => etail3 env spec h t) := rfl

theorem etail_letsBe {env : PyEnv} {spec : Spec} {a b1 : Bytes} {ter F : List Nat} {k : Str} (h1 : py"1" ≠ k) (hF : ∀ i, natStr i ≠ k) :
    LetsBe k (etail env spec a ter F b1) := by
  unfold etail
  dsimp only
  refine LetsBe.ite ?_ ?_
  · exact LetsBe.bind LetsBe.encSpec fun _ => LetsBe.bind (encodeBitmap_letsBe h1) fun _ => LetsBe.bind LetsBe.pure fun _ =>
      LetsBe.bind (encodeFields_letsBe fun i _ => hF i) fun _ => LetsBe.pure
  · exact LetsBe.bind LetsBe.pure fun _ => LetsBe.bind (encodeFields_letsBe fun i _ => hF i) fun _ => LetsBe.pure

theorem etail2_letsBe {env : PyEnv} {spec : Spec} {a : Bytes} {sec ter F : List Nat} {k : Str} (h1 : py"1" ≠ k) (hF : ∀ i, natStr i ≠ k) :
    LetsBe k (etail2 env spec a sec ter F) := by
  unfold etail2
  dsimp only
  refine LetsBe.ite ?_ ?_
  · exact LetsBe.bind LetsBe.encSpec fun _ => LetsBe.bind (encodeBitmap_letsBe h1) fun _ => LetsBe.bind LetsBe.pure fun _ => etail_letsBe h1 hF
  · exact LetsBe.bind LetsBe.pure fun _ => etail_letsBe h1 hF

theorem etail3_letsBe {env : PyEnv} {spec : Spec} {a b : Bytes} {k : Str} (hp : py"p" ≠ k) (h1 : py"1" ≠ k) (hF : ∀ i, natStr i ≠ k) :
    LetsBe k (etail3 env spec a b) := by
  unfold etail3
  simp only [encFail_bind]
  refine LetsBe.bind LetsBe.get fun _ => LetsBe.bind (numericKeys_letsBe hp) fun _ => LetsBe.ite (LetsBe.encFail hp) ?_
  exact LetsBe.bind LetsBe.encSpec fun _ => LetsBe.bind (encodeBitmap_letsBe hp) fun _ => etail2_letsBe h1 hF

theorem etailP_pin {env : PyEnv} (hu : SomeUnknown env) (he : NoEmptyCode env) {raw : PartialSpec} {a b1 : Bytes} {ter F : List Nat}
    (nd : F.Nodup) (hd : 65 ∈ F → ∀ f, raw.get? py"1" = some f → f.dataEnc ≠ none) {st : EncState} :
    EPin raw (etailP env raw a ter F b1) (fun spec => etail env spec a ter F b1) st := by
  unfold etailP etail
  dsimp only
  have tl : ∀ (x : Bytes × List Nat) (st : EncState), x.2.Nodup → EPin raw
      (encodeFieldsP env raw (sortedNat x.2) >>= fun ws => pure (a ++ b1 ++ x.1 ++ ws))
      (fun spec => encodeFields env spec (sortedNat x.2) >>= fun ws => pure (a ++ b1 ++ x.1 ++ ws)) st := by
    intro x st nd
    rcases encodeFieldsP_pin hu he (raw := raw) (st := st) (sortedNat_nodup nd) with h | ⟨s1, s2, k, h1, h2, h⟩
    · exact .inl fun spec hs => by have := h spec hs; dsimp only at this; simp only [run_bind]; rw [this]
    · exact .inr ⟨s1, s2, k, h1, h2, Differ.bind h (fun _ => LetsBe.pure) fun _ => LetsBe.pure⟩
  refine EPin.ite (fun h65 => ?_) (fun _ => tl ([], F) st nd)
  cases hf : raw.get? py"1" with
  | none => exact EPin.known (G := fun spec g => encodeBitmap env py"1" g 128 true ter >>= fun w => pure (w, setRemove F 65) >>= fun x =>
      encodeFields env spec (sortedNat x.2) >>= fun ws => pure (a ++ b1 ++ x.1 ++ ws)) fun f h => by rw [hf] at h; cases h
  | some f =>
    cases hdd : f.dataEnc with
    | none => exact absurd hdd (hd h65 f hf)
    | some w =>
      exact EPin.same_bind (F := fun f => encodeBitmapP env py"1" f 128 true ter) (G := fun g => encodeBitmap env py"1" g 128 true ter)
        (r' := fun spec w => pure (w, setRemove F 65) >>= fun x => encodeFields env spec (sortedNat x.2) >>= fun ws => pure (a ++ b1 ++ x.1 ++ ws))
        hf (fun g hg => congrFun (encodeBitmap_known hdd hg) st) fun w st => tl (w, setRemove F 65) st (nodup_setRemove nd)

/-- With a binary second bitmap, nothing behind it complains about its encoding. -/
theorem etail_never {env : PyEnv} {spec : Spec} {a b1 : Bytes} {ter F : List Nat} {g : FieldSpec} (hg : spec.get? py"1" = some g)
    (hb : g.dataEnc = py"b") (h1 : 1 ∉ F) {m : EncMsg} : Never m py"1" (etail env spec a ter F b1) := by
  have hs : encSpec spec py"1" = pure g := by unfold encSpec; rw [hg]
  have hF : ∀ l : List Nat, 1 ∉ l → Never m py"1" (encodeFields env spec (sortedNat l)) := fun l hl =>
    (encodeFields_letsBe fun i hi => natStr_ne_one fun h => hl (by rw [← h]; exact mem_sortedNat.1 hi)).2 m
  unfold etail
  dsimp only
  rw [hs]
  refine Never.ite (fun _ => ?_) (fun _ => ?_)
  · refine Never.pure_bind (Never.bind (encodeBitmap_b_never hb) fun w => Never.pure_bind (Never.bind (hF _ ?_) fun _ => Never.pure))
    exact fun h => h1 (mem_setRemove.1 h).1
  · exact Never.pure_bind (Never.bind (hF _ h1) fun _ => Never.pure)

theorem etail2P_pin {env : PyEnv} (hu : SomeUnknown env) (he : NoEmptyCode env) {raw : PartialSpec} {a : Bytes} {sec ter F : List Nat}
    (nd : F.Nodup) (hs : ∀ x ∈ sec, 64 + 1 ≤ x ∧ x ≤ 64 + 64) (h65 : 65 ∈ F → 1 ∈ F) {st : EncState} :
    EPin raw (etail2P env raw a sec ter F) (fun spec => etail2 env spec a sec ter F) st := by
  unfold etail2P etail2
  dsimp only
  refine EPin.ite (fun h1 => ?_) (fun h1 => etailP_pin hu he nd fun h => absurd (h65 h) h1)
  obtain ⟨bm, hb, _⟩ := bitmapLoop_zero hs
  cases hf : raw.get? py"1" with
  | none => exact EPin.known (G := fun spec g => encodeBitmap env py"1" g 64 false sec >>= fun w => etail env spec a ter (setRemove F 1) w) fun f h => by rw [hf] at h; cases h
  | some f =>
    cases hd : f.dataEnc with
    | some w =>
      refine EPin.same_bind (F := fun f => encodeBitmapP env py"1" f 64 false sec) (G := fun g => encodeBitmap env py"1" g 64 false sec)
        (r' := fun spec w => etail env spec a ter (setRemove F 1) w)
        hf (fun g hg => congrFun (encodeBitmap_known hd hg) st) fun w st => etailP_pin hu he (nodup_setRemove nd) fun _ f' hf' => ?_
      rw [hf] at hf'
      cases hf'
      rw [hd]
      simp
    | none =>
      obtain ⟨u, ub, _, hu⟩ := hu
      have f1 := filled_dataEnc (filled_seen f) hd u
      have f2 := filled_dataEnc (filled_seen f) hd py"b"
      refine .inr ⟨fillWith raw py"1" _, fillWith raw py"1" _, py"1", fillWith_filled hf f1, fillWith_filled hf f2, .inr (.inr (.inl ⟨.unknownEncoding, ?_, ?_⟩))⟩
      · unfold encSpec
        dsimp only
        rw [fillWith_self hf]
        simp only [run_bind, run_pure]
        have := encodeBitmap_unknown (env := env) (key := py"1") (g := { f.seen with dataEnc := u }) hb ub hu st
        rcases hx : encodeBitmap env py"1" { f.seen with dataEnc := u } 64 false sec st with ⟨r, st1⟩
        rw [hx] at this
        cases this
        rfl
      · refine (?_ : Never _ _ _) st
        have : encSpec (fillWith raw py"1" { f.seen with dataEnc := py"b" }) py"1" = pure { f.seen with dataEnc := py"b" } := by
          unfold encSpec; rw [fillWith_self hf]
        rw [this]
        refine Never.pure_bind (Never.bind (encodeBitmap_b_never rfl) fun w => Never.pure_bind (etail_never (fillWith_self hf) rfl (by simp)))

theorem etail3P_pin {env : PyEnv} (hu : SomeUnknown env) (he : NoEmptyCode env) {raw : PartialSpec} {a b : Bytes} {st : EncState} :
    EPin raw (etail3P env raw a b) (fun spec => etail3 env spec a b) st := by
  unfold etail3P etail3
  simp only [encFail_bind]
  refine EPin.bind fun _ st => EPin.bind fun nums st => EPin.ite (fun _ => EPin.refl _) fun hr => ?_
  refine EPin.field_bind (fun f _ => encodeBitmapP_pin hu) (fun spec _ => etail2_letsBe (by decide) fun i => natStr_ne_letter (by decide)) fun p st => ?_
  have nd : ((setUpdate [] nums).map Int.toNat).Nodup := toNat_nodup (nodup_setUpdate List.nodup_nil) (by simpa using hr)
  refine etail2P_pin hu he ?_ ?_ ?_
  · have n2 : (if setInter (List.map Int.toNat (setUpdate [] nums)) 129 193 ≠ [] then
        setAdd (List.map Int.toNat (setUpdate [] nums)) 65 else List.map Int.toNat (setUpdate [] nums)).Nodup := by
      by_cases hc : setInter (List.map Int.toNat (setUpdate [] nums)) 129 193 ≠ []
      · rw [if_pos hc]; exact nodup_setAdd nd
      · rw [if_neg hc]; exact nd
    by_cases hc : setInter (if setInter (List.map Int.toNat (setUpdate [] nums)) 129 193 ≠ [] then
        setAdd (List.map Int.toNat (setUpdate [] nums)) 65 else List.map Int.toNat (setUpdate [] nums)) 65 129 ≠ []
    · rw [if_pos hc]; exact nodup_setAdd n2
    · rw [if_neg hc]; exact n2
  · intro x hx
    have := mem_setInter.1 hx
    omega
  · intro hx
    by_cases hsec : setInter (if setInter (List.map Int.toNat (setUpdate [] nums)) 129 193 ≠ [] then
        setAdd (List.map Int.toNat (setUpdate [] nums)) 65 else List.map Int.toNat (setUpdate [] nums)) 65 129 ≠ []
    · rw [if_pos hsec]; simp
    · rw [if_neg hsec] at hx
      refine absurd ?_ hsec
      exact List.ne_nil_of_mem (mem_setInter.2 ⟨hx, by omega, by omega⟩)

theorem encodeBodyP_pin {env : PyEnv} (hu : SomeUnknown env) (he : NoEmptyCode env) {raw : PartialSpec} {doc : Doc} :
    EPin raw (encodeBodyP env raw) (encodeBody env) ⟨doc, []⟩ := by
  have hh : EPin raw (encodeHeaderP env raw >>= fun h => encodeTypeP env raw >>= fun t => etail3P env raw h t)
      (fun spec => encodeHeader env spec >>= fun h => encodeType env spec >>= fun t => etail3 env spec h t)
      ⟨(doc.pop (.str py"1")).pop (.str py"65"), []⟩ := by
    have e1 : ∀ r : Bytes → EncM Bytes, (encodeHeaderP env raw >>= r) = (partialSpec .keyError raw py"h" >>= fun f => headP env f >>= r) :=
      fun r => PyM.assoc ..
    have e2 : ∀ spec (r : Bytes → EncM Bytes), (encodeHeader env spec >>= r) = (encSpec spec py"h" >>= fun g => headG env g >>= r) :=
      fun spec r => PyM.assoc ..
    rw [e1]
    simp only [e2]
    refine EPin.field_bind (fun f _ => headP_pin hu he rfl) (fun spec h => LetsBe.bind (encodeType_letsBe (by decide)) fun _ => etail3_letsBe (by decide) (by decide) fun i => natStr_ne_letter (by decide)) fun h st => ?_
    have e3 : ∀ r : Bytes → EncM Bytes, (encodeTypeP env raw >>= r) = (PyM.get >>= fun st => if ¬ st.dec.contains (.str py"t") = true then encFail .required py"t"
        else partialSpec .keyError raw py"t" >>= fun f => etypeP env f >>= r) := by
      intro r
      unfold encodeTypeP
      simp only [encFail_bind]
      rw [PyM.assoc]
      congr 1
      funext st
      by_cases hc : ¬ st.dec.contains (.str py"t") = true
      · rw [if_pos hc, if_pos hc]; rfl
      · rw [if_neg hc, if_neg hc]; exact PyM.assoc ..
    have e4 : ∀ spec (r : Bytes → EncM Bytes), (encodeType env spec >>= r) = (PyM.get >>= fun st => if ¬ st.dec.contains (.str py"t") = true then encFail .required py"t"
        else encSpec spec py"t" >>= fun g => etypeG env g >>= r) := by
      intro spec r
      unfold encodeType
      simp only [encFail_bind]
      rw [PyM.assoc]
      congr 1
      funext st
      by_cases hc : ¬ st.dec.contains (.str py"t") = true
      · rw [if_pos hc, if_pos hc]; rfl
      · rw [if_neg hc, if_neg hc]; exact PyM.assoc ..
    rw [e3]
    simp only [e4]
    refine EPin.bind fun _ st => EPin.ite (fun _ => EPin.refl _) fun _ => ?_
    exact EPin.field_bind (fun f _ => etypeP_pin hu) (fun spec _ => etail3_letsBe (by decide) (by decide) fun i => natStr_ne_letter (by decide))
      fun t st => etail3P_pin hu he
  exact hh

end Iso8583
