import Verif.Source.Attr
import Verif.Source.Semantics
/-!
# Running programs

Equations used by `simp` to run programs.  Most repeat one case of a definition of `Semantics.lean`.
-/

namespace Iso8583.Src

variable {ε σ : Type} {rt : Rt ε σ} {call : Caller ε σ}

attribute [src] PyM.run_bind PyM.run_pure PyM.run_raise PyM.run_modify

@[src] theorem ite_run {α : Type} (c : Prop) [Decidable c] (a b : M ε σ α) (st : St σ) :
    (if c then a else b) st = if c then a st else b st := by split <;> rfl

/-! ## Variables -/

@[src] theorem set_apply (vs : Vars) (x y : Ident) (v : Val) : vs.set x v y = if y = x then some v else vs y := rfl

@[src] theorem setVar_run (x : Ident) (v : Val) (st : St σ) :
    (setVar x v : M ε σ Unit) st = (.ok (), { st with vars := st.vars.set x v }) := rfl

/-! ## Expressions -/

@[src 500] theorem eval_name (x : Ident) (st : St σ) : eval rt call (.name x) st = getVar rt x st := rfl

theorem getVar_some {x : Ident} {v : Val} {st : St σ} (h : st.vars x = some v) : getVar rt x st = (.ok v, st) := by
  simp [getVar, h]

@[src] theorem eval_none (st : St σ) : eval rt call .none st = (.ok .none, st) := rfl
@[src] theorem eval_bool (b : Bool) (st : St σ) : eval rt call (.bool b) st = (.ok (.bool b), st) := rfl
@[src] theorem eval_int (n : Int) (st : St σ) : eval rt call (.int n) st = (.ok (.int n), st) := rfl
@[src] theorem eval_str (s : Str) (st : St σ) : eval rt call (.str s) st = (.ok (.str s), st) := rfl
@[src] theorem eval_bytes (b : Bytes) (st : St σ) : eval rt call (.bytes b) st = (.ok (.bytes b), st) := rfl

@[src 500] theorem eval_fstr (ps : List Expr) (st : St σ) : eval rt call (.fstr ps) st = (do pure (.str (← evalTexts rt call ps)) : M ε σ Val) st := rfl
@[src 500] theorem eval_attr (e : Expr) (a : Ident) (st : St σ) : eval rt call (.attr e a) st = (do attrVal (← eval rt call e) a : M ε σ Val) st := rfl
@[src 500] theorem eval_sub (e k : Expr) (st : St σ) : eval rt call (.sub e k) st = (do
    let v ← eval rt call e
    let k ← eval rt call k
    subVal v k : M ε σ Val) st := rfl
@[src 500] theorem eval_slice (e lo hi : Expr) (st : St σ) : eval rt call (.slice e lo hi) st = (do
    let v ← eval rt call e
    let lo ← eval rt call lo
    let hi ← eval rt call hi
    sliceVal v lo hi : M ε σ Val) st := rfl
@[src 500] theorem eval_bin (op : BinOp) (a b : Expr) (st : St σ) : eval rt call (.bin op a b) st = (do
    let a ← eval rt call a
    let b ← eval rt call b
    binop op a b : M ε σ Val) st := rfl
@[src 500] theorem eval_cmp (op : CmpOp) (a b : Expr) (st : St σ) : eval rt call (.cmp op a b) st = (do
    let a ← eval rt call a
    let b ← eval rt call b
    pure (.bool (← cmpop op a b)) : M ε σ Val) st := rfl
@[src 500] theorem eval_and (a b : Expr) (st : St σ) : eval rt call (.and a b) st = (do
    let v ← eval rt call a
    if ← truth v then eval rt call b else pure v : M ε σ Val) st := rfl
@[src 500] theorem eval_or (a b : Expr) (st : St σ) : eval rt call (.or a b) st = (do
    let v ← eval rt call a
    if ← truth v then pure v else eval rt call b : M ε σ Val) st := rfl
@[src 500] theorem eval_not (a : Expr) (st : St σ) : eval rt call (.not a) st = (do
    let v ← eval rt call a
    pure (.bool (!(← truth v))) : M ε σ Val) st := rfl
@[src 500] theorem eval_neg (a : Expr) (st : St σ) : eval rt call (.neg a) st = (do
    match ← eval rt call a with
    | .int n => pure (.int (-n))
    | _ => stuck : M ε σ Val) st := rfl
@[src 500] theorem eval_ite (c a b : Expr) (st : St σ) : eval rt call (.ite c a b) st = (do
    let v ← eval rt call c
    if ← truth v then eval rt call a else eval rt call b : M ε σ Val) st := rfl
@[src] theorem eval_call {f : Ident} {st : St σ} (h : st.vars f = none) (args : List Expr) (kns : List Ident) (kvs : List Expr) :
    eval rt call (.call f args kns kvs) st = (do
      let vs ← evals rt call args
      let ks ← evals rt call kvs
      call f vs (kns.zip ks) : M ε σ Val) st := by
  simp only [eval, h]
theorem eval_call_glob {f g : Ident} {st : St σ} (h : st.vars f = some (.glob g)) (args : List Expr) (kns : List Ident) (kvs : List Expr) :
    eval rt call (.call f args kns kvs) st = (do
      let vs ← evals rt call args
      let ks ← evals rt call kvs
      call g vs (kns.zip ks) : M ε σ Val) st := by
  simp only [eval, h]
@[src 500] theorem eval_meth (e : Expr) (m : Ident) (args : List Expr) (kns : List Ident) (kvs : List Expr) (st : St σ) : eval rt call (.meth e m args kns kvs) st = (do
      let v ← eval rt call e
      findMethod v m
      let vs ← guarded v m (evals rt call args)
      let ks ← guarded v m (evals rt call kvs)
      method rt v m vs (kns.zip ks) : M ε σ Val) st := rfl
@[src 500] theorem eval_list (xs : List Expr) (st : St σ) : eval rt call (.list xs) st = (do pure (.list (← evals rt call xs)) : M ε σ Val) st := rfl
@[src 500] theorem eval_tuple (xs : List Expr) (st : St σ) : eval rt call (.tuple xs) st = (do pure (.tuple (← evals rt call xs)) : M ε σ Val) st := rfl
@[src 500] theorem eval_dict (ks vs : List Expr) (st : St σ) : eval rt call (.dict ks vs) st = (do
    let items ← inPairs (evalEach rt call ks) (evalEach rt call vs)
    if items.all fun p => p.1.plain then alloc (.dict (items.foldl (fun d p => insert d p.1 p.2) [])) else stuck : M ε σ Val) st := rfl
theorem eval_comp (c : Comp) (st : St σ) : eval rt call (.comp c) st =
    match evalComp rt call c st with
    | (.ok vs, st') => (.ok (.list vs), { st' with vars := st.vars })
    | (.error e, st') => (.error e, { st' with vars := st.vars }) := by
  simp only [eval, inScope, PyM.run_bind]
  rcases evalComp rt call c st with ⟨_ | f, st'⟩ <;> rfl

attribute [src] evals evalEach inPairs evalTexts

@[src] theorem plain_none : Val.plain .none = true := by unfold Val.plain; rfl
@[src] theorem plain_bool (b : Bool) : Val.plain (.bool b) = true := by unfold Val.plain; rfl
@[src] theorem plain_int (n : Int) : Val.plain (.int n) = true := by unfold Val.plain; rfl
@[src] theorem plain_str (s : Str) : Val.plain (.str s) = true := by unfold Val.plain; rfl
@[src] theorem plain_bytes (b : Bytes) : Val.plain (.bytes b) = true := by unfold Val.plain; rfl
@[src] theorem plain_globAttr (x a : Ident) : Val.plain (.globAttr x a) = true := by unfold Val.plain; rfl
@[src] theorem plain_obj (c r : Str) (n : Option Nat) : Val.plain (.obj c r n) = true := by unfold Val.plain; rfl

@[src] theorem keyed_plain {α : Type} {k : Val} (h : k.plain = true) (m : M ε σ α) : keyed k m = m := if_pos h

attribute [src] findMethod namesGlobal hasMethod

@[src] theorem guarded_run {α : Type} (v : Val) (m : Ident) (c : M ε σ α) (st : St σ) : guarded v m c st =
    match c st with
    | (.ok a, st') => (.ok a, st')
    | (.error e, st') => if hasMethod st.heap v m then (.error e, st') else (.error .stuck, st') := rfl
@[src] theorem textMethod_str (s : Str) : (textMethod (.str s) : M ε σ Unit) = pure () := rfl

@[src] theorem truth_bool (b : Bool) : (truth (.bool b) : M ε σ Bool) = pure b := rfl
@[src] theorem truth_int (n : Int) : (truth (.int n) : M ε σ Bool) = pure (n != 0) := rfl
@[src] theorem truth_str (s : Str) : (truth (.str s) : M ε σ Bool) = pure (s != []) := rfl
@[src] theorem truth_bytes (b : Bytes) : (truth (.bytes b) : M ε σ Bool) = pure (b != []) := rfl
@[src] theorem truth_none : (truth .none : M ε σ Bool) = pure false := rfl

@[src] theorem elements_list (xs : List Val) : elements rt (.list xs) = pure xs := rfl
@[src] theorem elements_bytes (b : Bytes) : elements rt (.bytes b) = pure (b.map fun x => .int x.toNat) := rfl
@[src] theorem elements_barray (b : Bytes) : elements rt (.barray b) = pure (b.map fun x => .int x.toNat) := rfl

@[src] theorem same_str (a b : Str) : Val.same (.str a) (.str b) = (a == b) := rfl
@[src] theorem same_int (a b : Int) : Val.same (.int a) (.int b) = (a == b) := rfl
@[src] theorem same_str_obj (a c r : Str) (n : Option Nat) : Val.same (.str a) (.obj c r n) = false := rfl
@[src] theorem same_obj_str (a c r : Str) (n : Option Nat) : Val.same (.obj c r n) (.str a) = false := rfl

@[src] theorem binop_add_int (a b : Int) : (binop .add (.int a) (.int b) : M ε σ Val) = pure (.int (a + b)) := rfl
@[src] theorem binop_add_str (a b : Str) : (binop .add (.str a) (.str b) : M ε σ Val) = pure (.str (a ++ b)) := rfl
@[src] theorem binop_add_bytes (a b : Bytes) : (binop .add (.bytes a) (.bytes b) : M ε σ Val) = pure (.bytes (a ++ b)) := rfl
@[src] theorem binop_sub (a b : Int) : (binop .sub (.int a) (.int b) : M ε σ Val) = pure (.int (a - b)) := rfl
@[src] theorem binop_mul (a b : Int) : (binop .mul (.int a) (.int b) : M ε σ Val) = pure (.int (a * b)) := rfl
@[src] theorem binop_mul_str (a : Str) (b : Int) :
    (binop .mul (.str a) (.int b) : M ε σ Val) = pure (.str (List.replicate b.toNat a).flatten) := rfl
@[src] theorem binop_floordiv (a b : Int) :
    (binop .floordiv (.int a) (.int b) : M ε σ Val) = if b = 0 then stuck else pure (.int (a.fdiv b)) := rfl
@[src] theorem binop_mod (a b : Int) :
    (binop .mod (.int a) (.int b) : M ε σ Val) = if b = 0 then stuck else pure (.int (a.fmod b)) := rfl
@[src] theorem binop_shl (a b : Int) :
    (binop .shl (.int a) (.int b) : M ε σ Val) = if b < 0 then fail .ValueError else pure (.int (a * 2 ^ b.toNat)) := rfl
@[src] theorem binop_shr (a b : Int) :
    (binop .shr (.int a) (.int b) : M ε σ Val) = if b < 0 then fail .ValueError else pure (.int (a.fdiv (2 ^ b.toNat))) := rfl
@[src] theorem binop_band (a b : Int) : (binop .band (.int a) (.int b) : M ε σ Val) = pure (.int (intAnd a b)) := rfl
@[src] theorem binop_bor (a b : Int) :
    (binop .bor (.int a) (.int b) : M ε σ Val) = if a < 0 ∨ b < 0 then stuck else pure (.int (a.toNat ||| b.toNat : Nat)) := rfl

@[src] theorem augop_int (op : BinOp) (a : Int) (b : Val) : (augop op (.int a) b : M ε σ Val) = binop op (.int a) b := by
  cases op <;> rfl

@[src] theorem cmpop_eq (a b : Val) : (cmpop .eq a b : M ε σ Bool) = keyed a (keyed b (pure (a.same b))) := rfl
@[src] theorem cmpop_ne (a b : Val) : (cmpop .ne a b : M ε σ Bool) = keyed a (keyed b (pure (!a.same b))) := rfl
@[src] theorem cmpop_lt (a b : Int) : (cmpop .lt (.int a) (.int b) : M ε σ Bool) = pure (decide (a < b)) := rfl
@[src] theorem cmpop_le (a b : Int) : (cmpop .le (.int a) (.int b) : M ε σ Bool) = pure (decide (a ≤ b)) := rfl
@[src] theorem cmpop_gt (a b : Int) : (cmpop .gt (.int a) (.int b) : M ε σ Bool) = pure (decide (a > b)) := rfl
@[src] theorem cmpop_ge (a b : Int) : (cmpop .ge (.int a) (.int b) : M ε σ Bool) = pure (decide (a ≥ b)) := rfl
@[src] theorem cmpop_mem (a b : Val) : (cmpop .mem a b : M ε σ Bool) = contains a b := rfl
@[src] theorem cmpop_notMem (a b : Val) : (cmpop .notMem a b : M ε σ Bool) = (do pure (!(← contains a b))) := rfl

@[src] theorem sliceVal_str (s : Str) (lo hi : Val) {i j : Option Int} (hi' : asBound lo = some i) (hj : asBound hi = some j) :
    (sliceVal (.str s) lo hi : M ε σ Val) = pure (.str (sliceOf s i j)) := by
  simp [sliceVal, hi', hj]
@[src] theorem sliceVal_bytes (s : Bytes) (lo hi : Val) {i j : Option Int} (hi' : asBound lo = some i) (hj : asBound hi = some j) :
    (sliceVal (.bytes s) lo hi : M ε σ Val) = pure (.bytes (sliceOf s i j)) := by
  simp [sliceVal, hi', hj]
@[src] theorem sliceVal_barray (s : Bytes) (lo hi : Val) {i j : Option Int} (hi' : asBound lo = some i) (hj : asBound hi = some j) :
    (sliceVal (.barray s) lo hi : M ε σ Val) = pure (.barray (sliceOf s i j)) := by
  simp [sliceVal, hi', hj]
@[src] theorem asBound_none : asBound .none = some none := rfl
@[src] theorem asBound_int (n : Int) : asBound (.int n) = some (some n) := rfl

/-! ## The heap -/

@[src] theorem alloc_run (o : Obj) (st : St σ) :
    (alloc o : M ε σ Val) st = (.ok (.ref st.heap.length), { st with heap := st.heap ++ [o] }) := rfl

@[src] theorem store_run (l : Nat) (o : Obj) (st : St σ) :
    (store l o : M ε σ Unit) st = (.ok (), { st with heap := st.heap.set l o }) := rfl

theorem deref_run {l : Nat} {st : St σ} {o : Obj} (h : st.heap[l]? = some o) : (deref l : M ε σ Obj) st = (.ok o, st) := by
  simp [deref, h]

@[src] theorem subVal_dict (items : List (Val × Val)) (k : Val) : (subVal (.dict items) k : M ε σ Val) =
    keyed k (match lookup items k with
    | some x => pure x
    | none => PyM.raise (.std .KeyError k)) := rfl

theorem subVal_ref_dict {l : Nat} {st : St σ} {items : List (Val × Val)} (k : Val) (h : st.heap[l]? = some (.dict items))
    (hk : k.plain = true) : (subVal (.ref l) k : M ε σ Val) st = match lookup items k with
      | some x => (.ok x, st)
      | none => (.error (.std .KeyError k), st) := by
  simp only [subVal, PyM.run_bind, deref_run h, itemAt, keyed_plain hk]
  cases lookup items k <;> rfl

theorem subSet_ref_dict {l : Nat} {st : St σ} {items : List (Val × Val)} (k x : Val) (h : st.heap[l]? = some (.dict items))
    (hk : k.plain = true) :
    (subSet (.ref l) k x : M ε σ Unit) st = (.ok (), { st with heap := st.heap.set l (.dict (insert items k x)) }) := by
  simp only [subSet, PyM.run_bind, deref_run h, keyed_plain hk, store_run]

theorem contains_ref_dict {l : Nat} {st : St σ} {items : List (Val × Val)} (k : Val) (h : st.heap[l]? = some (.dict items))
    (hk : k.plain = true) :
    (contains k (.ref l) : M ε σ Bool) st = (.ok (lookup items k).isSome, st) := by
  simp only [contains, PyM.run_bind, deref_run h, keyed_plain hk, PyM.run_pure]

theorem contains_ref_set {l : Nat} {st : St σ} {xs : List Int} (n : Int) (h : st.heap[l]? = some (.set xs)) :
    (contains (.int n) (.ref l) : M ε σ Bool) st = (.ok (decide (n ∈ xs)), st) := by
  simp only [contains, PyM.run_bind, deref_run h, PyM.run_pure]

/-! ## Text -/

@[src] theorem textOf_str (s : Str) : textOf rt (.str s) = pure s := rfl
@[src] theorem textOf_int (n : Int) : textOf rt (.int n) = intText rt n := rfl
@[src] theorem textOf_exn {c : Ident} (h : c ≠ .KeyError) (t : Str) : textOf rt (.exn c (.str t)) = pure t := by
  cases c <;> first | rfl | exact absurd rfl h

@[src] theorem intText_run (n : Int) (st : St σ) :
    intText rt n st = if formats rt.env n then (.ok (intStr n), st) else (.error (.std .ValueError .none), st) := by
  unfold intText; split <;> rfl

/-! ## Built-in functions and methods -/

@[src] theorem builtin_len (v : Val) : builtin rt .len [v] [] = lenVal v := rfl
@[src] theorem lenVal_str (s : Str) : (lenVal (.str s) : M ε σ Val) = pure (.int s.length) := rfl
@[src] theorem lenVal_bytes (s : Bytes) : (lenVal (.bytes s) : M ε σ Val) = pure (.int s.length) := rfl
@[src] theorem lenVal_barray (s : Bytes) : (lenVal (.barray s) : M ε σ Val) = pure (.int s.length) := rfl
@[src] theorem builtin_bytes_bytes (b : Bytes) : builtin rt .bytes [.bytes b] [] = pure (.bytes b) := rfl
@[src] theorem builtin_bytes_barray (b : Bytes) : builtin rt .bytes [.barray b] [] = pure (.bytes b) := rfl
@[src] theorem builtin_int (v : Val) : builtin rt .int [v] [] = intVal rt v := rfl
@[src] theorem builtin_int10 (s : Str) : builtin rt .int [.str s, .int 10] [] = intVal rt (.str s) := rfl
@[src] theorem builtin_set : builtin rt .set [] [] = alloc (.set []) := rfl
@[src] theorem builtin_str_int (n : Int) : builtin rt .str [.int n] [] = (do pure (.str (← intText rt n))) := rfl
@[src] theorem builtin_range (lo hi : Int) : builtin rt .range [.int lo, .int hi] [] = pure (.list ((rangeList lo hi 1).map .int)) := rfl
@[src] theorem builtin_enumerate (v : Val) : builtin rt .enumerate [v] [] = (do pure (.list (number 0 (← elements rt v)))) := rfl
@[src] theorem builtin_TypeError (v : Val) : builtin rt .TypeError [v] [] = pure (.exn .TypeError v) := rfl

@[src] theorem method_init (l : Nat) (x : Val) : method rt (.glob .ValueError) .__init__ [.ref l, x] [] = (do
    match ← deref l with
    | .inst c _ attrs =>
      store l (.inst c [x] attrs)
      pure .none
    | _ => stuck) := rfl

@[src] theorem method_upper {s : Str} (h : asciiText s = true) : method rt (.str s) .upper [] [] = pure (.str (upperAscii s)) := if_pos h
@[src] theorem asciiText_bytesHex (b : Bytes) : asciiText (bytesHex b) = true := by
  refine List.all_eq_true.mpr fun c hc => decide_eq_true ?_
  simp only [bytesHex, List.mem_flatMap] at hc
  obtain ⟨x, _, hc⟩ := hc
  have h1 : x.toNat / 16 < 16 := by have := x.toNat_lt; omega
  have h2 : x.toNat % 16 < 16 := by omega
  have h : ∀ n, n < 16 → hexDigitLower n < 128 := by
    intro n hn
    unfold hexDigitLower
    split <;> omega
  simp at hc
  rcases hc with rfl | rfl
  · exact h _ h1
  · exact h _ h2
@[src] theorem method_hex (b : Bytes) : method rt (.bytes b) .hex [] [] = pure (.str (bytesHex b)) := rfl
@[src] theorem method_hex' (b : Bytes) : method rt (.barray b) .hex [] [] = pure (.str (bytesHex b)) := rfl
@[src] theorem method_decode (b : Bytes) (n : Str) : method rt (.bytes b) .decode [.str n] [] = decodeVal rt b n := rfl
@[src] theorem method_decode' (b : Bytes) (n : Str) : method rt (.barray b) .decode [.str n] [] = decodeVal rt b n := rfl
@[src] theorem method_get (items : List (Val × Val)) (k d : Val) :
    method rt (.dict items) .get [k, d] [] = keyed k (pure ((lookup items k).getD d)) := rfl
@[src] theorem method_fromhex (s : Str) : method rt (.glob .bytes) .fromhex [.str s] [] =
    match fromHex s with
    | some b => pure (.bytes b)
    | none => fail .ValueError := rfl
@[src] theorem method_from_bytes (b : Bytes) :
    method rt (.glob .int) .from_bytes [.bytes b, .str py"big"] [(.signed, .bool false)] = pure (.int (fromBytesBE b)) := rfl
@[src] theorem method_from_bytes' (b : Bytes) :
    method rt (.glob .int) .from_bytes [.barray b, .str py"big"] [(.signed, .bool false)] = pure (.int (fromBytesBE b)) := rfl

@[src] theorem method_ref (l : Nat) (m : Ident) (args : List Val) (kws : List (Ident × Val)) :
    method rt (.ref l) m args kws = objMethod l m args kws := rfl

theorem objMethod_set {l : Nat} {st : St σ} {xs : List Int} (h : st.heap[l]? = some (.set xs)) (m : Ident) (args : List Val)
    (kws : List (Ident × Val)) : (objMethod l m args kws : M ε σ Val) st = setMethod l xs m args kws st := by
  simp only [objMethod, PyM.run_bind, deref_run h]
theorem objMethod_dict {l : Nat} {st : St σ} {items : List (Val × Val)} (h : st.heap[l]? = some (.dict items)) (m : Ident) (args : List Val)
    (kws : List (Ident × Val)) : (objMethod l m args kws : M ε σ Val) st = dictMethod l items m args kws st := by
  simp only [objMethod, PyM.run_bind, deref_run h]
theorem objMethod_hex {l : Nat} {st : St σ} {b : Bytes} (h : st.heap[l]? = some (.barray b)) :
    (objMethod l .hex [] [] : M ε σ Val) st = (.ok (.str (bytesHex b)), st) := by
  simp only [objMethod, PyM.run_bind, deref_run h, barrayMethod, PyM.run_pure]

@[src] theorem setMethod_update (l : Nat) (xs : List Int) (vs : List Val) : (setMethod l xs .update [.list vs] [] : M ε σ Val) =
    match ints vs with
    | some ns => do
      store l (.set (addAll xs ns))
      pure .none
    | none => stuck := rfl
@[src] theorem setMethod_add (l : Nat) (xs : List Int) (n : Int) : (setMethod l xs .add [.int n] [] : M ε σ Val) = (do
    store l (.set (setAdd xs n))
    pure .none) := rfl
@[src] theorem setMethod_remove (l : Nat) (xs : List Int) (n : Int) : (setMethod l xs .remove [.int n] [] : M ε σ Val) =
    if n ∈ xs then do
      store l (.set (setRemove xs n))
      pure .none
    else PyM.raise (.std .KeyError (.int n)) := rfl
@[src] theorem setMethod_intersection (l : Nat) (xs : List Int) (vs : List Val) : (setMethod l xs .intersection [.list vs] [] : M ε σ Val) =
    match ints vs with
    | some ns => alloc (.set (xs.filter (· ∈ ns)))
    | none => stuck := rfl
@[src] theorem setMethod_difference (l : Nat) (xs : List Int) (vs : List Val) : (setMethod l xs .difference [.list vs] [] : M ε σ Val) =
    match ints vs with
    | some ns => alloc (.set (xs.filter (· ∉ ns)))
    | none => stuck := rfl
@[src] theorem setMethod_issubset (l : Nat) (xs : List Int) (vs : List Val) : (setMethod l xs .issubset [.list vs] [] : M ε σ Val) =
    match ints vs with
    | some ns => pure (.bool (xs.all (· ∈ ns)))
    | none => stuck := rfl
@[src] theorem dictMethod_get (l : Nat) (items : List (Val × Val)) (k d : Val) :
    (dictMethod l items .get [k, d] [] : M ε σ Val) = keyed k (pure ((lookup items k).getD d)) := rfl
@[src] theorem dictMethod_keys (l : Nat) (items : List (Val × Val)) :
    (dictMethod l items .keys [] [] : M ε σ Val) = pure (.list (items.map Prod.fst)) := rfl
@[src] theorem dictMethod_pop (l : Nat) (items : List (Val × Val)) (k d : Val) :
    (dictMethod l items .pop [k, d] [] : M ε σ Val) = keyed k (do
      store l (.dict (delete items k))
      pure ((lookup items k).getD d)) := rfl

/-! ## Statements -/

attribute [src] execs handle assignTo assignAll Exc.caughtBy subclass

@[src] theorem withName_none {α : Type} (v : Val) (m : M ε σ α) : withName none v m = m := rfl
@[src] theorem withName_some {α : Type} (x : Ident) (v : Val) (m : M ε σ α) (st : St σ) : withName (some x) v m st =
    match m { st with vars := st.vars.set x v } with
    | (r, st') => (r, { st' with vars := fun y => if y = x then none else st'.vars y }) := rfl

@[src 500] theorem exec_assign (t : Target) (e : Expr) (st : St σ) : exec rt call (.assign [t] e) st = (do
    let v ← eval rt call e
    assignTo rt call v t
    pure .next : M ε σ Flow) st := rfl
@[src 500] theorem exec_aug (x : Ident) (op : BinOp) (e : Expr) (st : St σ) : exec rt call (.aug (.name x) op e) st = (do
    let a ← getVar rt x
    let b ← eval rt call e
    setVar x (← augop op a b)
    pure .next : M ε σ Flow) st := rfl
@[src 500] theorem exec_expr (e : Expr) (st : St σ) : exec rt call (.expr e) st = (do
    let _ ← eval rt call e
    pure .next : M ε σ Flow) st := rfl
@[src 500] theorem exec_ite (c : Expr) (a b : List Stmt) (st : St σ) : exec rt call (.ite c a b) st = (do
    let v ← eval rt call c
    if ← truth v then execs rt call a else execs rt call b : M ε σ Flow) st := rfl
@[src 500] theorem exec_loop (xs : List Ident) (it : Expr) (body : List Stmt) (st : St σ) : exec rt call (.loop xs it body) st = (do
    let v ← eval rt call it
    let vs ← elements rt v
    iterate (execs rt call body) xs vs : M ε σ Flow) st := rfl
@[src] theorem exec_attempt (body : List Stmt) (hs : List Handler) (st : St σ) : exec rt call (.attempt body hs) st =
    match execs rt call body st with
    | (.ok r, st') => (.ok r, st')
    | (.error e, st') => handle rt call e hs st' := rfl
@[src 500] theorem exec_raise_eq (e : Expr) (st : St σ) : exec rt call (.raise e) st = (do
    let v ← eval rt call e
    raiseVal v : M ε σ Flow) st := rfl
@[src 500] theorem exec_ret (e : Expr) (st : St σ) : exec rt call (.ret e) st = (do
    let v ← eval rt call e
    pure (.ret v) : M ε σ Flow) st := rfl
@[src 500] theorem exec_yield (e : Expr) (st : St σ) : exec rt call (.yield e) st = (do
    let v ← eval rt call e
    PyM.modify fun st => { st with ys := st.ys ++ [v] }
    pure .next : M ε σ Flow) st := rfl

@[src] theorem fail_run {α : Type} (c : Ident) (st : St σ) : (fail c : M ε σ α) st = (.error (.std c .none), st) := rfl

@[src] theorem raiseVal_exn {α : Type} (c : Ident) (a : Val) : (raiseVal (.exn c a) : M ε σ α) = PyM.raise (.std c a) := rfl

theorem raiseVal_ref {α : Type} {l : Nat} {st : St σ} {c : Ident} {a : List Val} {b : List (Ident × Val)}
    (h : st.heap[l]? = some (.inst c a b)) : (raiseVal (.ref l) : M ε σ α) st = (.error (.inst c l), st) := by
  simp only [raiseVal, PyM.run_bind, deref_run h, PyM.run_raise]

theorem execs_cons (s : Stmt) (t : List Stmt) (st : St σ) : execs rt call (s :: t) st =
    match exec rt call s st with
    | (.ok .next, st') => execs rt call t st'
    | (.ok (.ret v), st') => (.ok (.ret v), st')
    | (.error e, st') => (.error e, st') := by
  simp only [execs, PyM.run_bind]
  rcases exec rt call s st with ⟨_ | f, st'⟩
  · rfl
  · cases f <;> rfl

end Iso8583.Src
