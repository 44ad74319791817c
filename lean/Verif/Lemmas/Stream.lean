import Verif.Spec.Stream
/-! # Lemmas for C67: both transcriptions of tools.py make the same calls -/

namespace Iso8583

theorem feed_append {ε σ : Type} (w : Writer ε σ) (a b : List Str) (s : σ) :
    feed w (a ++ b) s = match feed w a s with
      | (.ok _, s') => feed w b s'
      | (.error e, s') => (.error e, s') := by
  induction a generalizing s with
  | nil => rfl
  | cons t ts ih =>
    simp only [List.cons_append, feed]
    cases h : w t s with
    | mk r s' => cases r <;> simp [ih]

/-- `m` writes the concatenation of some texts; `m'` hands the same texts to the stream. -/
def Calls {α : Type} (m : PpM α) (m' : ∀ (ε σ : Type), Writer ε σ → SM ε σ α) : Prop :=
  ∃ calls : List Str, ∃ r : Except PpRaise α, (∀ out, m out = (r, out ++ calls.flatten)) ∧
    ∀ (ε σ : Type) (w : Writer ε σ) (s : σ), m' ε σ w s = match feed w calls s with
      | (.ok _, s') => (r.mapError .pp, s')
      | (.error e, s') => (.error (.stream e), s')

theorem Calls.pure {α : Type} (a : α) : Calls (Pure.pure a : PpM α) (fun _ _ _ => Pure.pure a) :=
  ⟨[], .ok a, fun _ => by simp, fun _ _ _ _ => rfl⟩

theorem Calls.raise {α : Type} (e : PpRaise) : Calls (PyM.raise e : PpM α) (fun _ _ _ => PyM.raise (.pp e)) :=
  ⟨[], .error e, fun _ => by simp, fun _ _ _ _ => rfl⟩

theorem Calls.write (t : Str) : Calls (ppWrite t) (fun _ _ w => streamWrite w t) := by
  refine ⟨[t], .ok (), fun _ => by simp [ppWrite], fun ε σ w s => ?_⟩
  simp only [streamWrite, feed]
  cases h : w t s with
  | mk r s' => cases r <;> rfl

theorem Calls.bind {α β : Type} {m : PpM α} {m' : ∀ (ε σ : Type), Writer ε σ → SM ε σ α} {f : α → PpM β}
    {f' : α → ∀ (ε σ : Type), Writer ε σ → SM ε σ β} (h : Calls m m') (hf : ∀ a, Calls (f a) (f' a)) :
    Calls (m >>= f) (fun ε σ w => m' ε σ w >>= fun a => f' a ε σ w) := by
  obtain ⟨c, r, h1, h2⟩ := h
  cases r with
  | error e =>
    refine ⟨c, .error e, fun out => ?_, fun ε σ w s => ?_⟩
    · rw [PyM.run_bind, h1]
    · show (m' ε σ w >>= fun a => f' a ε σ w) s = _
      rw [PyM.run_bind, h2]
      cases hc : feed w c s with
      | mk q s' => cases q <;> rfl
  | ok a =>
    obtain ⟨c', r', h3, h4⟩ := hf a
    refine ⟨c ++ c', r', fun out => ?_, fun ε σ w s => ?_⟩
    · rw [PyM.run_bind, h1]
      simp [h3]
    · show (m' ε σ w >>= fun a => f' a ε σ w) s = _
      rw [PyM.run_bind, h2, feed_append]
      cases hc : feed w c s with
      | mk q s' =>
        cases q with
        | ok u => simp only [Except.mapError, h4]
        | error e => rfl

theorem Calls.ite {α : Type} {c : Prop} [Decidable c] {m n : PpM α} {m' n' : ∀ (ε σ : Type), Writer ε σ → SM ε σ α}
    (h1 : Calls m m') (h2 : Calls n n') : Calls (if c then m else n) (fun ε σ w => if c then m' ε σ w else n' ε σ w) := by
  by_cases h : c <;> simp only [h, if_true, if_false] <;> assumption

theorem writePieces_calls (indent : Nat) (delim : Str) (ps : List Str) :
    Calls (writePieces indent delim ps) (fun _ _ w => writePiecesS w indent delim ps) := by
  induction ps generalizing delim with
  | nil => exact .pure ()
  | cons p t ih => exact .bind (.write _) fun _ => .bind (.write _) fun _ => ih _

theorem pprintStr_calls (env : PyEnv) (obj : Str) (indent : Nat) (width : Int) :
    Calls (pprintStr env obj indent width) (fun _ _ w => pprintStrS env w obj indent width) :=
  .ite (.write _) (writePieces_calls _ _ _)

theorem pprintBytes_calls (obj : Bytes) (indent : Nat) (width : Int) :
    Calls (pprintBytes obj indent width) (fun _ _ w => pprintBytesS w obj indent width) :=
  .ite (.write _) (writePieces_calls _ _ _)

theorem ppValue_calls (env : PyEnv) (obj : PpVal) (indent : Nat) (lw : Int) :
    Calls (ppValue env obj indent lw) (fun _ _ w => ppValueS env w obj indent lw) := by
  cases obj with
  | str s => exact .ite (.bind (pprintStr_calls _ _ _ _) fun _ => .write _) (.write _)
  | bytes b => exact .ite (.bind (pprintBytes_calls _ _ _) fun _ => .write _) (.write _)
  | dict l d => exact .ite (.write _) (.write _)
  | other r => exact .ite (.write _) (.write _)

theorem ppField_calls (env : PyEnv) (doc : PpDoc) (spec : Spec) (dw lw : Int) (key : Str) :
    Calls (ppField env doc spec dw lw key) (fun _ _ w => ppFieldS env w doc spec dw lw key) := by
  unfold ppField ppFieldS
  dsimp only
  have value : ∀ indent : Nat, Calls (match doc.get? (.str key) with
      | none => PyM.raise (.keyError key)
      | some (.dict len data) =>
        if (len.getD []).length > 0 then do
          ppWrite (reprBytes (len.getD []) ++ py" ")
          let i ← Pure.pure (indent + ((reprBytes (len.getD [])).length + 1))
          ppValue env (.bytes (data.getD [])) i lw
        else do
          let i ← Pure.pure indent
          ppValue env (.bytes (data.getD [])) i lw
      | some v => ppValue env v indent lw) (fun _ _ w => match doc.get? (.str key) with
      | none => PyM.raise (.pp (.keyError key))
      | some (.dict len data) =>
        if (len.getD []).length > 0 then do
          streamWrite w (reprBytes (len.getD []) ++ py" ")
          let i ← Pure.pure (indent + ((reprBytes (len.getD [])).length + 1))
          ppValueS env w (.bytes (data.getD [])) i lw
        else do
          let i ← Pure.pure indent
          ppValueS env w (.bytes (data.getD [])) i lw
      | some v => ppValueS env w v indent lw) := by
    intro indent
    cases doc.get? (.str key) with
    | none => exact .raise _
    | some v =>
      cases v with
      | dict len data =>
        exact .ite (.bind (.write _) fun _ => .bind (.pure _) fun i => ppValue_calls env _ i lw)
          (.bind (.pure _) fun i => ppValue_calls env _ i lw)
      | str s => exact ppValue_calls _ _ _ _
      | bytes b => exact ppValue_calls _ _ _ _
      | other r => exact ppValue_calls _ _ _ _
  refine .bind (.write _) fun _ => .ite ?_ (.bind (.pure _) fun i => .bind (.write _) fun _ => value i)
  cases spec.get? key with
  | none => exact .bind (.raise _) fun i => .bind (.write _) fun _ => value i
  | some fs =>
    obtain ⟨_, _, _, _, _, _, _, desc⟩ := fs
    cases desc with
    | none => exact .bind (.raise _) fun i => .bind (.write _) fun _ => value i
    | some d => exact .bind (.write _) fun _ => .bind (.pure _) fun i => .bind (.write _) fun _ => value i

theorem ppFields_calls (env : PyEnv) (doc : PpDoc) (spec : Spec) (dw lw : Int) (ks : List Str) :
    Calls (ppFields env doc spec dw lw ks) (fun _ _ w => ppFieldsS env w doc spec dw lw ks) := by
  induction ks with
  | nil => exact .pure ()
  | cons k t ih => exact .bind (ppField_calls _ _ _ _ _ _) fun _ => ih

theorem ppBody_calls (env : PyEnv) (doc : PpDoc) (spec : Spec) (dw lw : Int) :
    Calls (ppBody env doc spec dw lw) (fun _ _ w => ppBodyS env w doc spec dw lw) := by
  unfold ppBody ppBodyS
  dsimp only
  have nums : Calls (do
      let ks ← PyM.lift (ppNumericKeys env doc.keys)
      ppFields env doc spec dw lw ((sortedBy Prod.snd ks).map Prod.fst)) (fun _ _ w => match ppNumericKeys env doc.keys with
      | .error e => PyM.raise (.pp e)
      | .ok ks => ppFieldsS env w doc spec dw lw ((sortedBy Prod.snd ks).map Prod.fst)) := by
    cases hn : ppNumericKeys env doc.keys with
    | error e => exact .raise e
    | ok ks => exact ppFields_calls _ _ _ _ _ _
  have p := Calls.ite (c := doc.contains (.str py"p")) (.bind (ppField_calls env doc spec dw lw py"p") fun _ => nums) nums
  have t := Calls.ite (c := doc.contains (.str py"t")) (.bind (ppField_calls env doc spec dw lw py"t") fun _ => p) p
  refine .ite ?_ t
  cases spec.get? py"h" with
  | none => exact .bind (.raise _) fun _ => t
  | some fs => exact .ite (.bind (ppField_calls _ _ _ _ _ _) fun _ => t) t

end Iso8583
