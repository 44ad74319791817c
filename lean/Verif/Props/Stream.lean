import Verif.Lemmas.Stream
import Verif.Props.Demo
/-!
# C67: `pp` uses the stream for writing only, and passes on what it raises
-/

namespace Iso8583

/-- The whole part of a fraction. -/
theorem tdiv_says {m n d : Int} (hd : 0 < d) :
    m.tdiv d = n ↔ (0 ≤ m ∧ n * d ≤ m ∧ m < (n + 1) * d) ∨ (m < 0 ∧ (n - 1) * d < m ∧ m ≤ n * d) := by
  have pos : ∀ {a b : Int}, 0 ≤ a → (a.tdiv d = b ↔ b * d ≤ a ∧ a < (b + 1) * d) := by
    intro a b ha
    rw [Int.tdiv_eq_ediv_of_nonneg ha]
    constructor
    · rintro rfl
      exact ⟨Int.ediv_mul_le a (by omega), Int.lt_ediv_add_one_mul_self a hd⟩
    · rintro ⟨h1, h2⟩
      have a1 := Int.le_ediv_of_mul_le hd h1
      have a2 := Int.ediv_lt_of_lt_mul hd h2
      omega
  by_cases hm : 0 ≤ m
  · rw [pos hm]
    constructor
    · exact fun h => .inl ⟨hm, h⟩
    · rintro (h | h)
      · exact h.2
      · omega
  · have hneg : m.tdiv d = n ↔ (-m).tdiv d = -n := by rw [Int.neg_tdiv]; omega
    rw [hneg, pos (by omega)]
    have e1 : -n * d = -(n * d) := Int.neg_mul ..
    have e2 : (-n + 1) * d = -(n * d) + d := by rw [Int.add_mul, Int.neg_mul, Int.one_mul]
    have e3 : (n - 1) * d = n * d - d := by rw [Int.sub_mul, Int.one_mul]
    rw [e1, e2, e3]
    omega

theorem ppWidth_iff {ε : Type} {env : PyEnv} {w : PpWidth} {n : Int} : ppWidth (ε := ε) env w = .ok n ↔ WidthSays env w n := by
  have two : ∀ e : Nat, (0 : Int) < 2 ^ e := fun e => Int.pow_pos (by omega)
  constructor
  · intro h
    cases w with
    | int k => cases h; exact .int _
    | str t =>
      simp only [ppWidth] at h
      cases hp : pyInt env t with
      | none => rw [hp] at h; cases h
      | some k => rw [hp] at h; cases h; exact .str hp
    | float m e =>
      simp only [ppWidth, Except.ok.injEq] at h
      by_cases he : 0 ≤ e
      · rw [if_pos he] at h
        obtain ⟨k, rfl⟩ := Int.eq_ofNat_of_zero_le he
        subst h
        exact .whole m k
      · rw [if_neg he, tdiv_says (two _)] at h
        obtain ⟨k, hk⟩ := Int.eq_ofNat_of_zero_le (show 0 ≤ -e by omega)
        obtain rfl : e = -(k : Int) := by omega
        rw [Int.neg_neg, Int.toNat_natCast] at h
        rcases h with ⟨a, b, c⟩ | ⟨a, b, c⟩
        · exact .down a b c
        · exact .up a b c
    | nan => cases h
    | inf => cases h
    | other => cases h
  · have frac : ∀ {m n : Int} {e : Nat}, m.tdiv (2 ^ e) = n → ppWidth (ε := ε) env (.float m (-e)) = .ok n := by
      intro m n e h
      simp only [ppWidth]
      cases e with
      | zero => simp at h ⊢; exact h
      | succ e =>
        rw [if_neg (by omega), Int.neg_neg, Int.toNat_natCast, h]
    intro h
    cases h with
    | int => rfl
    | str h => simp [ppWidth, h]
    | whole m e => simp [ppWidth, Int.natCast_nonneg]
    | down a b c => exact frac ((tdiv_says (two _)).2 (.inl ⟨a, b, c⟩))
    | up a b c => exact frac ((tdiv_says (two _)).2 (.inr ⟨a, b, c⟩))

theorem ppWidth_error_iff {ε : Type} {env : PyEnv} {w : PpWidth} {x : StreamRaise ε} :
    ppWidth env w = .error x ↔ WidthRefused env ε w x := by
  constructor
  · intro h
    cases w with
    | str t =>
      simp only [ppWidth] at h
      cases hp : pyInt env t with
      | none => rw [hp] at h; cases h; exact .str hp
      | some k => rw [hp] at h; cases h
    | nan => cases h; exact .nan
    | inf => cases h; exact .inf
    | other => cases h; exact .other
    | _ => cases h
  · intro h
    cases h with
    | str h => simp [ppWidth, h]
    | _ => rfl

/-- **C67**: there is a sequence of texts, fixed by the dict, the specification and the widths,
that `pp` hands to `write` one after the other on every stream. Joined they are the text `pp`
prints. If `write` raises, `pp` makes no further call and raises the same; otherwise `pp`
returns or raises as on a stream that never fails. The world changes through `write` only. -/
theorem pp_stream {env : PyEnv} {doc : PpDoc} {spec : Spec} {dw lw : PpWidth} {m n : Int}
    (hd : WidthSays env dw m) (hl : WidthSays env lw n) :
    ∃ calls : List Str, calls.flatten = (pp env doc spec m n).2 ∧
      ∀ (ε σ : Type) (stdout w : Writer ε σ) (s : σ), ppStream env stdout doc spec dw (some w) lw s =
        match feed w calls s with
        | (.error e, s') => (.error (.stream e), s')
        | (.ok _, s') => match (pp env doc spec m n).1 with
          | .ok _ => (.ok (), s')
          | .error e => (.error (.pp e), s') := by
  obtain ⟨calls, r, h1, h2⟩ := ppBody_calls env doc spec m n
  have h0 : pp env doc spec m n = (r, calls.flatten) := by simp [pp, h1]
  refine ⟨calls, by rw [h0], fun ε σ stdout w s => ?_⟩
  unfold ppStream
  simp only [PyM.run_bind, PyM.run_lift, ppWidth_iff.2 hd, ppWidth_iff.2 hl, h2, h0]
  cases feed w calls s with
  | mk q s' => cases q <;> cases r <;> rfl

/-- **C67**: without a stream `pp` writes to `sys.stdout`, and to nothing else. -/
theorem pp_stdout {ε σ : Type} {env : PyEnv} (stdout other : Writer ε σ) (doc : PpDoc) (spec : Spec) (dw lw : PpWidth) :
    ppStream env stdout doc spec dw none lw = ppStream env other doc spec dw (some stdout) lw := rfl

/-- **C67**: a width that `int()` does not accept is reported before anything is written. The
description width is converted first. -/
theorem pp_bad_width {ε σ : Type} {env : PyEnv} {stdout : Writer ε σ} {doc : PpDoc} {spec : Spec} {dw lw : PpWidth}
    {stream : Option (Writer ε σ)} {s : σ} {x : StreamRaise ε} :
    (WidthRefused env ε dw x → ppStream env stdout doc spec dw stream lw s = (.error x, s)) ∧
    ((∃ m, WidthSays env dw m) → WidthRefused env ε lw x → ppStream env stdout doc spec dw stream lw s = (.error x, s)) := by
  refine ⟨fun h => ?_, fun ⟨m, hm⟩ h => ?_⟩
  · simp [ppStream, PyM.run_bind, ppWidth_error_iff.2 h]
  · simp [ppStream, PyM.run_bind, ppWidth_iff.2 hm, ppWidth_error_iff.2 h]

/-- **C67**: `int()` turns every width into one number or refuses it with one exception. -/
theorem width_unique {ε : Type} {env : PyEnv} (w : PpWidth) :
    (∃ n, WidthSays env w n ∧ (∀ n', WidthSays env w n' → n' = n) ∧ ∀ x, ¬ WidthRefused env ε w x) ∨
    (∃ x, WidthRefused env ε w x ∧ (∀ x', WidthRefused env ε w x' → x' = x) ∧ ∀ n, ¬ WidthSays env w n) := by
  cases h : ppWidth (ε := ε) env w with
  | ok n =>
    refine .inl ⟨n, ppWidth_iff.1 h, fun n' h' => ?_, fun x h' => ?_⟩
    · rw [← ppWidth_iff (ε := ε), h] at h'; cases h'; rfl
    · rw [← ppWidth_error_iff, h] at h'; cases h'
  | error x =>
    refine .inr ⟨x, ppWidth_error_iff.1 h, fun x' h' => ?_, fun n h' => ?_⟩
    · rw [← ppWidth_error_iff, h] at h'; cases h'; rfl
    · rw [← ppWidth_iff (ε := ε), h] at h'; cases h'

theorem feed_recorder {ε : Type} (fails : List Str → Option ε) (calls seen : List Str) :
    (∃ k e, k < calls.length ∧ (∀ j, j < k → fails (seen ++ calls.take j) = none) ∧ fails (seen ++ calls.take k) = some e ∧
      feed (recorder fails) calls seen = (.error e, seen ++ calls.take (k + 1))) ∨
    ((∀ j, j < calls.length → fails (seen ++ calls.take j) = none) ∧
      feed (recorder fails) calls seen = (.ok (), seen ++ calls)) := by
  induction calls generalizing seen with
  | nil => exact .inr ⟨fun j hj => absurd hj (by simp), by simp [feed]⟩
  | cons t ts ih =>
    cases h : fails seen with
    | some e => exact .inl ⟨0, e, by simp, fun j hj => absurd hj (by omega), by simpa using h, by simp [feed, recorder, h]⟩
    | none =>
      rcases ih (seen ++ [t]) with ⟨k, e, h1, h2, h3, h4⟩ | ⟨h2, h4⟩
      · refine .inl ⟨k + 1, e, by simpa using h1, fun j hj => ?_, by simpa using h3, by simp [feed, recorder, h, h4]⟩
        cases j with
        | zero => simpa using h
        | succ j => simpa using h2 j (by omega)
      · refine .inr ⟨fun j hj => ?_, by simp [feed, recorder, h, h4]⟩
        cases j with
        | zero => simpa using h
        | succ j => simpa using h2 j (by simpa using hj)

/-- **C67**: however a stream decides to fail, the text it has accepted by then is a prefix of
the text `pp` prints on a stream that does not fail, and if it does not fail it gets all of it. -/
theorem pp_stream_prefix {ε : Type} {env : PyEnv} {doc : PpDoc} {spec : Spec} {m n : Int} (fails : List Str → Option ε)
    (stdout : Writer ε (List Str)) :
    (∃ e seen last, ppStream env stdout doc spec (.int m) (some (recorder fails)) (.int n) [] = (.error (.stream e), seen ++ [last]) ∧
      fails seen = some e ∧ (seen ++ [last]).flatten <+: (pp env doc spec m n).2) ∨
    ∃ seen, seen.flatten = (pp env doc spec m n).2 ∧
      ppStream env stdout doc spec (.int m) (some (recorder fails)) (.int n) [] =
        (match (pp env doc spec m n).1 with
         | .ok _ => .ok ()
         | .error e => .error (.pp e), seen) := by
  obtain ⟨calls, h1, h2⟩ := pp_stream (doc := doc) (spec := spec) (dw := .int m) (lw := .int n) (env := env) (.int m) (.int n)
  rw [h2]
  rcases feed_recorder fails calls [] with ⟨k, e, hk, _, h3, h4⟩ | ⟨_, h4⟩
  · refine .inl ⟨e, calls.take k, calls[k], ?_, by simpa using h3, ?_⟩
    · rw [h4]
      simp
    · rw [← h1, ← List.take_succ_eq_append_getElem hk]
      exact ⟨(calls.drop (k + 1)).flatten, by rw [← List.flatten_append, List.take_append_drop]⟩
  · refine .inr ⟨calls, h1, ?_⟩
    rw [h4]
    cases (pp env doc spec m n).1 <;> simp

/-- A stream that refuses its fourth call gets the first three, and nothing after that. -/
example : ppStream cpython (fun _ s => (.ok (), s))
    [(.str py"t", .str py"0200"), (.str py"2", .str py"12")] [] (.int 0)
    (some (recorder fun seen => if seen.length = 3 then some "disk full" else none)) (.int 80) [] =
    (.error (.stream "disk full"), [py"t  ", py": ", py"'0200'\n", py"2  "]) := by decide +kernel

/-- Widths given as text; the description of field 2 is missing, so `pp` stops after its number. -/
example : ppStream (ε := String) cpython (fun _ s => (.ok (), s))
    [(.str py"2", .str py"12")] [] (.str py"10") (some (recorder fun _ => none)) (.str py"80") [] =
    (.error (.pp (.keyError py"2")), [py"2  "]) := by decide +kernel

/-- A width that is not a number: the stream is not touched. -/
example : ppStream (ε := String) cpython (fun _ s => (.ok (), s))
    [(.str py"2", .str py"12")] [] (.str py"ten") (some (recorder fun _ => none)) (.str py"80") [] =
    (.error .widthValue, []) := by decide +kernel

/-- `-2.5`, that is `-5 / 2`, becomes `-2`; `40.5` becomes `40`; `1e3` may be `125 * 2 ** 3`. -/
example : WidthSays cpython (.float (-5) (-1)) (-2) ∧ WidthSays cpython (.float 81 (-1)) 40 ∧ WidthSays cpython (.float 125 3) 1000 :=
  ⟨.up (e := 1) (by decide) (by decide) (by decide), .down (e := 1) (by decide) (by decide) (by decide), .whole 125 3⟩

/-- Widths given as floats. -/
example : ppStream (ε := String) cpython (fun _ s => (.ok (), s))
    [(.str py"2", .str py"12")] [] (.float (-1) (-1)) (some (recorder fun _ => none)) (.float 161 (-1)) [] =
    (.ok (), [py"2  ", py": ", py"'12'\n"]) := by decide +kernel

/-- An infinite line width is refused before the stream is touched. -/
example : ppStream (ε := String) cpython (fun _ s => (.ok (), s))
    [(.str py"2", .str py"12")] [] (.int 0) (some (recorder fun _ => none)) .inf [] = (.error .widthOverflow, []) :=
  pp_bad_width.2 ⟨0, .int 0⟩ .inf

/-- An instance of `pp_stdout`. -/
example : ppStream (ε := String) cpython (recorder fun _ => none) [(.str py"t", .str py"0200")] [] (.int 0) none (.int 80) [] =
    (.ok (), [py"t  ", py": ", py"'0200'\n"]) :=
  (congrFun (pp_stdout _ (fun _ s => (.ok (), s)) ..) _).trans (by decide +kernel)

/-- An instance of `width_unique`. -/
example : ∃ n, WidthSays cpython (.str py" 42") n ∧ ∀ n', WidthSays cpython (.str py" 42") n' → n' = n := by
  rcases width_unique (ε := Unit) (env := cpython) (.str py" 42") with ⟨n, h, h', _⟩ | ⟨x, _, _, h⟩
  · exact ⟨n, h, h'⟩
  · exact absurd (.str (by decide +kernel)) (h 42)

/-- An instance of `pp_stream`. -/
example : ∃ calls : List Str, calls.flatten = py"t  : '0200'\n" ∧
    ∀ (w : Writer String (List Str)) (s : List Str), ppStream cpython w [(.str py"t", .str py"0200")] [] (.str py"0") (some w) (.int 80) s =
      match feed w calls s with
      | (.error e, s') => (.error (.stream e), s')
      | (.ok _, s') => (.ok (), s') := by
  have hp : pp cpython [(.str py"t", .str py"0200")] [] 0 80 = (.ok (), py"t  : '0200'\n") := by decide +kernel
  obtain ⟨calls, h, h'⟩ := pp_stream (env := cpython) (doc := [(.str py"t", .str py"0200")]) (spec := []) (dw := .str py"0") (m := 0) (.str (by decide +kernel)) (.int 80)
  rw [hp] at h h'
  exact ⟨calls, h, fun w s => (h' _ _ w w s).trans (by rcases feed w calls s with ⟨_ | _, _⟩ <;> rfl)⟩

/-- An instance of `pp_stream_prefix`. -/
example (fails : List Str → Option String) (e : String) (out : List Str)
    (h : ppStream cpython (recorder fails) [(.str py"t", .str py"0200")] [] (.int 0) (some (recorder fails)) (.int 80) [] = (.error (.stream e), out)) :
    out.flatten <+: py"t  : '0200'\n" := by
  have hp : pp cpython [(.str py"t", .str py"0200")] [] 0 80 = (.ok (), py"t  : '0200'\n") := by decide +kernel
  rcases pp_stream_prefix (env := cpython) (doc := [(.str py"t", .str py"0200")]) (spec := []) (m := 0) (n := 80) fails (recorder fails) with ⟨_, _, _, h1, _, h2⟩ | ⟨_, _, h1⟩
  · rw [h] at h1
    cases h1
    rwa [hp] at h2
  · rw [h, hp] at h1
    cases h1

end Iso8583
