import Verif.Lemmas.DecodeMsg
/-! # Consequences for `decode` -/

namespace Iso8583
open PyM

theorem prefix_drop {a b : Bytes} (h : a <+: b) (n : Nat) : a.drop n <+: b.drop n := by
  obtain ⟨r, rfl⟩ := h
  rw [List.drop_append]
  exact List.prefix_append _ _

theorem of_nil : DecState.of [] = ⟨[], []⟩ := rfl

theorem DecState.of_inj {a b : List Item} (h : DecState.of a = DecState.of b) : a = b := by
  simp only [DecState.of, DecState.mk.injEq] at h
  obtain ⟨h1, h2⟩ := h
  induction a generalizing b with
  | nil =>
    cases b with
    | nil => rfl
    | cons x t => simp [decOf] at h1
  | cons x s ih =>
    cases b with
    | nil => simp [decOf] at h1
    | cons y t =>
      simp only [decOf, encOf, List.map_cons, List.cons.injEq, Prod.mk.injEq, Item.entry, EncEntry.mk.injEq] at h1 h2
      obtain ⟨⟨hk, hv⟩, h1⟩ := h1
      obtain ⟨⟨_, hl, hd⟩, h2⟩ := h2
      rw [ih h1 h2]
      cases x; cases y; simp_all

/-- `decode` succeeds exactly when the input is the concatenation of readable items. -/
theorem decode_ok_iff {env : PyEnv} {spec : Spec} {s : Bytes} {dec : DecDoc} {enc : EncDoc} :
    decode env spec s = .ok (dec, enc) ↔
      ∃ items, MsgReads env spec items ∧ wireOf items = s ∧ dec = decOf items ∧ enc = encOf items := by
  unfold decode
  rw [decodeBody_eq, ← of_nil]
  constructor
  · intro h
    rcases decodeCore_cases env spec s with ⟨items, last, hr, hp, _, hrun⟩ | ⟨m, pos, its, it, _, _, _, _, _, _, hrun⟩ |
      ⟨k, items, _, _, _, hrun⟩
    · rw [hrun] at h
      simp only at h
      by_cases hl : (wireOf items).length = s.length
      · simp only [hl, ne_eq, not_true_eq_false, if_false, Except.ok.injEq, Prod.mk.injEq] at h
        exact ⟨items, hr, hp.eq_of_length hl, h.1.symm, h.2.symm⟩
      · simp [hl] at h
    · rw [hrun] at h; simp at h
    · rw [hrun] at h; simp at h
  · rintro ⟨items, hr, rfl, rfl, rfl⟩
    obtain ⟨last, hrun⟩ := decodeCore_of_reads (s := wireOf items) hr (List.prefix_refl _)
    rw [hrun]
    simp [DecState.of]

/-- Messages are self-delimiting: the items are determined by any input they start. -/
theorem MsgReads.unique {env : PyEnv} {spec : Spec} {a b : List Item} {r r' : Bytes}
    (ha : MsgReads env spec a) (hb : MsgReads env spec b) (h : wireOf a ++ r = wireOf b ++ r') : a = b := by
  obtain ⟨l1, h1⟩ := decodeCore_of_reads (s := wireOf a ++ r) ha (List.prefix_append _ _)
  obtain ⟨l2, h2⟩ := decodeCore_of_reads (s := wireOf a ++ r) hb (by rw [h]; exact List.prefix_append _ _)
  rw [h1] at h2
  exact DecState.of_inj (Prod.mk.inj h2).2

/-- All the ways `decode` can fail. -/
theorem decode_error_cases {env : PyEnv} {spec : Spec} {s : Bytes} {x : DecodeExc} (h : decode env spec s = .error x) :
    (∃ items last, MsgReads env spec items ∧ wireOf items <+: s ∧ wireOf items ≠ s ∧
      items.getLast?.map Item.key = some last ∧
      x = .decodeError ⟨.extraData, s, decOf items, encOf items, (wireOf items).length, last⟩) ∨
    (∃ m pos its it, (keysOf (its ++ [it])).Nodup ∧ wireOf (its ++ [it]) <+: s ∧ pos ≤ s.length ∧ m ≠ .extraData ∧
      Fault env spec s m pos (wireOf its).length it ∧ (∀ x ∈ its, ItemOk env spec x) ∧
      x = .decodeError ⟨m, s, decOf (its ++ [it]), encOf (its ++ [it]), pos, it.key⟩) ∨
    (∃ k, (k ∈ [py"h", py"t", py"p", py"1"] ∨ ∃ bms F i, BitmapsRead env spec bms F ∧ i ∈ F ∧ k = natStr i) ∧
      spec.get? k = none ∧ x = .keyError k) := by
  unfold decode at h
  rw [decodeBody_eq, ← of_nil] at h
  rcases decodeCore_cases env spec s with ⟨items, last, hr, hp, hlast, hrun⟩ |
      ⟨m, pos, its, it, h1, h2, h3, h4, h5, h6, hrun⟩ | ⟨k, items, hk, hs, _, hrun⟩
  · left
    rw [hrun] at h
    simp only at h
    by_cases hl : (wireOf items).length = s.length
    · simp [hl] at h
    · simp only [hl, ne_eq, not_false_eq_true, if_true, Except.error.injEq] at h
      exact ⟨items, last, hr, hp, fun e => hl (by rw [e]), hlast, h.symm⟩
  · right; left
    rw [hrun] at h
    simp only [Except.error.injEq] at h
    exact ⟨m, pos, its, it, h1, h2, h3, h4, h5, h6, h.symm⟩
  · right; right
    rw [hrun] at h
    simp only [Except.error.injEq] at h
    exact ⟨k, hk, hs, h.symm⟩

/-! ## More input does not change what has been read -/

/-- A step that does not fail with a `DecodeError` behaves the same on longer input. -/
def Stable {α : Type} (f : Bytes → DecM α) : Prop :=
  ∀ a b st r st', a <+: b → f a st = (r, st') → (∀ m p k, r ≠ .error (.err m p k)) → f b st = (r, st')

theorem Stable.const {α : Type} (m : DecM α) : Stable fun _ => m := by
  intro a b st r st' _ h _; exact h

theorem Stable.bind {α β : Type} {f : Bytes → DecM α} {g : Bytes → α → DecM β} (hf : Stable f)
    (hg : ∀ x, Stable fun s => g s x) : Stable fun s => f s >>= g s := by
  intro a b st r st' hp h hr
  simp only [run_bind] at h ⊢
  rcases h1 : f a st with ⟨_ | x, st1⟩
  · rename_i e
    rw [h1] at h
    simp only [Prod.mk.injEq] at h
    obtain ⟨rfl, rfl⟩ := h
    rw [hf a b st _ _ hp h1 (by simpa using hr)]
  · rw [h1] at h
    simp only at h
    rw [hf a b st _ _ hp h1 (by simp)]
    exact hg x a b st1 r st' hp h hr

theorem Stable.ite {α : Type} {c : Prop} [Decidable c] {f g : Bytes → DecM α} (hf : Stable f) (hg : Stable g) :
    Stable fun s => if c then f s else g s := by
  by_cases h : c
  · simpa [h] using hf
  · simpa [h] using hg

theorem stable_decodeField (env : PyEnv) (idx : Nat) (key : Str) (fs : FieldSpec) :
    Stable fun s => decodeField env s idx key fs := by
  intro a b st r st' hp h hr
  simp only [decodeField_run] at h ⊢
  rcases ho : fieldOut env a idx fs with ⟨o, v, e⟩
  rw [ho] at h
  cases o with
  | error mp =>
    simp only [tagErr, Prod.mk.injEq] at h
    exact absurd h.1.symm (hr _ _ _)
  | ok idx' =>
    obtain ⟨n, h1, h2, h3⟩ := fieldOut_ok_iff.1 ho
    have : fieldOut env b idx fs = (.ok idx', v, e) :=
      fieldOut_ok_iff.2 ⟨n, h1, h2.trans (prefix_drop hp idx), h3⟩
    rw [this]; exact h

theorem stable_decodeType (env : PyEnv) (spec : Spec) (idx : Nat) : Stable fun s => decodeType env spec s idx := by
  intro a b st r st' hp h hr
  simp only [decodeType_run] at h ⊢
  cases hs : spec.get? py"t" with
  | none => rw [hs] at h; exact h
  | some fs =>
    rw [hs] at h
    simp only at h ⊢
    rcases ho : typeOut env a idx fs with ⟨o, v, e⟩
    rw [ho] at h
    cases o with
    | error mp =>
      simp only [tagErr, Prod.mk.injEq] at h
      exact absurd h.1.symm (hr _ _ _)
    | ok idx' =>
      obtain ⟨h1, h2, h3, h4⟩ := typeOut_ok_iff.1 ho
      have : typeOut env b idx fs = (.ok idx', v, e) := typeOut_ok_iff.2 ⟨h1, h2, h3.trans (prefix_drop hp idx), h4⟩
      rw [this]; exact h

theorem stable_decodeBitmap (env : PyEnv) (idx : Nat) (key : Str) (fs : FieldSpec) (off : Nat) (ext : Bool)
    (fields : List Nat) : Stable fun s => decodeBitmap env s idx key fs off ext fields := by
  intro a b st r st' hp h hr
  by_cases hl : (slice a idx (idx + bitmapWidth fs)).length = bitmapWidth fs
  · have : slice b idx (idx + bitmapWidth fs) = slice a idx (idx + bitmapWidth fs) := by
      rw [slice_nat] at hl ⊢
      rw [slice_nat]
      have h1 : (a.drop idx).take (bitmapWidth fs) <+: b.drop idx := (List.take_prefix _ _).trans (prefix_drop hp idx)
      exact (prefix_take_iff hl).1 h1
    rw [← h]
    simp only [decodeBitmap]
    have hw : (if fs.dataEnc = py"b" then 8 else 16) = bitmapWidth fs := rfl
    simp only [hw, this]
  · cases ext with
    | false =>
      simp only [decodeBitmap_run, bitmapOut, if_pos hl, addFields, tagErr, Prod.mk.injEq] at h
      exact absurd h.1.symm (hr _ _ _)
    | true =>
      have hw : (if fs.dataEnc = py"b" then 8 else 16) = bitmapWidth fs := rfl
      simp only [decodeBitmap, run_bind, getEnc, run_get, setEnc, run_modify, if_true, hw] at h ⊢
      cases he : st.enc.get? key with
      | none => rw [he] at h; exact h
      | some e =>
        rw [he] at h
        simp only [run_pure, run_ite, if_pos hl, Dict.get?_set_same, decFail, run_raise, run_bind, run_get, Prod.mk.injEq] at h
        exact absurd h.1.symm (hr _ _ _)

theorem stable_decodeFields (env : PyEnv) (spec : Spec) : ∀ (is : List Nat) (idx : Nat) (last : Str),
    Stable fun s => decodeFields env spec s idx last is
  | [], idx, last => Stable.const _
  | i :: is, idx, last => by
    simp only [decodeFields]
    refine Stable.bind (Stable.const _) fun fs => ?_
    refine Stable.bind (stable_decodeField env idx (natStr i) fs) fun idx' => ?_
    exact stable_decodeFields env spec is idx' (natStr i)

theorem stable_decodeCore (env : PyEnv) (spec : Spec) : Stable fun s => decodeCore env spec s := by
  simp only [decodeCore, decodeBitmaps, decodeHeader]
  refine Stable.bind (Stable.bind (Stable.const _) fun fs => Stable.ite (Stable.const _) (stable_decodeField _ _ _ _))
    fun idx => ?_
  refine Stable.bind (stable_decodeType env spec idx) fun idx => ?_
  refine Stable.bind ?_ fun x => stable_decodeFields _ _ _ _ _
  refine Stable.bind (Stable.const _) fun fs => ?_
  refine Stable.bind (stable_decodeBitmap _ _ _ _ _ _ _) fun x => ?_
  have tail : ∀ x : Str × Nat × List Nat, Stable fun s =>
      if 65 ∈ x.2.2 then do
        let fs ← decSpec spec x.1
        let y ← decodeBitmap env s x.2.1 x.1 fs 128 true x.2.2
        pure (x.1, y.1, setRemove y.2 65)
      else (pure (x.1, x.2.1, x.2.2) : DecM (Str × Nat × List Nat)) := by
    intro x
    refine Stable.ite ?_ (Stable.const _)
    refine Stable.bind (Stable.const _) fun fs => ?_
    exact Stable.bind (stable_decodeBitmap _ _ _ _ _ _ _) fun x => Stable.const _
  refine Stable.ite ?_ ?_
  · refine Stable.bind (Stable.const _) fun fs => ?_
    refine Stable.bind (stable_decodeBitmap _ _ _ _ _ _ _) fun x => ?_
    exact Stable.bind (Stable.const _) fun x => tail x
  · exact Stable.bind (Stable.const _) fun x => tail x

end Iso8583
