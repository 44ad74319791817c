import Verif.Spec.Partial
import Verif.Lemmas.DecodeMsg
/-!
# Running the same program on a specification with gaps and on a filled one
-/

namespace Iso8583
open PyM

variable {ε σ α β : Type}

/-- Either both programs do the same, or the first raises `ke p` for one of the `p` in `L`. -/
def FSim (ke : Str → ε) (L : Str → Prop) (m m' : PyM ε σ α) : Prop :=
  ∀ st, m st = m' st ∨ ∃ p st', L p ∧ m st = (.error (ke p), st')

namespace FSim
variable {ke : Str → ε} {L : Str → Prop}

theorem refl (m : PyM ε σ α) : FSim ke L m m := fun _ => .inl rfl

theorem bind {m m' : PyM ε σ α} {f f' : α → PyM ε σ β} (h : FSim ke L m m') (hf : ∀ a, FSim ke L (f a) (f' a)) :
    FSim ke L (m >>= f) (m' >>= f') := by
  intro st
  simp only [run_bind]
  rcases h st with h | ⟨p, st', hp, h⟩
  · rw [h]
    rcases m' st with ⟨r, st1⟩
    cases r with
    | error e => exact .inl rfl
    | ok a => exact hf a st1
  · rw [h]; exact .inr ⟨p, st', hp, rfl⟩

theorem ite {c : Prop} [Decidable c] {a a' b b' : PyM ε σ α} (ha : c → FSim ke L a a') (hb : ¬ c → FSim ke L b b') :
    FSim ke L (if c then a else b) (if c then a' else b') := by
  by_cases h : c
  · simp only [if_pos h]; exact ha h
  · simp only [if_neg h]; exact hb h

theorem need {p : Str} {o : Option α} {v : α} (hv : ∀ w, o = some w → v = w) (hL : o = none → L p) :
    FSim ke L (Iso8583.need ke p o : PyM ε σ α) (pure v) := by
  intro st
  cases h : o with
  | none => exact .inr ⟨p, st, hL h, rfl⟩
  | some w => rw [hv w h]; exact .inl rfl

/-- After a property that is there, its value is known. -/
theorem need_bind {p : Str} {o : Option α} {v : α} {f : α → PyM ε σ β} {m' : PyM ε σ β}
    (hv : ∀ w, o = some w → v = w) (hL : o = none → L p) (hf : o = some v → FSim ke L (f v) m') :
    FSim ke L (Iso8583.need ke p o >>= f) m' := by
  intro st
  cases h : o with
  | none => exact .inr ⟨p, st, hL h, rfl⟩
  | some w =>
    have hw := hv w h
    subst hw
    exact hf h st

theorem pure_right {v : α} {m : PyM ε σ β} {f : α → PyM ε σ β} (h : FSim ke L m (f v)) : FSim ke L m (pure v >>= f) := h

theorem mono {L' : Str → Prop} {m m' : PyM ε σ α} (hL : ∀ p, L p → L' p) (h : FSim ke L m m') : FSim ke L' m m' := by
  intro st
  rcases h st with h | ⟨p, st', hp, h⟩
  · exact .inl h
  · exact .inr ⟨p, st', hL p hp, h⟩

end FSim

theorem seen_lenEnc {f : PartialField} {v : Str} (h : f.lenEnc = some v) : f.seen.lenEnc = v := by simp [PartialField.seen, h]
theorem seen_dataEnc {f : PartialField} {v : Str} (h : f.dataEnc = some v) : f.seen.dataEnc = v := by simp [PartialField.seen, h]
theorem seen_lenType {f : PartialField} {v : Nat} (h : f.lenType = some v) : f.seen.lenType = v := by simp [PartialField.seen, h]

theorem decodeLength_congr {env : PyEnv} {b : Bytes} {idx : Nat} {key : Str} {f g : FieldSpec} (h : f.lenEnc = g.lenEnc) :
    decodeLength env b idx key f = decodeLength env b idx key g := by
  unfold decodeLength; rw [h]

theorem decodeTextData_sameEnc {env : PyEnv} {b : Bytes} {idx : Nat} {key : Str} {f g : FieldSpec} (h : f.dataEnc = g.dataEnc) :
    decodeTextData env b idx key f = decodeTextData env b idx key g := by
  unfold decodeTextData; rw [h]

theorem removePadField_congr {idx : Nat} {key : Str} {n : Int} {f g : FieldSpec} (h : f.leftPad = g.leftPad) (h' : f.rightPad = g.rightPad) :
    removePadField idx key f n = removePadField idx key g n := by
  unfold removePadField; rw [h, h']

theorem decodeBitmap_sameEnc {env : PyEnv} {s : Bytes} {idx : Nat} {key : Str} {off : Nat} {e : Bool} {F : List Nat}
    {f g : FieldSpec} (h : f.dataEnc = g.dataEnc) : decodeBitmap env s idx key f off e F = decodeBitmap env s idx key g off e F := by
  unfold decodeBitmap; rw [h]; simp only [decodeTextData_sameEnc h]

theorem byteFieldLen_congr {n : Int} {f g : FieldSpec} (h : f.lenCount = g.lenCount) : byteFieldLen f n = byteFieldLen g n := by
  unfold byteFieldLen FieldSpec.count; rw [h]

/-- What the header and numbered fields need. -/
abbrev FieldLacks (f : PartialField) (p : Str) : Prop :=
  (p = py"data_enc" ∧ f.dataEnc = none) ∨
    ((p = py"len_type" ∧ f.lenType = none) ∨ (p = py"max_len" ∧ f.maxLen = none) ∨
      (p = py"len_enc" ∧ f.lenEnc = none ∧ f.lenType ≠ some 0))

theorem decFail_bind {m : DecMsg} {i : Nat} {k : Str} {f : α → DecM β} : (decFail m i k >>= f) = decFail m i k := rfl

theorem decodeFieldP_sim {env : PyEnv} {s : Bytes} {idx : Nat} {key : Str} {f : PartialField} {g : FieldSpec}
    (h : f.FilledBy g) : FSim .keyError (FieldLacks f) (decodeFieldP env s idx key f) (decodeField env s idx key g) := by
  obtain ⟨hd, he, ht, hm, hc, hl, hr, _⟩ := h
  unfold decodeFieldP decodeField
  refine FSim.need_bind ht (fun h => .inr (.inl ⟨rfl, h⟩)) fun ht0 => ?_
  have hcount : g.count = f.lenCount.getD py"bytes" := by unfold FieldSpec.count; rw [hc]
  have hbl : ∀ n, byteFieldLen f.seen n = byteFieldLen g n := fun n => byteFieldLen_congr (by rw [hc]; rfl)
  have hpad : ∀ i n, removePadField i key f.seen n = removePadField i key g n :=
    fun i n => removePadField_congr (by rw [hl]; rfl) (by rw [hr]; rfl)
  simp only [hcount, hbl, hpad, decFail_bind]
  refine FSim.bind (FSim.refl _) fun _ => ?_
  refine FSim.bind (FSim.refl _) fun _ => ?_
  refine FSim.ite (fun _ => FSim.refl _) (fun _ => ?_)
  refine FSim.ite (fun h0 => ?_) (fun h0 => ?_)
  · refine FSim.need_bind hm (fun h => .inr (.inr (.inl ⟨rfl, h⟩))) fun hm0 => ?_
    refine FSim.pure_right ?_
    refine FSim.ite (fun _ => FSim.refl _) (fun _ => ?_)
    refine FSim.bind (FSim.refl _) fun _ => ?_
    refine FSim.ite (fun _ => FSim.refl _) (fun _ => ?_)
    refine FSim.need_bind hd (fun h => .inl ⟨rfl, h⟩) fun hd0 => ?_
    refine FSim.ite (fun _ => FSim.refl _) (fun _ => ?_)
    rw [decodeTextData_sameEnc (seen_dataEnc hd0)]
    exact FSim.refl _
  · refine FSim.need_bind he (fun h => .inr (.inr (.inr ⟨rfl, h, by rw [ht0]; simpa using h0⟩))) fun he0 => ?_
    rw [decodeLength_congr (seen_lenEnc he0)]
    refine FSim.bind (FSim.refl _) fun n => ?_
    refine FSim.need_bind hm (fun h => .inr (.inr (.inl ⟨rfl, h⟩))) fun hm0 => ?_
    refine FSim.ite (fun _ => FSim.refl _) (fun _ => ?_)
    refine FSim.bind (m := pure n) (FSim.refl _) fun n => ?_
    refine FSim.ite (fun _ => FSim.refl _) (fun _ => ?_)
    refine FSim.bind (FSim.refl _) fun _ => ?_
    refine FSim.ite (fun _ => FSim.refl _) (fun _ => ?_)
    refine FSim.need_bind hd (fun h => .inl ⟨rfl, h⟩) fun hd0 => ?_
    refine FSim.ite (fun _ => FSim.refl _) (fun _ => ?_)
    rw [decodeTextData_sameEnc (seen_dataEnc hd0)]
    exact FSim.refl _

/-- As `FSim`, and the second program only adds to what it got to, it got to the field that lacks
the property, and values returned by both satisfy `Q`. -/
structure Sim (ke : Str → ε) (visit : σ → Str → Prop) (miss : Str → Str → Prop) (Q : α → Prop) (m m' : PyM ε σ α) : Prop where
  grow : ∀ st k, visit st k → visit (m' st).2 k
  sim : ∀ st, (m st = m' st ∧ ∀ a st', m' st = (.ok a, st') → Q a) ∨
    ∃ k p st', m st = (.error (ke p), st') ∧ miss k p ∧ visit (m' st).2 k

namespace Sim
variable {ke : Str → ε} {visit : σ → Str → Prop} {miss : Str → Str → Prop}

theorem bind {Q : α → Prop} {R : β → Prop} {m m' : PyM ε σ α} {f f' : α → PyM ε σ β} (h : Sim ke visit miss Q m m')
    (hg : ∀ a st k, visit st k → visit (f' a st).2 k) (hf : ∀ a, Q a → Sim ke visit miss R (f a) (f' a)) :
    Sim ke visit miss R (m >>= f) (m' >>= f') := by
  constructor
  · intro st k hk
    have h1 := h.grow st k hk
    simp only [run_bind]
    rcases hm : m' st with ⟨r, st1⟩
    rw [hm] at h1
    cases r with
    | error e => exact h1
    | ok a => exact hg a _ _ h1
  · intro st
    simp only [run_bind]
    rcases h.sim st with ⟨h, hq⟩ | ⟨k, p, st', h1, hp, hv⟩
    · rw [h]
      rcases hm : m' st with ⟨r, st1⟩
      cases r with
      | error e => exact .inl ⟨rfl, fun a st' h => by cases h⟩
      | ok a => exact (hf a (hq a st1 hm)).sim st1
    · rw [h1]
      refine .inr ⟨k, p, st', rfl, hp, ?_⟩
      rcases hm : m' st with ⟨r, st1⟩
      rw [hm] at hv
      cases r with
      | error e => exact hv
      | ok a => exact hg a _ _ hv

theorem pure {Q : α → Prop} {a : α} (h : Q a) : Sim ke visit miss Q (Pure.pure a) (Pure.pure a) :=
  ⟨fun _ _ h => h, fun _ => .inl ⟨rfl, fun b st' hb => by cases hb; exact h⟩⟩

theorem raise {Q : α → Prop} {e : ε} : Sim ke visit miss Q (PyM.raise e) (PyM.raise e) :=
  ⟨fun _ _ h => h, fun _ => .inl ⟨rfl, fun b st' hb => by cases hb⟩⟩

theorem get : Sim ke visit miss (fun _ => True) (PyM.get) (PyM.get) :=
  ⟨fun _ _ h => h, fun _ => .inl ⟨rfl, fun _ _ _ => trivial⟩⟩

theorem lift {Q : α → Prop} {x : Except ε α} (h : ∀ a, x = .ok a → Q a) : Sim ke visit miss Q (PyM.lift x) (PyM.lift x) :=
  ⟨fun _ _ h => h, fun _ => .inl ⟨rfl, fun b st' hb => h b (by simpa using congrArg Prod.fst hb)⟩⟩

theorem ite {Q : α → Prop} {c : Prop} [Decidable c] {a a' b b' : PyM ε σ α} (ha : c → Sim ke visit miss Q a a')
    (hb : ¬ c → Sim ke visit miss Q b b') : Sim ke visit miss Q (if c then a else b) (if c then a' else b') := by
  by_cases h : c
  · simp only [if_pos h]; exact ha h
  · simp only [if_neg h]; exact hb h

/-- From one field to the message. -/
theorem ofField {Q : α → Prop} {L : Str → Prop} {k : Str} {m m' : PyM ε σ α} (h : FSim ke L m m') (hL : ∀ p, L p → miss k p)
    (hg : ∀ st k, visit st k → visit (m' st).2 k) (hv : ∀ st, visit (m' st).2 k)
    (hq : ∀ st a st', m st = (.ok a, st') → Q a) : Sim ke visit miss Q m m' :=
  ⟨hg, fun st => by
    rcases h st with h | ⟨p, st', hp, h⟩
    · exact .inl ⟨h, fun a st' ha => hq st a st' (h.trans ha)⟩
    · exact .inr ⟨k, p, st', h, hL p hp, hv st⟩⟩

end Sim

/-- The second program only adds to what it got to. -/
def Grow (visit : σ → Str → Prop) (m : PyM ε σ α) : Prop := ∀ st k, visit st k → visit (m st).2 k

namespace Grow
variable {visit : σ → Str → Prop}

theorem bind {m : PyM ε σ α} {f : α → PyM ε σ β} (h : Grow visit m) (hf : ∀ a, Grow visit (f a)) : Grow visit (m >>= f) := by
  intro st k hk
  have h1 := h st k hk
  simp only [run_bind]
  rcases hm : m st with ⟨r, st1⟩
  rw [hm] at h1
  cases r with
  | error e => exact h1
  | ok a => exact hf a _ _ h1

theorem pure {a : α} : Grow visit (Pure.pure a : PyM ε σ α) := fun _ _ h => h
theorem raise {e : ε} : Grow visit (PyM.raise e : PyM ε σ α) := fun _ _ h => h
theorem get : Grow visit (PyM.get : PyM ε σ σ) := fun _ _ h => h
theorem lift {x : Except ε α} : Grow visit (PyM.lift x : PyM ε σ α) := fun _ _ h => h

theorem ite {c : Prop} [Decidable c] {a b : PyM ε σ α} (ha : Grow visit a) (hb : Grow visit b) : Grow visit (if c then a else b) := by
  by_cases h : c
  · simp only [if_pos h]; exact ha
  · simp only [if_neg h]; exact hb

end Grow

/-! ## decode -/

/-- The fields the decoder got to. -/
def DecVisit (st : DecState) (k : Str) : Prop := k = py"h" ∨ k ∈ st.dec.keys

theorem decodeField_grow {env : PyEnv} {s : Bytes} {idx : Nat} {key : Str} {g : FieldSpec} :
    Grow DecVisit (decodeField env s idx key g) := by
  intro st k h
  rw [decodeField_run]
  exact h.imp id fun h => Dict.mem_keys_set.2 (.inr h)

theorem decodeField_visit {env : PyEnv} {s : Bytes} {idx : Nat} {key : Str} {g : FieldSpec} (st : DecState) :
    DecVisit (decodeField env s idx key g st).2 key := by
  rw [decodeField_run]
  exact .inr (Dict.mem_keys_set.2 (.inl rfl))

/-- Every value the program returns satisfies `Q`. -/
def Post (Q : α → Prop) (m : PyM ε σ α) : Prop := ∀ st a st', m st = (.ok a, st') → Q a

namespace Post
variable {Q : β → Prop}

theorem bind {m : PyM ε σ α} {f : α → PyM ε σ β} (hf : ∀ a, Post Q (f a)) : Post Q (m >>= f) := by
  intro st b st' h
  simp only [run_bind] at h
  rcases hm : m st with ⟨r, st1⟩
  rw [hm] at h
  cases r with
  | error e => cases h
  | ok a => exact hf a _ _ _ h

theorem pure {b : β} (h : Q b) : Post Q (Pure.pure b : PyM ε σ β) := by intro st a st' h'; cases h'; exact h
theorem raise {e : ε} : Post Q (PyM.raise e : PyM ε σ β) := by intro st a st' h'; cases h'

theorem ite {c : Prop} [Decidable c] {a b : PyM ε σ β} (ha : Post Q a) (hb : Post Q b) : Post Q (if c then a else b) := by
  by_cases h : c
  · simp only [if_pos h]; exact ha
  · simp only [if_neg h]; exact hb

end Post

theorem Sim.self {ke : Str → ε} {visit : σ → Str → Prop} {miss : Str → Str → Prop} {Q : α → Prop} {m : PyM ε σ α}
    (hg : Grow visit m) (hp : Post Q m) : Sim ke visit miss Q m m :=
  ⟨hg, fun st => .inl ⟨rfl, hp st⟩⟩

theorem Sim.spec {raw : PartialSpec} {spec : Spec} {k : Str} {Q : α → Prop} {F : PartialField → DecM α} {G : FieldSpec → DecM α}
    {visit : DecState → Str → Prop} {miss : Str → Str → Prop} (h : raw.FilledBy spec)
    (hfg : ∀ f g, raw.get? k = some f → spec.get? k = some g → f.FilledBy g → Sim .keyError visit miss Q (F f) (G g)) :
    Sim .keyError visit miss Q (partialSpec .keyError raw k >>= F) (decSpec spec k >>= G) := by
  unfold partialSpec decSpec
  rcases h k with ⟨h1, h2⟩ | ⟨f, g, h1, h2, h⟩
  · rw [h1, h2]; exact Sim.raise
  · rw [h1, h2]; exact hfg f g h1 h2 h

theorem grow_setDec {k v : Str} : Grow DecVisit (setDec k v) := fun _ _ h => h.imp id fun h => Dict.mem_keys_set.2 (.inr h)
theorem grow_setEnc {k : Str} {e : EncEntry} : Grow DecVisit (setEnc k e) := fun _ _ h => h
theorem grow_getDec {k : Str} : Grow DecVisit (getDec k) := by
  intro st k' h
  simp only [getDec, run_bind, run_get]
  cases st.dec.get? k <;> exact h
theorem grow_getEnc {k : Str} : Grow DecVisit (getEnc k) := by
  intro st k' h
  simp only [getEnc, run_bind, run_get]
  cases st.enc.get? k <;> exact h
theorem grow_decFail {m : DecMsg} {i : Nat} {k : Str} : Grow DecVisit (decFail m i k : DecM α) := fun _ _ h => h
theorem grow_decSpec {spec : Spec} {k : Str} : Grow DecVisit (decSpec spec k) := by
  intro st k' h
  simp only [decSpec]
  cases spec.get? k <;> exact h
theorem grow_decodeTextData {env : PyEnv} {b : Bytes} {i : Nat} {k : Str} {g : FieldSpec} : Grow DecVisit (decodeTextData env b i k g) := by
  intro st k' h
  unfold decodeTextData
  cases bytesDecode env g.dataEnc b with
  | ok t => exact h
  | error e => cases e <;> exact h

/-- Search for a proof that a decoder program only adds entries. -/
macro "grow_tac" : tactic => `(tactic| repeat' with_reducible first
  | refine Grow.ite ?_ ?_ | refine Grow.bind ?_ fun _ => ?_
  | exact Grow.pure | exact Grow.raise | exact Grow.get | exact Grow.lift | exact grow_setDec | exact grow_setEnc | exact grow_getDec
  | exact grow_getEnc | exact grow_decFail | exact grow_decSpec | exact grow_decodeTextData | exact decodeField_grow)

theorem decodeBitmap_grow {env : PyEnv} {s : Bytes} {idx : Nat} {key : Str} {g : FieldSpec} {off : Nat} {e : Bool} {F : List Nat} :
    Grow DecVisit (decodeBitmap env s idx key g off e F) := by
  unfold decodeBitmap
  dsimp only
  grow_tac
  all_goals (split <;> grow_tac)

theorem decodeBitmap_post {env : PyEnv} {s : Bytes} {idx : Nat} {key : Str} {g : FieldSpec} {off : Nat} {e : Bool} {F : List Nat} :
    Post (fun r => ∀ x ∈ r.2, x ∈ F ∨ off < x) (decodeBitmap env s idx key g off e F) := by
  unfold decodeBitmap
  dsimp only
  have key : ∀ b : Bytes, ∀ n : Nat, Post (fun r : Nat × List Nat => ∀ x ∈ r.2, x ∈ F ∨ off < x) (pure (n, setUpdate F (bitmapFields off b)) : DecM (Nat × List Nat)) := by
    intro b n
    refine Post.pure fun x hx => ?_
    rcases mem_setUpdate.1 hx with h | h
    · exact .inl h
    · obtain ⟨i, h1, rfl, _⟩ := mem_bitmapFields.1 h
      exact .inr (by omega)
  repeat' with_reducible first
    | refine Post.ite ?_ ?_ | refine Post.bind fun _ => ?_ | exact key _ _ | exact Post.raise
  all_goals
    split <;> (refine Post.bind fun _ => ?_; exact key _ _)

/-- The specification says how the data of field `k` is encoded. -/
def HasData (raw : PartialSpec) (k : Str) : Prop := ∃ f v, raw.get? k = some f ∧ f.dataEnc = some v

theorem decodeBitmapP_sim {env : PyEnv} {s : Bytes} {idx : Nat} {key : Str} {off : Nat} {e : Bool} {F : List Nat}
    {f : PartialField} {g : FieldSpec} (h : f.FilledBy g) :
    FSim .keyError (fun p => p = py"data_enc" ∧ f.dataEnc = none) (decodeBitmapP env s idx key f off e F)
      (decodeBitmap env s idx key g off e F) := by
  unfold decodeBitmapP
  refine FSim.need_bind h.1 (fun h => ⟨rfl, h⟩) fun hd => ?_
  rw [decodeBitmap_sameEnc (seen_dataEnc hd)]
  exact FSim.refl _

theorem decodeBitmapP_post {env : PyEnv} {s : Bytes} {idx : Nat} {key : Str} {off : Nat} {e : Bool} {F : List Nat}
    {f : PartialField} {raw : PartialSpec} (h : raw.get? key = some f) :
    Post (fun r => HasData raw key ∧ ∀ x ∈ r.2, x ∈ F ∨ off < x) (decodeBitmapP env s idx key f off e F) := by
  intro st a st' ha
  unfold decodeBitmapP at ha
  cases hd : f.dataEnc with
  | none => rw [hd] at ha; cases ha
  | some v =>
    rw [hd] at ha
    exact ⟨⟨f, v, h, hd⟩, decodeBitmap_post st a st' ha⟩

theorem decodeTypeP_sim {env : PyEnv} {raw : PartialSpec} {spec : Spec} {s : Bytes} {idx : Nat}
    (h : raw.FilledBy spec) : Sim .keyError DecVisit raw.Lacks (fun _ => True) (decodeTypeP env raw s idx) (decodeType env spec s idx) := by
  unfold decodeTypeP decodeType
  refine Sim.spec h fun f g h1 h2 h => ?_
  have hrun : ∀ st, _ := decodeType_run env spec s idx
  unfold decodeType decSpec at hrun
  rw [h2] at hrun
  refine Sim.ofField (k := py"t") (L := fun p => p = py"data_enc" ∧ f.dataEnc = none) ?_ (fun p hp => ⟨f, h1, .inl hp⟩) ?_ ?_
      (fun _ _ _ _ => trivial)
  · refine FSim.need_bind h.1 (fun h => ⟨rfl, h⟩) fun hd => ?_
    dsimp only
    rw [decodeTextData_sameEnc (seen_dataEnc hd)]
    exact FSim.refl _
  · intro st k hk
    refine Eq.subst (motive := fun x => DecVisit (Prod.snd x) k) (hrun st).symm ?_
    exact hk.imp id fun h => Dict.mem_keys_set.2 (.inr h)
  · intro st
    refine Eq.subst (motive := fun x => DecVisit (Prod.snd x) py"t") (hrun st).symm ?_
    exact .inr (Dict.mem_keys_set.2 (.inl rfl))

theorem decodeHeaderP_sim {env : PyEnv} {raw : PartialSpec} {spec : Spec} {s : Bytes} {idx : Nat}
    (h : raw.FilledBy spec) : Sim .keyError DecVisit raw.Lacks (fun _ => True) (decodeHeaderP env raw s idx) (decodeHeader env spec s idx) := by
  unfold decodeHeaderP decodeHeader
  refine Sim.spec h fun f g h1 h2 h => ?_
  refine Sim.ofField (k := py"h") (L := FieldLacks f) ?_ (fun p hp => ⟨f, h1, hp.imp id fun h => ⟨by decide, h⟩⟩) ?_ ?_
      (fun _ _ _ _ => trivial)
  · refine FSim.need_bind h.2.2.2.1 (fun h => .inr (.inr (.inl ⟨rfl, h⟩))) fun hd => ?_
    exact FSim.ite (fun _ => FSim.refl _) fun _ => decodeFieldP_sim h
  · exact Grow.ite Grow.pure decodeField_grow
  · exact fun st => .inl rfl

theorem decodeFields_grow {env : PyEnv} {spec : Spec} {s : Bytes} : ∀ {l : List Nat} {idx : Nat} {last : Str},
    Grow DecVisit (decodeFields env spec s idx last l)
  | [], _, _ => Grow.pure
  | i :: l, _, _ => by
    unfold decodeFields
    exact Grow.bind grow_decSpec fun _ => Grow.bind decodeField_grow fun _ => decodeFields_grow

theorem decodeFieldsP_sim {env : PyEnv} {raw : PartialSpec} {spec : Spec} {s : Bytes} (h : raw.FilledBy spec) :
    ∀ {l : List Nat} {idx : Nat} {last : Str}, 1 ∉ l →
    Sim .keyError DecVisit raw.Lacks (fun _ => True) (decodeFieldsP env raw s idx last l) (decodeFields env spec s idx last l)
  | [], _, _, _ => Sim.pure trivial
  | i :: l, _, _, h1 => by
    unfold decodeFieldsP decodeFields
    have hi : i ≠ 1 := fun e => h1 (by simp [e])
    refine Sim.spec h fun f g hf hg hfg => ?_
    refine Sim.bind (Q := fun _ => True) ?_ (fun _ => decodeFields_grow) fun _ _ => decodeFieldsP_sim h fun e => h1 (by simp [e])
    refine Sim.ofField (k := natStr i) (decodeFieldP_sim hfg) (fun p hp => ⟨f, hf, hp.imp id fun h => ⟨?_, h⟩⟩) decodeField_grow
      decodeField_visit (fun _ _ _ _ => trivial)
    exact ⟨natStr_ne_letter (by decide), natStr_ne_letter (by decide), natStr_ne_one hi⟩

theorem decodeBitmapP_simQ {env : PyEnv} {s : Bytes} {idx : Nat} {key : Str} {off : Nat} {F : List Nat}
    {f : PartialField} {g : FieldSpec} {raw : PartialSpec} (hf : raw.get? key = some f) (h : f.FilledBy g) :
    Sim .keyError DecVisit raw.Lacks (fun r => HasData raw key ∧ ∀ x ∈ r.2, x ∈ F ∨ off < x)
      (decodeBitmapP env s idx key f off false F) (decodeBitmap env s idx key g off false F) := by
  refine Sim.ofField (k := key) (decodeBitmapP_sim h) (fun p hp => ⟨f, hf, .inl hp⟩) decodeBitmap_grow ?_ (decodeBitmapP_post hf)
  intro st
  rw [decodeBitmap_run]
  exact .inr (Dict.mem_keys_set.2 (.inl rfl))

/-- When the way the data is encoded is known, nothing can be missing. -/
theorem decodeBitmapP_simX {env : PyEnv} {s : Bytes} {idx : Nat} {key : Str} {off : Nat} {e : Bool} {F : List Nat}
    {f : PartialField} {g : FieldSpec} {raw : PartialSpec} (hf : raw.get? key = some f) (h : f.FilledBy g) (hd : HasData raw key) :
    Sim .keyError DecVisit raw.Lacks (fun r => ∀ x ∈ r.2, x ∈ F ∨ off < x)
      (decodeBitmapP env s idx key f off e F) (decodeBitmap env s idx key g off e F) := by
  obtain ⟨f', v, hf', hv⟩ := hd
  rw [hf] at hf'
  cases hf'
  have e1 : decodeBitmapP env s idx key f off e F = decodeBitmap env s idx key g off e F := by
    unfold decodeBitmapP
    rw [hv, ← decodeBitmap_sameEnc ((seen_dataEnc hv).trans (h.1 v hv).symm)]
    rfl
  rw [e1]
  exact Sim.self decodeBitmap_grow decodeBitmap_post

theorem decodeHeader_grow {env : PyEnv} {spec : Spec} {s : Bytes} {idx : Nat} : Grow DecVisit (decodeHeader env spec s idx) := by
  unfold decodeHeader
  grow_tac

theorem decodeType_grow {env : PyEnv} {spec : Spec} {s : Bytes} {idx : Nat} : Grow DecVisit (decodeType env spec s idx) := by
  unfold decodeType
  grow_tac

theorem decodeTail_grow {env : PyEnv} {spec : Spec} {s : Bytes} {idx : Nat} {field : Str} {l : List Nat} :
    Grow DecVisit (do
      let (idx, field) ← decodeFields env spec s idx field l
      if idx ≠ s.length then decFail .extraData idx field) := by
  refine Grow.bind decodeFields_grow fun _ => ?_
  grow_tac

theorem decodeTail_sim {env : PyEnv} {raw : PartialSpec} {spec : Spec} {s : Bytes} (h : raw.FilledBy spec) {idx : Nat} {field : Str}
    {l : List Nat} (h1 : 1 ∉ l) : Sim .keyError DecVisit raw.Lacks (fun _ => True)
      (do
        let (idx, field) ← decodeFieldsP env raw s idx field l
        if idx ≠ s.length then decFail .extraData idx field)
      (do
        let (idx, field) ← decodeFields env spec s idx field l
        if idx ≠ s.length then decFail .extraData idx field) := by
  refine Sim.bind (decodeFieldsP_sim h h1) (fun _ => Grow.ite grow_decFail Grow.pure) ?_
  · rintro ⟨idx, field⟩ _
    exact Sim.ite (fun _ => Sim.raise) (fun _ => Sim.pure trivial)

theorem decodeTail2_grow {env : PyEnv} {spec : Spec} {s : Bytes} {idx : Nat} {field : Str} {F : List Nat} :
    Grow DecVisit (do
      let (idx, fields) ←
        if 65 ∈ F then do
          let (idx, fields) ← decodeBitmap env s idx field (← decSpec spec field) 128 true F
          pure (idx, setRemove fields 65)
        else pure (idx, F)
      let (idx, field) ← decodeFields env spec s idx field (sortedNat fields)
      if idx ≠ s.length then decFail .extraData idx field) := by
  dsimp only
  refine Grow.ite ?_ ?_
  · refine Grow.bind grow_decSpec fun _ => Grow.bind decodeBitmap_grow fun _ => ?_
    exact Grow.bind Grow.pure fun _ => decodeTail_grow
  · exact Grow.bind Grow.pure fun _ => decodeTail_grow

theorem decodeTail2_sim {env : PyEnv} {raw : PartialSpec} {spec : Spec} {s : Bytes} (h : raw.FilledBy spec) {idx : Nat} {field : Str}
    {F : List Nat} (h1 : 1 ∉ F) (hd : HasData raw field) : Sim .keyError DecVisit raw.Lacks (fun _ => True)
      (do
        let (idx, fields) ←
          if 65 ∈ F then do
            let (idx, fields) ← decodeBitmapP env s idx field (← partialSpec .keyError raw field) 128 true F
            pure (idx, setRemove fields 65)
          else pure (idx, F)
        let (idx, field) ← decodeFieldsP env raw s idx field (sortedNat fields)
        if idx ≠ s.length then decFail .extraData idx field)
      (do
        let (idx, fields) ←
          if 65 ∈ F then do
            let (idx, fields) ← decodeBitmap env s idx field (← decSpec spec field) 128 true F
            pure (idx, setRemove fields 65)
          else pure (idx, F)
        let (idx, field) ← decodeFields env spec s idx field (sortedNat fields)
        if idx ≠ s.length then decFail .extraData idx field) := by
  dsimp only
  refine Sim.ite (fun _ => ?_) (fun _ => ?_)
  · refine Sim.spec h fun f g hf hg hfg => ?_
    refine Sim.bind (decodeBitmapP_simX hf hfg hd) (fun _ => Grow.bind Grow.pure fun _ => decodeTail_grow) ?_
    rintro ⟨idx, F'⟩ hF
    refine Sim.bind (Sim.pure (Q := fun r : Nat × List Nat => 1 ∉ r.2) ?_) (fun _ => decodeTail_grow) ?_
    · intro hc
      rcases hF 1 (mem_setRemove.1 hc).1 with h | h
      · exact h1 h
      · omega
    · rintro ⟨idx, F''⟩ hF''
      exact decodeTail_sim h (by simpa using hF'')
  · refine Sim.bind (Sim.pure (Q := fun r : Nat × List Nat => 1 ∉ r.2) h1) (fun _ => decodeTail_grow) ?_
    rintro ⟨idx, F''⟩ hF''
    exact decodeTail_sim h (by simpa using hF'')

theorem decodeBodyP_sim {env : PyEnv} {raw : PartialSpec} {spec : Spec} {s : Bytes} (h : raw.FilledBy spec) :
    Sim .keyError DecVisit raw.Lacks (fun _ => True) (decodeBodyP env raw s) (decodeBody env spec s) := by
  unfold decodeBodyP decodeBody
  have g3 : ∀ (idx : Nat) (F : List Nat), Grow DecVisit (do
      let (field, idx, fields) ←
        if 1 ∈ F then do
          let field := py"1"
          let (idx, fields) ← decodeBitmap env s idx field (← decSpec spec field) 64 false F
          pure (field, idx, setRemove fields 1)
        else pure (py"p", idx, F)
      let (idx, fields) ←
        if 65 ∈ fields then do
          let (idx, fields) ← decodeBitmap env s idx field (← decSpec spec field) 128 true fields
          pure (idx, setRemove fields 65)
        else pure (idx, fields)
      let (idx, field) ← decodeFields env spec s idx field (sortedNat fields)
      if idx ≠ s.length then decFail .extraData idx field) := by
    intro idx F
    dsimp only
    refine Grow.ite ?_ ?_
    · refine Grow.bind grow_decSpec fun _ => Grow.bind decodeBitmap_grow fun _ => ?_
      exact Grow.bind Grow.pure fun _ => decodeTail2_grow
    · exact Grow.bind Grow.pure fun _ => decodeTail2_grow
  have g2 : ∀ (idx : Nat), Grow DecVisit (do
      let (idx, F) ← decodeBitmap env s idx py"p" (← decSpec spec py"p") 0 false []
      let (field, idx, fields) ←
        if 1 ∈ F then do
          let field := py"1"
          let (idx, fields) ← decodeBitmap env s idx field (← decSpec spec field) 64 false F
          pure (field, idx, setRemove fields 1)
        else pure (py"p", idx, F)
      let (idx, fields) ←
        if 65 ∈ fields then do
          let (idx, fields) ← decodeBitmap env s idx field (← decSpec spec field) 128 true fields
          pure (idx, setRemove fields 65)
        else pure (idx, fields)
      let (idx, field) ← decodeFields env spec s idx field (sortedNat fields)
      if idx ≠ s.length then decFail .extraData idx field) :=
    fun idx => Grow.bind grow_decSpec fun _ => Grow.bind decodeBitmap_grow fun _ => g3 _ _
  refine Sim.bind (decodeHeaderP_sim h) (fun _ => Grow.bind decodeType_grow fun _ => g2 _) fun idx _ => ?_
  refine Sim.bind (decodeTypeP_sim h) (fun _ => g2 _) fun idx _ => ?_
  refine Sim.spec h fun f g hf hg hfg => ?_
  refine Sim.bind (decodeBitmapP_simQ hf hfg) (fun _ => g3 _ _) ?_
  rintro ⟨idx, F⟩ ⟨hd, hF⟩
  dsimp only
  refine Sim.ite (fun _ => ?_) (fun h1 => ?_)
  · refine Sim.spec h fun f g hf hg hfg => ?_
    refine Sim.bind (decodeBitmapP_simQ hf hfg) (fun _ => Grow.bind Grow.pure fun _ => decodeTail2_grow) ?_
    rintro ⟨idx, F'⟩ ⟨hd, hF⟩
    refine Sim.bind (Sim.pure (Q := fun r : Str × Nat × List Nat => HasData raw r.1 ∧ 1 ∉ r.2.2) ⟨hd, by simp⟩) (fun _ => decodeTail2_grow) ?_
    rintro ⟨field, idx, F''⟩ ⟨hd, h1⟩
    exact decodeTail2_sim h h1 hd
  · refine Sim.bind (Sim.pure (Q := fun r : Str × Nat × List Nat => HasData raw r.1 ∧ 1 ∉ r.2.2) ⟨hd, h1⟩) (fun _ => decodeTail2_grow) ?_
    rintro ⟨field, idx, F''⟩ ⟨hd, h1⟩
    exact decodeTail2_sim h h1 hd

end Iso8583
