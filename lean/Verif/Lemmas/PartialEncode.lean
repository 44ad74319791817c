import Verif.Lemmas.Partial
/-!
# Encoding with a specification with gaps and with a filled one
-/

namespace Iso8583
open PyM

variable {α β : Type}

/-- The fields the encoder got to. -/
def EncVisit (st : EncState) (k : Str) : Prop := k = py"h" ∨ k ∈ st.enc.keys

theorem grow_encSet {k : Str} {e : EncEntry} : Grow EncVisit (encSet k e) :=
  fun _ _ h => h.imp id fun h => Dict.mem_keys_set.2 (.inr h)
theorem grow_docSet {k v : Str} : Grow EncVisit (docSet k v) := fun _ _ h => h
theorem grow_encFail {m : EncMsg} {k : Str} : Grow EncVisit (encFail m k : EncM α) := fun _ _ h => h
theorem grow_encGet {k : Str} : Grow EncVisit (encGet k) := by
  intro st k' h
  simp only [encGet, run_bind, run_get]
  cases st.enc.get? k <;> exact h
theorem grow_docGet {k : Str} : Grow EncVisit (docGet k) := by
  intro st k' h
  simp only [docGet, run_bind, run_get]
  cases st.dec.get? (.str k) <;> exact h
theorem grow_encSpec {spec : Spec} {k : Str} : Grow EncVisit (encSpec spec k) := by
  intro st k' h
  simp only [encSpec]
  cases spec.get? k <;> exact h
theorem grow_docAppend {k v : Str} : Grow EncVisit (docAppend k v) := by
  unfold docAppend
  refine Grow.bind grow_docGet fun x => ?_
  cases x with
  | str s => exact grow_docSet
  | _ => exact Grow.raise

/-- Search for a proof that an encoder program only adds entries. -/
macro "egrow_tac" : tactic => `(tactic| repeat' with_reducible first
  | refine Grow.ite ?_ ?_ | refine Grow.bind ?_ fun _ => ?_
  | exact Grow.pure | exact Grow.raise | exact Grow.get | exact Grow.lift | exact grow_encSet | exact grow_docSet | exact grow_docGet
  | exact grow_encGet | exact grow_encFail | exact grow_encSpec | exact grow_docAppend)

theorem encodeLength_grow {env : PyEnv} {n : Nat} {key : Str} {g : FieldSpec} : Grow EncVisit (encodeLength env n key g) := by
  unfold encodeLength
  dsimp only
  egrow_tac
  · split <;> egrow_tac
  · split <;> egrow_tac
  · split <;> egrow_tac
  · split <;> egrow_tac

theorem visit_after_set {k : Str} {e : EncEntry} {f : Unit → EncM α} (hf : ∀ a, Grow EncVisit (f a)) (st : EncState) :
    EncVisit ((encSet k e >>= f) st).2 k :=
  hf () _ _ (.inr (Dict.mem_keys_set.2 (.inl rfl)))

theorem visit_after_sets {k v : Str} {e : EncEntry} {f : Unit → EncM α} (hf : ∀ a, Grow EncVisit (f a)) (st : EncState) :
    EncVisit ((docSet k v >>= fun _ => encSet k e >>= f) st).2 k := visit_after_set hf _

theorem encFail_bind {m : EncMsg} {k : Str} {f : α → EncM β} : (encFail m k >>= f) = encFail m k := rfl

theorem encodeField_visit {env : PyEnv} {key : Str} {g : FieldSpec} (st : EncState) : EncVisit (encodeField env key g st).2 key := by
  unfold encodeField
  refine visit_after_set (fun _ => ?_) st
  egrow_tac
  all_goals exact encodeLength_grow

theorem encodeField_grow {env : PyEnv} {key : Str} {g : FieldSpec} : Grow EncVisit (encodeField env key g) := by
  unfold encodeField
  dsimp only
  egrow_tac
  all_goals exact encodeLength_grow

theorem encodeBinaryField_congr {v : Val} {key : Str} {c : Str} {f g : FieldSpec} (h : f.leftPad = g.leftPad) (h' : f.rightPad = g.rightPad) :
    encodeBinaryField v key f c = encodeBinaryField v key g c := by
  have : addPadField v f = addPadField v g := by unfold addPadField; rw [h, h']
  unfold encodeBinaryField; rw [this]

theorem encodeTextField_congr {env : PyEnv} {v : Val} {key : Str} {c : Str} {f g : FieldSpec} (h : f.dataEnc = g.dataEnc) :
    encodeTextField env v key f c = encodeTextField env v key g c := by
  unfold encodeTextField; rw [h]

theorem encodeLength_congr {env : PyEnv} {n : Nat} {key : Str} {f g : FieldSpec} (h : f.lenEnc = g.lenEnc) (h' : f.lenType = g.lenType) :
    encodeLength env n key f = encodeLength env n key g := by
  unfold encodeLength; rw [h, h']

theorem encodeFieldP_sim {env : PyEnv} {key : Str} {f : PartialField} {g : FieldSpec}
    (h : f.FilledBy g) : FSim .keyError (FieldLacks f) (encodeFieldP env key f) (encodeField env key g) := by
  obtain ⟨hd, he, ht, hm, hc, hl, hr, _⟩ := h
  unfold encodeFieldP encodeField
  have hcount : g.count = f.lenCount.getD py"bytes" := by unfold FieldSpec.count; rw [hc]
  have hbin : ∀ v c, encodeBinaryField v key f.seen c = encodeBinaryField v key g c :=
    fun v c => encodeBinaryField_congr (by rw [hl]; rfl) (by rw [hr]; rfl)
  simp only [hcount, hbin, encFail_bind]
  refine FSim.bind (FSim.refl _) fun _ => ?_
  refine FSim.need_bind hd (fun h => .inl ⟨rfl, h⟩) fun hd0 => ?_
  simp only [fun v c => encodeTextField_congr (env := env) (v := v) (key := key) (c := c) (seen_dataEnc hd0)]
  refine FSim.bind (FSim.refl _) fun v => ?_
  refine FSim.bind (FSim.refl _) fun x => ?_
  refine FSim.bind (FSim.refl _) fun _ => ?_
  refine FSim.need_bind ht (fun h => .inr (.inl ⟨rfl, h⟩)) fun ht0 => ?_
  refine FSim.need_bind hm (fun h => .inr (.inr (.inl ⟨rfl, h⟩))) fun hm0 => ?_
  refine FSim.ite (fun _ => FSim.refl _) (fun h0 => ?_)
  refine FSim.ite (fun _ => FSim.refl _) (fun _ => ?_)
  refine FSim.need_bind he (fun h => .inr (.inr (.inr ⟨rfl, h, by rw [ht0]; simpa using h0⟩))) fun he0 => ?_
  rw [encodeLength_congr (seen_lenEnc he0) (seen_lenType ht0)]
  exact FSim.refl _

theorem Sim.encSpec {raw : PartialSpec} {spec : Spec} {k : Str} {Q : α → Prop} {F : PartialField → EncM α} {G : FieldSpec → EncM α}
    {visit : EncState → Str → Prop} {miss : Str → Str → Prop} (h : raw.FilledBy spec)
    (hfg : ∀ f g, raw.get? k = some f → spec.get? k = some g → f.FilledBy g → Sim .keyError visit miss Q (F f) (G g)) :
    Sim .keyError visit miss Q (partialSpec .keyError raw k >>= F) (Iso8583.encSpec spec k >>= G) := by
  unfold partialSpec Iso8583.encSpec
  rcases h k with ⟨h1, h2⟩ | ⟨f, g, h1, h2, h⟩
  · rw [h1, h2]; exact Sim.raise
  · rw [h1, h2]; exact hfg f g h1 h2 h

theorem encodeHeaderP_sim {env : PyEnv} {raw : PartialSpec} {spec : Spec}
    (h : raw.FilledBy spec) : Sim .keyError EncVisit raw.Lacks (fun _ => True) (encodeHeaderP env raw) (encodeHeader env spec) := by
  unfold encodeHeaderP encodeHeader
  refine Sim.encSpec h fun f g h1 h2 h => ?_
  refine Sim.ofField (k := py"h") (L := FieldLacks f) ?_ (fun p hp => ⟨f, h1, hp.imp id fun h => ⟨by decide, h⟩⟩) ?_ ?_
      (fun _ _ _ _ => trivial)
  · refine FSim.need_bind h.2.2.2.1 (fun h => .inr (.inr (.inl ⟨rfl, h⟩))) fun hd => ?_
    refine FSim.ite (fun _ => FSim.refl _) fun _ => ?_
    refine FSim.bind (FSim.refl _) fun _ => ?_
    exact FSim.ite (fun _ => FSim.refl _) fun _ => encodeFieldP_sim h
  · dsimp only
    refine Grow.ite Grow.pure (Grow.bind Grow.get fun _ => Grow.ite ?_ encodeField_grow)
    exact Grow.bind grow_encFail fun _ => encodeField_grow
  · exact fun st => .inl rfl

theorem encodeTypeP_sim {env : PyEnv} {raw : PartialSpec} {spec : Spec}
    (h : raw.FilledBy spec) : Sim .keyError EncVisit raw.Lacks (fun _ => True) (encodeTypeP env raw) (encodeType env spec) := by
  unfold encodeTypeP encodeType
  simp only [encFail_bind]
  refine Sim.bind (Q := fun _ => True) Sim.get (fun _ => ?_) fun _ _ => ?_
  · refine Grow.ite grow_encFail (Grow.bind grow_encSpec fun g => ?_)
    egrow_tac
  refine Sim.ite (fun _ => Sim.raise) fun _ => ?_
  refine Sim.encSpec h fun f g h1 h2 h => ?_
  refine Sim.ofField (k := py"t") (L := fun p => p = py"data_enc" ∧ f.dataEnc = none) ?_ (fun p hp => ⟨f, h1, .inl hp⟩) ?_ ?_
      (fun _ _ _ _ => trivial)
  · refine FSim.need_bind h.1 (fun h => ⟨rfl, h⟩) fun hd => ?_
    have hbin : ∀ v c, encodeBinaryField v py"t" f.seen c = encodeBinaryField v py"t" g c :=
      fun v c => encodeBinaryField_congr (by rw [h.2.2.2.2.2.1]; rfl) (by rw [h.2.2.2.2.2.2.1]; rfl)
    simp only [fun v c => encodeTextField_congr (env := env) (v := v) (key := py"t") (c := c) (seen_dataEnc hd), hbin]
    exact FSim.refl _
  · show Grow EncVisit _
    egrow_tac
  · refine fun st => visit_after_set (fun _ => ?_) st
    egrow_tac

theorem encodeBitmap_grow {env : PyEnv} {key : Str} {off : Nat} {e : Bool} {F : List Nat} {g : FieldSpec} :
    Grow EncVisit (encodeBitmap env key g off e F) := by
  unfold encodeBitmap
  cases bitmapLoop off F (List.replicate 8 0) with
  | none => exact Grow.raise
  | some bm => dsimp only; egrow_tac

theorem encodeBitmapP_fsim {env : PyEnv} {key : Str} {off : Nat} {e : Bool} {F : List Nat} {f : PartialField} {g : FieldSpec}
    (h : f.FilledBy g) : FSim .keyError (fun p => p = py"data_enc" ∧ f.dataEnc = none) (encodeBitmapP env key f off e F) (encodeBitmap env key g off e F) := by
  unfold encodeBitmapP encodeBitmap
  cases bitmapLoop off F (List.replicate 8 0) with
  | none => exact FSim.refl _
  | some bm =>
    dsimp only
    have key : ∀ {β : Type} (G : Bytes → EncM β), FSim .keyError (fun p => p = py"data_enc" ∧ f.dataEnc = none)
        (need .keyError py"data_enc" f.dataEnc >>= fun d => if d = py"b" then pure bm >>= G
          else PyM.lift (encodeTextField env (.str (upperAscii (bytesHex bm))) key f.seen py"bytes") >>= fun x => pure x.1 >>= G)
        (if g.dataEnc = py"b" then pure bm >>= G
          else PyM.lift (encodeTextField env (.str (upperAscii (bytesHex bm))) key g py"bytes") >>= fun x => pure x.1 >>= G) := by
      intro β G
      refine FSim.need_bind h.1 (fun h => ⟨rfl, h⟩) fun hd => ?_
      rw [encodeTextField_congr (seen_dataEnc hd)]
      exact FSim.refl _
    refine FSim.ite (fun _ => FSim.bind (FSim.refl _) fun _ => key _) (fun _ => FSim.bind (FSim.refl _) fun _ => FSim.bind (FSim.refl _) fun _ => key _)

theorem encodeBitmapP_sim {env : PyEnv} {key : Str} {off : Nat} {F : List Nat}
    {f : PartialField} {g : FieldSpec} {raw : PartialSpec} (hf : raw.get? key = some f) (h : f.FilledBy g)
    (hF : ∀ x ∈ F, off + 1 ≤ x ∧ x ≤ off + 64) :
    Sim .keyError EncVisit raw.Lacks (fun _ => HasData raw key)
      (encodeBitmapP env key f off false F) (encodeBitmap env key g off false F) := by
  obtain ⟨bm, hb, _⟩ := bitmapLoop_zero hF
  refine Sim.ofField (k := key) (encodeBitmapP_fsim h) (fun p hp => ⟨f, hf, .inl hp⟩) encodeBitmap_grow ?_ ?_
  · unfold encodeBitmap
    simp only [hb, Bool.false_eq_true, if_false]
    refine fun st => visit_after_sets (fun _ => ?_) st
    egrow_tac
  · intro st a st' ha
    cases hd : f.dataEnc with
    | some v => exact ⟨f, v, hf, hd⟩
    | none =>
      unfold encodeBitmapP at ha
      simp only [hb, Bool.false_eq_true, if_false] at ha
      rw [hd] at ha
      cases ha

theorem encodeBitmapP_simX {env : PyEnv} {key : Str} {off : Nat} {e : Bool} {F : List Nat}
    {f : PartialField} {g : FieldSpec} {raw : PartialSpec} (hf : raw.get? key = some f) (h : f.FilledBy g) (hd : HasData raw key) :
    Sim .keyError EncVisit raw.Lacks (fun _ => True)
      (encodeBitmapP env key f off e F) (encodeBitmap env key g off e F) := by
  obtain ⟨f', v, hf', hv⟩ := hd
  rw [hf] at hf'
  cases hf'
  have e1 : encodeBitmapP env key f off e F = encodeBitmap env key g off e F := by
    funext st
    rcases encodeBitmapP_fsim (env := env) (key := key) (off := off) (e := e) (F := F) h st with h | ⟨p, st', ⟨_, hp⟩, _⟩
    · exact h
    · rw [hv] at hp; cases hp
  rw [e1]
  exact Sim.self encodeBitmap_grow fun _ _ _ _ => trivial

theorem encodeFields_grow {env : PyEnv} {spec : Spec} : ∀ {l : List Nat}, Grow EncVisit (encodeFields env spec l)
  | [] => Grow.pure
  | i :: l => by
    unfold encodeFields
    exact Grow.bind grow_encSpec fun _ => Grow.bind encodeField_grow fun _ => Grow.bind encodeFields_grow fun _ => Grow.pure

theorem encodeFieldsP_sim {env : PyEnv} {raw : PartialSpec} {spec : Spec} (h : raw.FilledBy spec) :
    ∀ {l : List Nat}, 1 ∉ l → Sim .keyError EncVisit raw.Lacks (fun _ => True) (encodeFieldsP env raw l) (encodeFields env spec l)
  | [], _ => Sim.pure trivial
  | i :: l, h1 => by
    unfold encodeFieldsP encodeFields
    have hi : i ≠ 1 := fun e => h1 (by simp [e])
    refine Sim.encSpec h fun f g hf hg hfg => ?_
    refine Sim.bind (Q := fun _ => True) ?_ (fun _ => Grow.bind encodeFields_grow fun _ => Grow.pure) fun _ _ =>
      Sim.bind (encodeFieldsP_sim h fun e => h1 (by simp [e])) (fun _ => Grow.pure) fun _ _ => Sim.pure trivial
    refine Sim.ofField (k := natStr i) (encodeFieldP_sim hfg) (fun p hp => ⟨f, hf, hp.imp id fun h => ⟨?_, h⟩⟩) encodeField_grow
      encodeField_visit (fun _ _ _ _ => trivial)
    exact ⟨natStr_ne_letter (by decide), natStr_ne_letter (by decide), natStr_ne_one hi⟩

theorem encodeTail_grow {env : PyEnv} {spec : Spec} {a : Bytes} {ter F : List Nat} {b1 : Bytes} :
    Grow EncVisit (do
      let (b2, fields) ←
        if 65 ∈ F then do
          let w ← encodeBitmap env py"1" (← encSpec spec py"1") 128 true ter
          pure (w, setRemove F 65)
        else pure ([], F)
      let ws ← encodeFields env spec (sortedNat fields)
      return a ++ b1 ++ b2 ++ ws) := by
  dsimp only
  refine Grow.ite ?_ ?_
  · exact Grow.bind grow_encSpec fun _ => Grow.bind encodeBitmap_grow fun _ => Grow.bind Grow.pure fun _ =>
      Grow.bind encodeFields_grow fun _ => Grow.pure
  · exact Grow.bind Grow.pure fun _ => Grow.bind encodeFields_grow fun _ => Grow.pure

theorem encodeTail_sim {env : PyEnv} {raw : PartialSpec} {spec : Spec} (h : raw.FilledBy spec) {a : Bytes} {ter F : List Nat} {b1 : Bytes}
    (h1 : 1 ∉ F) (hd : 65 ∈ F → HasData raw py"1") :
    Sim .keyError EncVisit raw.Lacks (fun _ => True)
      (do
        let (b2, fields) ←
          if 65 ∈ F then do
            let w ← encodeBitmapP env py"1" (← partialSpec .keyError raw py"1") 128 true ter
            pure (w, setRemove F 65)
          else pure ([], F)
        let ws ← encodeFieldsP env raw (sortedNat fields)
        return a ++ b1 ++ b2 ++ ws)
      (do
        let (b2, fields) ←
          if 65 ∈ F then do
            let w ← encodeBitmap env py"1" (← encSpec spec py"1") 128 true ter
            pure (w, setRemove F 65)
          else pure ([], F)
        let ws ← encodeFields env spec (sortedNat fields)
        return a ++ b1 ++ b2 ++ ws) := by
  dsimp only
  have tl : ∀ x : Bytes × List Nat, 1 ∉ x.2 → Sim .keyError EncVisit raw.Lacks (fun _ => True)
      (encodeFieldsP env raw (sortedNat x.2) >>= fun ws => pure (a ++ b1 ++ x.1 ++ ws))
      (encodeFields env spec (sortedNat x.2) >>= fun ws => pure (a ++ b1 ++ x.1 ++ ws)) := fun x hx =>
    Sim.bind (encodeFieldsP_sim h (by simpa using hx)) (fun _ => Grow.pure) fun _ _ => Sim.pure trivial
  refine Sim.ite (fun h65 => ?_) (fun _ => ?_)
  · refine Sim.encSpec h fun f g hf hg hfg => ?_
    refine Sim.bind (encodeBitmapP_simX hf hfg (hd h65)) (fun _ => Grow.bind Grow.pure fun _ =>
      Grow.bind encodeFields_grow fun _ => Grow.pure) fun w _ => ?_
    refine Sim.bind (Sim.pure (Q := fun r : Bytes × List Nat => 1 ∉ r.2) (by simp [h1]))
      (fun _ => Grow.bind encodeFields_grow fun _ => Grow.pure) fun x hx => tl x hx
  · exact Sim.bind (Sim.pure (Q := fun r : Bytes × List Nat => 1 ∉ r.2) h1)
      (fun _ => Grow.bind encodeFields_grow fun _ => Grow.pure) fun x hx => tl x hx

theorem encodeTail2_grow {env : PyEnv} {spec : Spec} {a : Bytes} {sec ter F : List Nat} :
    Grow EncVisit (do
      let (b1, F) ←
        if 1 ∈ F then do
          let w ← encodeBitmap env py"1" (← encSpec spec py"1") 64 false sec
          pure (w, setRemove F 1)
        else pure ([], F)
      let (b2, fields) ←
        if 65 ∈ F then do
          let w ← encodeBitmap env py"1" (← encSpec spec py"1") 128 true ter
          pure (w, setRemove F 65)
        else pure ([], F)
      let ws ← encodeFields env spec (sortedNat fields)
      return a ++ b1 ++ b2 ++ ws) := by
  dsimp only
  refine Grow.ite ?_ ?_
  · exact Grow.bind grow_encSpec fun _ => Grow.bind encodeBitmap_grow fun _ => Grow.bind Grow.pure fun _ => encodeTail_grow
  · exact Grow.bind Grow.pure fun _ => encodeTail_grow

theorem encodeTail2_sim {env : PyEnv} {raw : PartialSpec} {spec : Spec} (h : raw.FilledBy spec) {a : Bytes} {sec ter F : List Nat}
    (hs : ∀ x ∈ sec, 64 + 1 ≤ x ∧ x ≤ 64 + 64) (h65 : 65 ∈ F → 1 ∈ F) :
    Sim .keyError EncVisit raw.Lacks (fun _ => True)
      (do
        let (b1, F) ←
          if 1 ∈ F then do
            let w ← encodeBitmapP env py"1" (← partialSpec .keyError raw py"1") 64 false sec
            pure (w, setRemove F 1)
          else pure ([], F)
        let (b2, fields) ←
          if 65 ∈ F then do
            let w ← encodeBitmapP env py"1" (← partialSpec .keyError raw py"1") 128 true ter
            pure (w, setRemove F 65)
          else pure ([], F)
        let ws ← encodeFieldsP env raw (sortedNat fields)
        return a ++ b1 ++ b2 ++ ws)
      (do
        let (b1, F) ←
          if 1 ∈ F then do
            let w ← encodeBitmap env py"1" (← encSpec spec py"1") 64 false sec
            pure (w, setRemove F 1)
          else pure ([], F)
        let (b2, fields) ←
          if 65 ∈ F then do
            let w ← encodeBitmap env py"1" (← encSpec spec py"1") 128 true ter
            pure (w, setRemove F 65)
          else pure ([], F)
        let ws ← encodeFields env spec (sortedNat fields)
        return a ++ b1 ++ b2 ++ ws) := by
  dsimp only
  refine Sim.ite (fun h1 => ?_) (fun h1 => ?_)
  · refine Sim.encSpec h fun f g hf hg hfg => ?_
    refine Sim.bind (encodeBitmapP_sim hf hfg hs) (fun _ => Grow.bind Grow.pure fun _ => encodeTail_grow) fun w hd => ?_
    refine Sim.bind (Sim.pure (Q := fun r : Bytes × List Nat => 1 ∉ r.2) (by simp)) (fun _ => encodeTail_grow) fun x hx => ?_
    exact encodeTail_sim h hx fun _ => hd
  · refine Sim.bind (Sim.pure (Q := fun r : Bytes × List Nat => 1 ∉ r.2 ∧ 65 ∉ r.2) ⟨h1, fun h => h1 (h65 h)⟩)
      (fun _ => encodeTail_grow) fun x hx => ?_
    exact encodeTail_sim h hx.1 fun h => absurd h hx.2

theorem encodeHeader_grow {env : PyEnv} {spec : Spec} : Grow EncVisit (encodeHeader env spec) := by
  unfold encodeHeader
  dsimp only
  refine Grow.bind grow_encSpec fun _ => Grow.ite Grow.pure (Grow.bind Grow.get fun _ => Grow.ite ?_ encodeField_grow)
  exact Grow.bind grow_encFail fun _ => encodeField_grow

theorem encodeType_grow {env : PyEnv} {spec : Spec} : Grow EncVisit (encodeType env spec) := by
  unfold encodeType
  simp only [encFail_bind]
  egrow_tac

theorem encodeBodyP_sim {env : PyEnv} {raw : PartialSpec} {spec : Spec} (h : raw.FilledBy spec) :
    Sim .keyError EncVisit raw.Lacks (fun _ => True) (encodeBodyP env raw) (encodeBody env spec) := by
  unfold encodeBodyP encodeBody
  have g1 : ∀ (a b : Bytes) (nums : List Int), Grow EncVisit (do
      let ints := setUpdate [] nums
      if ¬ ints.all inRange then
        encFail (.outOfRange (sortedBy id (ints.filter fun n => ¬ inRange n))) py"p"
      let fields := ints.map Int.toNat
      let tertiary := setInter fields 129 193
      let fields := if tertiary ≠ [] then setAdd fields 65 else fields
      let secondary := setInter fields 65 129
      let fields := if secondary ≠ [] then setAdd fields 1 else fields
      let p ← encodeBitmap env py"p" (← encSpec spec py"p") 0 false (setInter fields 1 65)
      let (b1, fields) ←
        if 1 ∈ fields then do
          let w ← encodeBitmap env py"1" (← encSpec spec py"1") 64 false secondary
          pure (w, setRemove fields 1)
        else pure ([], fields)
      let (b2, fields) ←
        if 65 ∈ fields then do
          let w ← encodeBitmap env py"1" (← encSpec spec py"1") 128 true tertiary
          pure (w, setRemove fields 65)
        else pure ([], fields)
      let ws ← encodeFields env spec (sortedNat fields)
      return a ++ b ++ p ++ b1 ++ b2 ++ ws) := by
    intro a b nums
    simp only [encFail_bind]
    exact Grow.ite grow_encFail (Grow.bind grow_encSpec fun _ => Grow.bind encodeBitmap_grow fun p => encodeTail2_grow)
  have gm : ∀ f : Doc → Doc, Grow EncVisit (PyM.modify fun st => { st with dec := f st.dec } : EncM Unit) := fun _ _ _ h => h
  refine Sim.bind (Q := fun _ => True) (Sim.self (gm fun d => (d.pop (.str py"1")).pop (.str py"65")) fun _ _ _ _ => trivial) (fun _ => Grow.bind encodeHeader_grow fun _ =>
    Grow.bind encodeType_grow fun _ => Grow.bind Grow.get fun _ => Grow.bind Grow.lift fun _ => g1 _ _ _) fun _ _ => ?_
  refine Sim.bind (encodeHeaderP_sim h) (fun _ =>
    Grow.bind encodeType_grow fun _ => Grow.bind Grow.get fun _ => Grow.bind Grow.lift fun _ => g1 _ _ _) fun hh _ => ?_
  refine Sim.bind (encodeTypeP_sim h) (fun _ => Grow.bind Grow.get fun _ => Grow.bind Grow.lift fun _ => g1 _ _ _) fun t _ => ?_
  refine Sim.bind Sim.get (fun _ => Grow.bind Grow.lift fun _ => g1 _ _ _) fun st _ => ?_
  refine Sim.bind (Q := fun _ => True) (Sim.lift fun _ _ => trivial) (fun _ => g1 _ _ _) fun nums _ => ?_
  simp only [encFail_bind]
  refine Sim.ite (fun _ => Sim.raise) fun _ => ?_
  refine Sim.encSpec h fun f g hf hg hfg => ?_
  refine Sim.bind (encodeBitmapP_sim hf hfg ?_) (fun _ => encodeTail2_grow) fun p _ => encodeTail2_sim h ?_ ?_
  · intro x hx
    have := mem_setInter.1 hx
    omega
  · intro x hx
    have := mem_setInter.1 hx
    omega
  · intro hx
    by_cases hsec : setInter (if setInter (List.map Int.toNat (setUpdate [] nums)) 129 193 ≠ [] then
        setAdd (List.map Int.toNat (setUpdate [] nums)) 65 else List.map Int.toNat (setUpdate [] nums)) 65 129 ≠ []
    · rw [if_pos hsec]; simp
    · rw [if_neg hsec] at hx
      refine absurd ?_ hsec
      exact List.ne_nil_of_mem (mem_setInter.2 ⟨hx, by omega, by omega⟩)

end Iso8583
