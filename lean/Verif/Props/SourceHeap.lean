import Verif.Source.Heap
import Verif.Props.SourceRound
import Verif.Props.Shipped
/-!
# C86: specifications that are objects

The theorems of C80, C81 and C82 take the specification as a value.  In a program it is an object: a dict
whose values are dicts, such as the two that specs.py makes, and another function might change it or be
given the same dict under another name.  Here: the same theorems for a specification in the heap.  They
follow from the others by `program_agree`: a function of the source that does not get stuck on frozen
objects does the same with the objects themselves, and does not change them.
-/

namespace Iso8583.Src

variable {ε σ : Type} {rt : Rt ε σ} {pv sv docv : Val} {spec : Spec} {s : Bytes} {K : Nat → Option Val} {h₀ : List Obj}

theorem fz_kept {h : List Obj} {E : Nat → Prop} {l : Nat} (hE : E l) : fz (freeze h E) (.ref l) = .ref l := by
  rw [fz, freeze_none (.inl hE)]; rfl

/-- What a specification refers to is a dict. -/
theorem SpecAt.refers {h : List Obj} (hp : SpecAt h pv spec) {l : Nat} (hl : Refers h pv l) : ∃ items, h[l]? = some (.dict items) := by
  obtain ⟨i, items, rfl, h1, h2, -⟩ := hp
  rcases hl with hl | ⟨j, items', k, hj, h3, h4⟩
  · cases hl; exact ⟨_, h1⟩
  · cases hj
    rw [h1] at h3; cases h3
    rcases (h2 _ h4).2 with h5 | ⟨f, its, h5, h6, -⟩
    · exact absurd h5 (ref_not_noRef l)
    · cases h5; exact ⟨_, h6⟩

theorem mapped_ok {x : Except (Exc ε) Val} {v : Val} (h : Except.ok v = (x.map (fz K)).mapError (fzExc K)) : ∃ w, x = .ok w ∧ fz K w = v := by
  cases x with
  | ok w => exact ⟨w, rfl, by simpa [Except.map, Except.mapError] using h.symm⟩
  | error e => cases h

theorem mapped_error {x : Except (Exc ε) Val} {e : Exc ε} (h : Except.error e = (x.map (fz K)).mapError (fzExc K)) : ∃ e', x = .error e' ∧ fzExc K e' = e := by
  cases x with
  | ok w => cases h
  | error e' => exact ⟨e', rfl, by simpa [Except.map, Except.mapError] using h.symm⟩

section
variable (hK : Frozen K h₀ h₀)
include hK

theorem mapped_pair {x : Except (Exc ε) Val} {a b : Nat} (h : Except.ok (Val.tuple [.ref a, .ref b]) = (x.map (fz K)).mapError (fzExc K)) :
    x = .ok (.tuple [.ref a, .ref b]) := by
  obtain ⟨w, rfl, h'⟩ := mapped_ok h
  rw [exact_pair hK h']

theorem mapped_std {x : Except (Exc ε) Val} {c : Ident} {a : Val} (ha : a.simple = true) (h : Except.error (Exc.std c a) = (x.map (fz K)).mapError (fzExc K)) :
    x = .error (.std c a) := by
  obtain ⟨w, rfl, h'⟩ := mapped_error h
  rw [exact_std (exact_simple hK ha) h']

omit hK in
theorem mapped_inst {x : Except (Exc ε) Val} {c : Ident} {l : Nat} (h : Except.error (Exc.inst c l) = (x.map (fz K)).mapError (fzExc K)) :
    x = .error (.inst c l) := by
  obtain ⟨w, rfl, h'⟩ := mapped_error h
  rw [exact_exc h']

/-- What `decode` returned or raised, read back. -/
theorem DecodeOut.back {h : List Obj} (hsv : Exact K sv) {r : Except (Limited DecodeExc) (DecDoc × EncDoc)} {x : Except (Exc ε) Val}
    (ho : DecodeOut (h.map (fzObj K)) sv r ((x.map (fz K)).mapError (fzExc K))) : DecodeOut h sv r x := by
  rcases r with ((e | k | c) | _) | ⟨d, e⟩
  · obtain ⟨l, dd, de, h1, h2, h3, h4, h5⟩ := ho
    refine ⟨l, dd, de, mapped_inst h1.symm, exact_inst hK ?_ ?_ h2, h3, exact_hasDec hK h4, exact_hasEnc hK h5⟩
    · simp only [List.mem_cons, List.not_mem_nil, or_false]
      rintro v rfl
      exact exact_simple hK rfl
    · simp only [List.mem_cons, List.not_mem_nil, or_false]
      rintro p (rfl | rfl | rfl | rfl | rfl | rfl)
      · exact exact_simple hK rfl
      · exact hsv
      · exact exact_ref hK _
      · exact exact_ref hK _
      · exact exact_simple hK rfl
      · exact exact_simple hK rfl
  · exact mapped_std hK rfl ho.symm
  · exact mapped_std hK rfl ho.symm
  · exact mapped_std hK rfl ho.symm
  · obtain ⟨dd, de, h1, h2, h3, h4⟩ := ho
    exact ⟨dd, de, mapped_pair hK h1.symm, h2, exact_hasDec hK h3, exact_hasEnc hK h4⟩

/-- What `encode` returned or raised, read back. -/
theorem EncodeOut.back {h : List Obj} {dd : Nat} {r : Except (Limited EncodeExc) (Bytes × EncDoc)} {x : Except (Exc ε) Val}
    (ho : EncodeOut (h.map (fzObj K)) dd r ((x.map (fz K)).mapError (fzExc K))) : EncodeOut h dd r x := by
  rcases r with (e | _) | ⟨b, e⟩
  · cases e with
    | encodeError e =>
      obtain ⟨l, de, d, h1, h2, h3, h4, h5⟩ := ho
      refine ⟨l, de, d, mapped_inst h1.symm, h2, exact_inst hK ?_ ?_ h3, h4, exact_hasEnc hK h5⟩
      · simp only [List.mem_cons, List.not_mem_nil, or_false]
        rintro v rfl
        exact exact_simple hK rfl
      · simp only [List.mem_cons, List.not_mem_nil, or_false]
        rintro p (rfl | rfl | rfl | rfl)
        · exact exact_simple hK rfl
        · exact exact_ref hK _
        · exact exact_ref hK _
        · exact exact_simple hK rfl
    | _ => exact mapped_std hK rfl ho.symm
  · exact mapped_std hK rfl ho.symm
  · obtain ⟨sl, de, h1, h2, h3, h4⟩ := ho
    exact ⟨sl, de, mapped_pair hK h1.symm, exact_barray h2, h3, exact_hasEnc hK h4⟩

end

theorem DecodeOut.not_stuck {h : List Obj} {r : Except (Limited DecodeExc) (DecDoc × EncDoc)} {x : Except (Exc ε) Val} (ho : DecodeOut h sv r x) :
    x ≠ .error .stuck := by
  rintro rfl
  rcases r with ((e | k | c) | _) | ⟨d, e⟩
  · obtain ⟨l, dd, de, h1, -⟩ := ho; cases h1
  · cases ho
  · cases ho
  · cases ho
  · obtain ⟨dd, de, h1, -⟩ := ho; cases h1

theorem EncodeOut.not_stuck {h : List Obj} {dd : Nat} {r : Except (Limited EncodeExc) (Bytes × EncDoc)} {x : Except (Exc ε) Val} (ho : EncodeOut h dd r x) :
    x ≠ .error .stuck := by
  rintro rfl
  rcases r with (e | _) | ⟨d, e⟩
  · cases e with
    | encodeError e => obtain ⟨l, de, d, h1, -⟩ := ho; cases h1
    | _ => cases ho
  · cases ho
  · obtain ⟨dd, de, h1, -⟩ := ho; cases h1

theorem fzRt_globals (hg : ∀ x, rt.globals x = none) : ∀ x, (fzRt K rt).globals x = none := fun x => by
  simp [fzRt, fzVars, hg x]

/-- A call of a function without default arguments puts the variables of the caller back. -/
theorem program_keeps (d : Def) (ds : List Def) (hd : d.defaults = []) (args : List Val) (st : St σ) :
    (program rt (d :: ds) d.name args [] st).2.vars = st.vars ∧ (program rt (d :: ds) d.name args [] st).2.locals = st.locals ∧
    (program rt (d :: ds) d.name args [] st).2.ys = st.ys := by
  rw [program_eq d ds rfl]
  refine invoke_keeps d args [] (fun st => ⟨[], ?_⟩) st
  rw [hd]; rfl

/-- **C86**: `decode(s, spec)` of decoder.py with a specification in the heap.  The bytes may be an object
of the heap too. -/
theorem decode_heap (hg : ∀ x, rt.globals x = none) (ho : ∀ xs, (rt.order xs).Perm xs) (hs : Sane rt.env) (st : St σ)
    (hp : SpecAt st.heap pv spec) (hb : BytesIn st.heap sv s) :
    ∃ (x : Except (Exc ε) Val) (h : List Obj), program rt decoderDefs .decode [sv, pv] [] st = (x, { st with heap := h }) ∧
      (∀ (l : Nat) o, st.heap[l]? = some o → h[l]? = some o) ∧ DecodeOut h sv (decodeLim rt.env spec s) x := by
  have hE : ∀ l, sv = .ref l → ¬ Refers st.heap pv l := by
    rintro l rfl hr
    obtain ⟨items, h1⟩ := hp.refers hr
    rcases hb with (hb | hb) | ⟨l', hb, h2⟩ <;> cases hb
    rw [h1] at h2; cases h2
  have hK := freeze_frozen st.heap (fun l => sv = .ref l)
  have hfz : fz (freeze st.heap fun l => sv = .ref l) sv = sv := by
    rcases hb with (rfl | rfl) | ⟨l, rfl, h2⟩
    · rfl
    · rfl
    · exact fz_kept (E := fun l' => Val.ref l = .ref l') rfl
  have hex : Exact (freeze st.heap fun l => sv = .ref l) sv := by
    rcases hb with (rfl | rfl) | ⟨l, rfl, h2⟩
    · exact exact_simple hK rfl
    · exact exact_simple hK rfl
    · exact exact_ref hK l
  have hb' : BytesIn (fzSt (freeze st.heap fun l => sv = .ref l) st).heap sv s := by
    refine hb.imp id fun ⟨l, h1, h2⟩ => ⟨l, h1, ?_⟩
    simp [fzSt, h2, fzObj]
  obtain ⟨x', h', h1, h2, h3⟩ := decode_source (rt := fzRt (freeze st.heap fun l => sv = .ref l) rt) (fzRt_globals hg) ho hs (hp.frozen hE) (fzSt _ st) hb'
  have hargs : fzs (freeze st.heap fun l => sv = .ref l) [sv, pv] = [sv, fz (freeze st.heap fun l => sv = .ref l) pv] := by
    simp only [fzs, hfz]
  rw [← hargs] at h1
  obtain ⟨x, h, g1, rfl, rfl, g4⟩ := lift_call (w := st.world) (program_keeps decodeDef _ rfl _ st) h1 h3.not_stuck
  refine ⟨x, h, g1, fun l o hl => ?_, h3.back hK hex⟩
  by_cases hE' : sv = .ref l
  · rcases hb with (hb | hb) | ⟨l', hb, h4⟩ <;> rw [hb] at hE' <;> cases hE'
    rw [hl] at h4; cases h4
    exact exact_barray (h2 l _ (by simp [fzSt, hl, fzObj]))
  · exact g4 l o hE' hl

/-! ## encode -/

theorem simple_noRef {v : Val} (h : v.simple = true) : NoRef v := fun K => by cases v <;> first | rfl | cases h

/-- **C86**: `encode(doc_dec, spec)` of encoder.py with a specification in the heap that does not refer to
the caller's dict.  The values of the dict are of any kind; objects among them are neither the dict itself
nor parts of the specification. -/
theorem encode_heap (hg : ∀ x, rt.globals x = none) (ho : ∀ xs, (rt.order xs).Perm xs)
    (hs : rt.env.maxStrDigits = 0 ∨ 640 ≤ rt.env.maxStrDigits) (st : St σ) (hp : SpecAt st.heap pv spec)
    {dd : Nat} {items : List (Val × Val)} {doc : Doc} (hd : st.heap[dd]? = some (.dict items))
    (di : DocAt st.heap (fun l => l = dd ∨ Refers st.heap pv l) items doc) (hn : ¬ Refers st.heap pv dd) :
    ∃ (x : Except (Exc ε) Val) (h : List Obj) (items' : List (Val × Val)),
      program rt encoderDefs .encode [.ref dd, pv] [] st = (x, { st with heap := h }) ∧
      (∀ (l : Nat) o, l ≠ dd → st.heap[l]? = some o → h[l]? = some o) ∧
      h[dd]? = some (.dict items') ∧ DocAt h (fun l => l = dd ∨ Refers st.heap pv l) items' (encodeLim rt.env spec doc).2 ∧ Keeps items items' ∧
      EncodeOut h dd (encodeLim rt.env spec doc).1 x := by
  have hE : ∀ l, l = dd → ¬ Refers st.heap pv l := fun l hl => hl ▸ hn
  generalize hKe : freezeFor st.heap (· = dd) (Refers st.heap pv) = K
  have hK : Frozen K st.heap st.heap := hKe ▸ freezeFor_frozen hp
  have hfz : fz K (.ref dd) = .ref dd := by simp only [fz, ← hKe, freezeFor_none (E := (· = dd)) rfl]; rfl
  have hth : ∀ l i k, K l = some (.thing i k) → ¬ (l = dd ∨ Refers st.heap pv l) := fun l i k hl => freezeFor_thing hp (hKe ▸ hl)
  obtain ⟨di', hgood⟩ := di.frozen (K := K) fun l o hl hlo => hKe ▸ freezeFor_other hl hlo
  have hd' : (fzSt K st).heap[dd]? = some (.dict (fzItems K items)) := by simp [fzSt, hd, fzObj]
  obtain ⟨x', h', items', h1, -, h3, h4, h5, h6⟩ := encode_source (rt := fzRt K rt) (fzRt_globals hg) ho hs (hKe ▸ hp.freezeFor hE) (fzSt _ st) hd' di'
  have hargs : fzs K [.ref dd, pv] = [.ref dd, fz K pv] := by simp only [fzs, hfz]
  rw [← hargs] at h1
  obtain ⟨x, h, g1, rfl, rfl, g4⟩ := lift_call_of hK (w := st.world) (program_keeps encodeDef _ rfl _ st) h1 h6.not_stuck
  have hkeep : ∀ (l : Nat) o, l ≠ dd → st.heap[l]? = some o → h[l]? = some o := fun l o hl hlo => by
    obtain ⟨v, hv⟩ := freezeFor_some (E := (· = dd)) (D := Refers st.heap pv) hl hlo
    exact g4 l o v (hKe ▸ hv) hlo
  obtain ⟨its, h7, rfl⟩ : ∃ its, h[dd]? = some (.dict its) ∧ items' = fzItems K its := by
    rw [List.getElem?_map, Option.map_eq_some_iff] at h3
    obtain ⟨o, h7, h8⟩ := h3
    cases o with
    | dict its => cases h8; exact ⟨its, h7, rfl⟩
    | _ => cases h8
  exact ⟨x, h, its, g1, hkeep, h7, (DocIs.back hK g4 hth h4).1, Keeps.back hK hgood h5, h6.back hK⟩

/-! ## pp -/

theorem DictAt.frozen {h : List Obj} {E : Nat → Prop} {v : Val} {items : List (Val × Val)} (hat : DictAt h v items) (hsh : Shallow h items) :
    DictAt (h.map (fzObj (freeze h E))) (fz (freeze h E) v) (fzItems (freeze h E) items) := by
  rcases hat with rfl | ⟨l, rfl, hl⟩
  · exact .inl rfl
  · by_cases hE : E l
    · refine .inr ⟨l, ?_, by simp [hl, fzObj]⟩
      exact fz_kept hE
    · refine .inl ?_
      rw [fz, freeze_shallow hE hl hsh]; rfl

theorem PpDocIs.frozen {h : List Obj} {E : Nat → Prop} : ∀ {items : List (Val × Val)} {doc : PpDoc}, PpDocIs h items doc → Shallow h items →
    PpDocIs (h.map (fzObj (freeze h E))) (fzItems (freeze h E) items) doc
  | [], [], _, _ => trivial
  | (a, b) :: t, q :: t', hd, hsh => by
    obtain ⟨h1, h2, h3⟩ := hd
    refine ⟨?_, ?_, PpDocIs.frozen h3 fun p hp => hsh p (by simp [hp])⟩
    · simp only [fzPair]
      rw [(hsh (a, b) (by simp)).1]
      exact h1
    · simp only [fzPair]
      simp only at h2
      rcases q with ⟨k, v⟩
      cases v with
      | str s => simp only [PpValIs] at h2 ⊢; rw [h2]; rfl
      | bytes s => simp only [PpValIs] at h2 ⊢; rw [h2]; rfl
      | other s =>
        simp only [PpValIs] at h2 ⊢
        cases b with
        | none | bool | int | barray | obj => exact h2
        | _ => cases h2
      | dict l d =>
        obtain ⟨its, h4, h5, h6⟩ := h2
        rcases (hsh (a, b) (by simp)).2 with h7 | ⟨f, its', h7, h8, h9⟩
        · simp only at h7
          rw [h7]
          rcases h4 with rfl | ⟨f, rfl, -⟩
          · exact ⟨its, .inl rfl, h5, h6⟩
          · exact absurd h7 (ref_not_noRef f)
        · simp only at h7
          subst h7
          rcases h4 with h4 | ⟨f', h4, h10⟩
          · cases h4
          · cases h4
            rw [h8] at h10; cases h10
            have := DictAt.frozen (E := E) (.inr ⟨f, rfl, h8⟩) (h9.shallow (h := h))
            rw [h9.fz] at this
            exact ⟨its, this, h5, h6⟩

theorem callS_not_stuck (m : SM ε σ Unit) (st : St σ) : (callS m st).1 ≠ .error .stuck := by
  unfold callS
  rcases m st.world with ⟨e | u, w⟩
  · intro h
    cases e with
    | pp e => cases e <;> cases h
    | _ => cases h
  · intro h; cases h

theorem excS_back {hK : Frozen K h₀ h₀} {e : StreamRaise ε} {x : Exc ε} (h : fzExc K x = excS e) : x = excS e := by
  cases e with
  | pp e => cases e <;> exact exact_std (exact_simple hK rfl) h
  | stream e =>
    cases x with
    | ext e' => exact h
    | inst c l => simp only [fzExc] at h; split at h <;> cases h
    | _ => cases h
  | _ => exact exact_std (exact_simple hK rfl) h

/-- From a call on the frozen heap that leaves it as it is. -/
theorem lift_callS {ds : List Def} {f : Ident} {args : List Val} {st : St σ} {dl : Nat} (m : SM ε σ Unit)
    (hk : (program rt ds f args [] st).2.vars = st.vars ∧ (program rt ds f args [] st).2.locals = st.locals ∧ (program rt ds f args [] st).2.ys = st.ys)
    (hd : st.heap[dl]? = some (.dict dispatchItems))
    (hr : program (fzRt (freeze st.heap (· = dl)) rt) ds f (fzs (freeze st.heap (· = dl)) args) [] (fzSt (freeze st.heap (· = dl)) st) =
      callS m (fzSt (freeze st.heap (· = dl)) st)) : program rt ds f args [] st = callS m st := by
  have hK := freeze_frozen st.heap (· = dl)
  have hns := callS_not_stuck m (fzSt (freeze st.heap (· = dl)) st)
  have hx : callS m (fzSt (freeze st.heap (· = dl)) st) =
      ((callS m (fzSt (freeze st.heap (· = dl)) st)).1, { fzSt (freeze st.heap (· = dl)) st with heap := st.heap.map (fzObj (freeze st.heap (· = dl))), world := (m st.world).2 }) := by
    unfold callS
    simp only [show (fzSt (freeze st.heap (· = dl)) st).world = st.world from rfl]
    rcases m st.world with ⟨e | u, w⟩ <;> rfl
  rw [hx] at hr
  obtain ⟨x, h, g1, g2, g3, g4⟩ := lift_call hk hr hns
  have hh : h = st.heap := by
    have hlen : h.length = st.heap.length := by simpa using (congrArg List.length g3).symm
    refine List.ext_getElem? fun l => ?_
    cases hl : st.heap[l]? with
    | none =>
      rw [List.getElem?_eq_none_iff] at hl ⊢
      omega
    | some o =>
      by_cases hE : l = dl
      · subst hE
        rw [hd] at hl; cases hl
        refine exact_dict (K := freeze st.heap (· = l)) (fun p hp => ?_) ?_
        · simp only [dispatchItems, List.mem_cons, List.not_mem_nil, or_false] at hp
          rcases hp with rfl | rfl <;> exact ⟨exact_simple hK rfl, exact_simple hK rfl⟩
        · rw [← g3, List.getElem?_map, hd]; rfl
      · exact g4 l o hE hl
  rw [g1, hh]
  unfold callS at g2 ⊢
  simp only [show (fzSt (freeze st.heap (· = dl)) st).world = st.world from rfl] at g2
  rcases hm : m st.world with ⟨e | u, w⟩ <;> rw [hm] at g2
  · simp only at g2 ⊢
    obtain ⟨e', rfl, h5⟩ := mapped_error g2
    rw [excS_back (hK := hK) h5]
  · simp only at g2 ⊢
    obtain ⟨v, rfl, h5⟩ := mapped_ok g2
    rw [exact_simple hK (v := .none) rfl v h5]

variable {dl : Nat} {items : List (Val × Val)} {doc : PpDoc}

theorem pp_keeps (args : List Val) (st : St σ) : (program rt toolsDefs .pp args [] st).2.vars = st.vars ∧ (program rt toolsDefs .pp args [] st).2.locals = st.locals ∧
    (program rt toolsDefs .pp args [] st).2.ys = st.ys := by
  rw [pp_program]
  exact invoke_keeps ppDef args [] (fun st => ⟨[.int 30, .none, .int 80], rfl⟩) st

theorem widthOf_fz {v : Val} {w : PpWidth} (h : widthOf v = some w) : fz K v = v := by cases v <;> first | rfl | cases h
theorem streamOf_fz {v : Val} {w : Option (Writer ε σ)} (h : streamOf rt v = some w) : fz K v = v ∧ streamOf (fzRt K rt) v = some w := by
  cases v <;> first | exact ⟨rfl, h⟩ | cases h

/-- **C86**: `pp` of tools.py with a specification in the heap, which does not refer to the dict of tools.py. -/
theorem pp_heap (hg : ToolsGlobals rt dl) (st : St σ) (hp : SpecAt st.heap pv spec) (hd : st.heap[dl]? = some (.dict dispatchItems)) (hn : ¬ Refers st.heap pv dl)
    (hat : DictAt st.heap docv items) (hdoc : PpDocIs st.heap items doc) (hsh : Shallow st.heap items) {dwv sv lwv : Val} {dw lw : PpWidth} {ow : Option (Writer ε σ)}
    (hdw : widthOf dwv = some dw) (hs : streamOf rt sv = some ow) (hlw : widthOf lwv = some lw) :
    program rt toolsDefs .pp [docv, pv, dwv, sv, lwv] [] st = callS (ppStream rt.env (rt.write true) doc spec dw ow lw) st ∧
    program rt toolsDefs .pp [docv, pv, dwv, sv] [] st = callS (ppStream rt.env (rt.write true) doc spec dw ow (.int 80)) st ∧
    program rt toolsDefs .pp [docv, pv, dwv] [] st = callS (ppStream rt.env (rt.write true) doc spec dw none (.int 80)) st ∧
    program rt toolsDefs .pp [docv, pv] [] st = callS (ppStream rt.env (rt.write true) doc spec (.int 30) none (.int 80)) st := by
  have hE : ∀ l, l = dl → ¬ Refers st.heap pv l := fun l hl => hl ▸ hn
  have hg' : ToolsGlobals (fzRt (freeze st.heap (· = dl)) rt) dl := by
    refine ⟨?_, fun x hx => by simp [fzRt, fzVars, hg.other x hx], hg.digits⟩
    simp only [fzRt, fzVars, hg.dispatch, Option.map_some]
    rw [fz_kept (E := (· = dl)) rfl]
  have hd' : (fzSt (freeze st.heap (· = dl)) st).heap[dl]? = some (.dict dispatchItems) := by
    simp [fzSt, hd, fzObj]; rfl
  have hat' := hat.frozen (E := (· = dl)) hsh
  have hdoc' := hdoc.frozen (E := (· = dl)) hsh
  obtain ⟨hs1, hs2⟩ := streamOf_fz (K := freeze st.heap (· = dl)) hs
  have a5 := pp_source hg' (hp.frozen hE) (fzSt _ st) hd' hat' hdoc' hdw hs2 hlw
  obtain ⟨a2, a3, a4⟩ := pp_source_defaults hg' (hp.frozen hE) (fzSt _ st) hd' hat' hdoc' hdw hs2
  refine ⟨lift_callS _ (pp_keeps _ st) hd ?_, lift_callS _ (pp_keeps _ st) hd ?_, lift_callS _ (pp_keeps _ st) hd ?_, lift_callS _ (pp_keeps _ st) hd ?_⟩
  · simp only [fzs, widthOf_fz hdw, hs1, widthOf_fz hlw]; exact a5
  · simp only [fzs, widthOf_fz hdw, hs1]; exact a4
  · simp only [fzs, widthOf_fz hdw]; exact a3
  · simp only [fzs]; exact a2

/-! ## specs.py -/

theorem specItems_get {k : Str} : ∀ (spec : Spec) (b : Nat), match spec.get? k with
    | none => lookup (specItems b spec) (.str k) = none
    | some fs => ∃ i, spec[i]? = some (k, fs) ∧ lookup (specItems b spec) (.str k) = some (.ref (b + i))
  | [], _ => rfl
  | p :: t, b => by
    have ih := specItems_get (k := k) t (b + 1)
    rw [specItems] at ih ⊢
    simp only [List.map_cons, List.length_cons, refsFrom, List.zip_cons_cons, lookup, Dict.get?, same_str, beq_iff_eq]
    by_cases h : p.1 = k
    · simp only [h, if_true]
      exact ⟨0, by rw [← h]; rfl, rfl⟩
    · simp only [h, if_false]
      cases hk : Dict.get? t k with
      | none => simpa only [hk] using ih
      | some fs =>
        simp only [hk] at ih ⊢
        obtain ⟨i, h1, h2⟩ := ih
        exact ⟨i + 1, h1, by rw [h2, Nat.add_assoc, Nat.add_comm 1]⟩

theorem specItems_mem {p : Val × Val} : ∀ {spec : Spec} {b : Nat}, p ∈ specItems b spec → ∃ i q, spec[i]? = some q ∧ p = (.str q.1, .ref (b + i))
  | [], _, h => by cases h
  | q :: t, b, h => by
    rw [specItems] at h
    simp only [List.map_cons, List.length_cons, refsFrom, List.zip_cons_cons, List.mem_cons] at h
    rcases h with rfl | h
    · exact ⟨0, q, rfl, rfl⟩
    · obtain ⟨i, r, h1, h2⟩ := specItems_mem (spec := t) (b := b + 1) h
      exact ⟨i + 1, r, h1, by rw [h2, Nat.add_assoc, Nat.add_comm 1]⟩

theorem fieldObj_flat (fs : FieldSpec) : ∃ its, fieldObj fs = .dict its ∧ Flat its ∧ (Plain fs = true → FieldVal (.dict its) fs) := by
  refine ⟨_, rfl, fun p hp => ?_, fun h => ?_⟩
  · simp only [List.mem_cons, List.not_mem_nil, or_false] at hp
    rcases hp with rfl | rfl | rfl | rfl | rfl <;> exact ⟨fun _ => rfl, fun _ => rfl⟩
  · obtain ⟨a, b, c, d, e, f, g, i⟩ := fs
    simp only [Plain, Bool.and_eq_true, Option.isNone_iff_eq_none] at h
    obtain ⟨⟨⟨hi, rfl⟩, rfl⟩, rfl⟩ := h
    cases i with
    | none => cases hi
    | some i => exact ⟨_, rfl, by simp [lookup, same_str]⟩

/-- The objects a dict display of a specification makes. -/
theorem specAt_after {spec : Spec} {h g : List Obj} (h2 : ∀ p ∈ spec, Plain p.2 = true) :
    SpecAt (h ++ (spec.map fun p => fieldObj p.2) ++ [.dict (specItems h.length spec)] ++ g) (.ref (h.length + spec.length)) spec ∧
    ∀ l, Refers (h ++ (spec.map fun p => fieldObj p.2) ++ [.dict (specItems h.length spec)] ++ g) (.ref (h.length + spec.length)) l → h.length ≤ l := by
  have hl : (h ++ (spec.map fun p => fieldObj p.2) ++ [.dict (specItems h.length spec)] ++ g)[h.length + spec.length]? = some (.dict (specItems h.length spec)) := by
    rw [List.getElem?_append_left (by simp), List.getElem?_append_right (by simp)]
    simp
  have hf : ∀ i p, spec[i]? = some p → (h ++ (spec.map fun p => fieldObj p.2) ++ [.dict (specItems h.length spec)] ++ g)[h.length + i]? = some (fieldObj p.2) := by
    intro i p hp
    obtain ⟨hi, -⟩ := List.getElem?_eq_some_iff.1 hp
    rw [List.getElem?_append_left (by simp; omega), List.getElem?_append_left (by simp; omega), List.getElem?_append_right (by simp)]
    simp [hp]
  generalize h ++ (spec.map fun p => fieldObj p.2) ++ [.dict (specItems h.length spec)] ++ g = H at hl hf ⊢
  refine ⟨⟨_, _, rfl, hl, fun p hp => ?_, fun k => ?_⟩, fun l hr => ?_⟩
  · obtain ⟨i, q, h3, rfl⟩ := specItems_mem hp
    obtain ⟨its, h4, h5, -⟩ := fieldObj_flat q.2
    exact ⟨fun _ => rfl, .inr ⟨_, its, rfl, h4 ▸ hf i q h3, h5⟩⟩
  · have := specItems_get (k := k) spec h.length
    cases hk : spec.get? k with
    | none => simpa only [hk] using this
    | some fs =>
      simp only [hk] at this ⊢
      obtain ⟨i, h3, h4⟩ := this
      obtain ⟨its, h5, -, h6⟩ := fieldObj_flat fs
      exact ⟨_, its, h4, h5 ▸ hf i _ h3, h6 (h2 _ (List.mem_of_getElem? h3))⟩
  · rcases hr with hr | ⟨i, items, k, hi, h3, h4⟩
    · cases hr; omega
    · cases hi
      rw [hl] at h3; cases h3
      obtain ⟨i, q, -, h5⟩ := specItems_mem h4
      cases h5; omega

/-- **C86**: importing specs.py makes two specifications in the heap, of new objects only. -/
theorem specs_heap {call : Caller ε σ} (st : St σ) : ∃ (a b : Nat) (h : List Obj),
    execs rt call specsModule st = (.ok .next, { st with vars := (st.vars.set .default (.ref a)).set .default_ascii (.ref b), heap := h }) ∧
    (∀ (l : Nat) o, st.heap[l]? = some o → h[l]? = some o) ∧
    SpecAt h (.ref a) defaultSpec ∧ SpecAt h (.ref b) defaultAsciiSpec ∧
    ∀ l, Refers h (.ref a) l ∨ Refers h (.ref b) l → st.heap.length ≤ l := by
  have e1 := exec_spec (rt := rt) (call := call) .default defaultSpec shipped_noDup.1 st
  generalize hst1 : ({ st with vars := st.vars.set .default (.ref (st.heap.length + defaultSpec.length)), heap := st.heap ++ (defaultSpec.map fun p => fieldObj p.2) ++ [.dict (specItems st.heap.length defaultSpec)] } : St σ) = st1 at e1
  have e2 := exec_spec (rt := rt) (call := call) .default_ascii defaultAsciiSpec shipped_noDup.2 st1
  have hA := specAt_after (spec := defaultSpec) (h := st.heap) (g := (defaultAsciiSpec.map fun p => fieldObj p.2) ++ [.dict (specItems st1.heap.length defaultAsciiSpec)]) shipped_plain.1
  have hB := specAt_after (spec := defaultAsciiSpec) (h := st1.heap) (g := []) shipped_plain.2
  rw [List.append_nil] at hB
  have hle : st.heap.length ≤ st1.heap.length := by subst hst1; simp
  rw [show st.heap ++ (defaultSpec.map fun p => fieldObj p.2) ++ [.dict (specItems st.heap.length defaultSpec)] ++
      ((defaultAsciiSpec.map fun p => fieldObj p.2) ++ [.dict (specItems st1.heap.length defaultAsciiSpec)]) =
    st1.heap ++ (defaultAsciiSpec.map fun p => fieldObj p.2) ++ [.dict (specItems st1.heap.length defaultAsciiSpec)] by
      subst hst1; simp only [List.append_assoc]] at hA
  refine ⟨st.heap.length + defaultSpec.length, st1.heap.length + defaultAsciiSpec.length,
    st1.heap ++ (defaultAsciiSpec.map fun p => fieldObj p.2) ++ [.dict (specItems st1.heap.length defaultAsciiSpec)], ?_, ?_, hA.1, hB.1, ?_⟩
  · rw [specsModule, specs1_eq, specs2_eq]
    simp only [execs, PyM.run_bind, e1, e2, PyM.run_pure]
    subst hst1
    rfl
  · intro l o hl
    obtain ⟨hi, -⟩ := List.getElem?_eq_some_iff.1 hl
    subst hst1
    simp only [List.append_assoc]
    rw [List.getElem?_append_left hi]
    exact hl
  · rintro l (hl | hl)
    · exact hA.2 l hl
    · exact Nat.le_trans hle (hB.2 l hl)

/-! ## One after the other -/

theorem dispatch_ne {h : List Obj} {D : Nat → Prop} {items : List (Val × Val)} {doc : Doc} (di : DocAt h D items doc) : items ≠ dispatchItems := by
  rintro rfl
  cases doc with
  | nil => exact di
  | cons q t => exact absurd di.1 (by simp [keyOf])

theorem hasDec_shallow {h : List Obj} {l : Nat} {d : DecDoc} (hd : HasDec h l d) :
    ∃ items, DictAt h (.ref l) items ∧ PpDocIs h items (printDec d) ∧ Shallow h items := by
  refine ⟨_, .inr ⟨l, rfl, hd⟩, ?_, fun p hp => ?_⟩
  · clear hd
    induction d with
    | nil => trivial
    | cons p t ih => exact ⟨rfl, rfl, ih⟩
  · obtain ⟨q, -, rfl⟩ := List.mem_map.1 hp
    exact ⟨fun _ => rfl, .inl fun _ => rfl⟩

theorem hasEnc_shallow {h : List Obj} {l : Nat} {d : EncDoc} (nd : d.NoDup) (hd : HasEnc h l d) :
    ∃ items, DictAt h (.ref l) items ∧ PpDocIs h items (printEnc d) ∧ Shallow h items := by
  obtain ⟨loc, h1, h2, -⟩ := hd
  refine ⟨_, .inr ⟨l, rfl, h1⟩, ?_, fun p hp => ?_⟩
  · clear h1
    induction d with
    | nil => trivial
    | cons p t ih =>
      simp only [Dict.NoDup, Dict.keys, List.map_cons, List.nodup_cons] at nd
      refine ⟨rfl, ⟨_, .inr ⟨loc p.1, rfl, h2 p.1 p.2 (by simp [Dict.get?])⟩, rfl, rfl⟩, ih nd.2 fun k e hk => h2 k e ?_⟩
      have : p.1 ≠ k := by
        rintro rfl
        exact nd.1 (Dict.mem_keys_iff.2 ⟨e, hk⟩)
      simpa [Dict.get?, this] using hk
  · obtain ⟨q, hq, rfl⟩ := List.mem_map.1 hp
    refine ⟨fun _ => rfl, .inr ⟨loc q.1, _, rfl, h2 q.1 q.2 (Dict.get?_of_mem nd hq), fun p hp => ?_⟩⟩
    simp only [List.mem_cons, List.not_mem_nil, or_false] at hp
    rcases hp with rfl | rfl <;> exact ⟨fun _ => rfl, fun _ => rfl⟩

/-- **C86** (one after the other): with a specification in the heap, `encode` of encoder.py returns a bytearray, `decode` of
decoder.py takes this very object, and `pp` of tools.py prints both dicts `decode` returns.  All three use
the same specification object, which is as it was in the end, and so is every other object but the
caller's dict.  `rt` is the runtime of encoder.py and decoder.py; tools.py has its `_dispatch` at `dl`. -/
theorem session_heap (hg : ∀ x, rt.globals x = none) (ho : ∀ xs, (rt.order xs).Perm xs) (hs : Sane rt.env) (hl : SpecLaws rt.env spec)
    (st : St σ) (hp : SpecAt st.heap pv spec) {dd : Nat} {items : List (Val × Val)} {doc doc' : Doc} {enc : EncDoc}
    (hd : st.heap[dd]? = some (.dict items)) (di : DocAt st.heap (fun l => l = dd ∨ Refers st.heap pv l) items doc) (hn : ¬ Refers st.heap pv dd)
    (ht : st.heap[dl]? = some (.dict dispatchItems)) (hnt : ¬ Refers st.heap pv dl) (he : encode rt.env spec doc = (.ok (s, enc), doc')) :
    ∃ (sl de dd2 de2 : Nat) (h1 h2 : List Obj) (dec : DecDoc),
      program rt encoderDefs .encode [.ref dd, pv] [] st = (.ok (.tuple [.ref sl, .ref de]), { st with heap := h1 }) ∧ h1[sl]? = some (.barray s) ∧
      program rt decoderDefs .decode [.ref sl, pv] [] { st with heap := h1 } = (.ok (.tuple [.ref dd2, .ref de2]), { st with heap := h2 }) ∧
      (dec.keys = enc.keys ∧ ∀ k ∈ enc.keys, ∃ fs v, spec.get? k = some fs ∧ doc'.get? (.str k) = some v ∧ dec.get? k = some (readBack fs v)) ∧
      program { rt with globals := Vars.set (fun _ => none) ._dispatch (.ref dl) } toolsDefs .pp [.ref dd2, pv] [] { st with heap := h2 } =
        callS (ppStream rt.env (rt.write true) (printDec dec) spec (.int 30) none (.int 80)) { st with heap := h2 } ∧
      program { rt with globals := Vars.set (fun _ => none) ._dispatch (.ref dl) } toolsDefs .pp [.ref de2, pv] [] { st with heap := h2 } =
        callS (ppStream rt.env (rt.write true) (printEnc enc) spec (.int 30) none (.int 80)) { st with heap := h2 } ∧
      SpecAt h2 pv spec ∧ ∀ (l : Nat) o, l ≠ dd → st.heap[l]? = some o → h2[l]? = some o := by
  obtain ⟨x, h1, items', a1, a2, -, -, -, a3⟩ := encode_heap hg ho hs.digits st hp hd di hn
  have hr : encodeLim rt.env spec doc = (.ok (s, enc), doc') := by rw [encodeLim, he]
  rw [hr] at a3
  obtain ⟨sl, de, rfl, a4, -⟩ := a3
  have hp1 : SpecAt h1 pv spec := hp.mono fun l o hr => a2 l o fun hl => hn (hl ▸ hr)
  obtain ⟨dec, b1, b2, b3⟩ := encode_decode hl he
  obtain ⟨x, h2, c1, c2, c3⟩ := decode_heap hg ho hs { st with heap := h1 } hp1 (.inr ⟨sl, rfl, a4⟩)
  rw [decodeLim_ok.2 b1] at c3
  obtain ⟨dd2, de2, rfl, -, c4, c5⟩ := c3
  have hkeep : ∀ (l : Nat) o, l ≠ dd → st.heap[l]? = some o → h2[l]? = some o := fun l o hne hl => c2 l o (a2 l o hne hl)
  have hp2 : SpecAt h2 pv spec := hp.mono fun l o hr => hkeep l o fun hl => hn (hl ▸ hr)
  have hne : dl ≠ dd := by
    rintro rfl
    rw [ht] at hd; cases hd
    exact dispatch_ne di rfl
  have hnt2 : ¬ Refers h2 pv dl := by
    intro hr
    obtain ⟨l, its, rfl, g1, -⟩ := hp
    rcases hr with hr | ⟨i, its', k, hi, g2, g3⟩
    · exact hnt (.inl hr)
    · cases hi
      rw [hkeep l _ (fun e => hn (.inl (by rw [e]))) g1] at g2; cases g2
      exact hnt (.inr ⟨l, its, k, rfl, g1, g3⟩)
  have hgt : ToolsGlobals { rt with globals := Vars.set (fun _ => none) ._dispatch (.ref dl) } dl := ⟨by simp [src], fun x hx => by simp [src, hx], hs.digits⟩
  obtain ⟨i1, d1, d2, d3⟩ := hasDec_shallow c4
  obtain ⟨i2, e1, e2, e3⟩ := hasEnc_shallow (by unfold Dict.NoDup; rw [← b2]; exact (decode_entries b1).2.1) c5
  refine ⟨sl, de, dd2, de2, h1, h2, dec, a1, a4, c1, ⟨b2, b3⟩, ?_, ?_, hp2, hkeep⟩
  · exact (pp_heap (dwv := .int 30) (sv := .none) (lwv := .int 80) hgt { st with heap := h2 } hp2 (hkeep dl _ hne ht) hnt2 d1 d2 d3 rfl rfl rfl).2.2.2
  · exact (pp_heap (dwv := .int 30) (sv := .none) (lwv := .int 80) hgt { st with heap := h2 } hp2 (hkeep dl _ hne ht) hnt2 e1 e2 e3 rfl rfl rfl).2.2.2

/-- **C86** (the shipped specifications): specs.py is imported, then the three functions are called with one of the dicts
it made. -/
theorem shipped_session {call : Caller ε σ} (hg : ∀ x, rt.globals x = none) (ho : ∀ xs, (rt.order xs).Perm xs) (hs : Sane rt.env)
    (ha : rt.env.codec py"ascii" = some asciiCodec) (st : St σ) {dd : Nat} {items : List (Val × Val)} {doc : Doc}
    (hd : st.heap[dd]? = some (.dict items)) (di : DocAt st.heap (· = dd) items doc) (ht : st.heap[dl]? = some (.dict dispatchItems)) :
    ∃ (st0 : St σ) (va vb : Val), execs rt call specsModule st = (.ok .next, st0) ∧ st0.vars .default = some va ∧ st0.vars .default_ascii = some vb ∧
      ∀ pv spec, (pv = va ∧ spec = defaultSpec) ∨ (pv = vb ∧ spec = defaultAsciiSpec) →
        ∀ s enc doc', encode rt.env spec doc = (.ok (s, enc), doc') →
        ∃ (sl de dd2 de2 : Nat) (h1 h2 : List Obj) (dec : DecDoc),
          program rt encoderDefs .encode [.ref dd, pv] [] st0 = (.ok (.tuple [.ref sl, .ref de]), { st0 with heap := h1 }) ∧ h1[sl]? = some (.barray s) ∧
          program rt decoderDefs .decode [.ref sl, pv] [] { st0 with heap := h1 } = (.ok (.tuple [.ref dd2, .ref de2]), { st0 with heap := h2 }) ∧
          (dec.keys = enc.keys ∧ ∀ k ∈ enc.keys, ∃ fs v, spec.get? k = some fs ∧ doc'.get? (.str k) = some v ∧ dec.get? k = some (readBack fs v)) ∧
          program { rt with globals := Vars.set (fun _ => none) ._dispatch (.ref dl) } toolsDefs .pp [.ref dd2, pv] [] { st0 with heap := h2 } =
            callS (ppStream rt.env (rt.write true) (printDec dec) spec (.int 30) none (.int 80)) { st0 with heap := h2 } ∧
          program { rt with globals := Vars.set (fun _ => none) ._dispatch (.ref dl) } toolsDefs .pp [.ref de2, pv] [] { st0 with heap := h2 } =
            callS (ppStream rt.env (rt.write true) (printEnc enc) spec (.int 30) none (.int 80)) { st0 with heap := h2 } := by
  obtain ⟨a, b, h, g1, g2, g3, g4, g5⟩ := specs_heap (rt := rt) (call := call) st
  refine ⟨_, _, _, g1, rfl, rfl, ?_⟩
  have lt : ∀ (l : Nat) o, st.heap[l]? = some o → ¬ st.heap.length ≤ l := fun l o hl => by
    obtain ⟨hi, -⟩ := List.getElem?_eq_some_iff.1 hl
    omega
  have hdig : rt.env.maxStrDigits = 0 ∨ 8 ≤ rt.env.maxStrDigits := by have := hs.digits; omega
  have later : ∀ {F : Nat → Prop}, (∀ l, F l → st.heap.length ≤ l) → DocAt h (fun l => l = dd ∨ F l) items doc := fun hF =>
    di.later g2 fun l o hl => fun hf => lt l o hl (hF l hf)
  rintro pv spec (⟨rfl, rfl⟩ | ⟨rfl, rfl⟩) s enc doc' he
  · obtain ⟨sl, de, dd2, de2, h1, h2, dec, k1, k2, k3, k4, k5, k6, -⟩ := session_heap hg ho hs (wellFormed_laws default_wellFormed ha hdig)
      { st with vars := (st.vars.set .default (.ref a)).set .default_ascii (.ref b), heap := h } g3 (g2 dd _ hd) (later fun l hl => g5 l (.inl hl))
      (fun hr => lt _ _ hd (g5 _ (.inl hr))) (g2 dl _ ht) (fun hr => lt _ _ ht (g5 _ (.inl hr))) he
    exact ⟨sl, de, dd2, de2, h1, h2, dec, k1, k2, k3, k4, k5, k6⟩
  · obtain ⟨sl, de, dd2, de2, h1, h2, dec, k1, k2, k3, k4, k5, k6, -⟩ := session_heap hg ho hs (wellFormed_laws defaultAscii_wellFormed ha hdig)
      { st with vars := (st.vars.set .default (.ref a)).set .default_ascii (.ref b), heap := h } g4 (g2 dd _ hd) (later fun l hl => g5 l (.inr hl))
      (fun hr => lt _ _ hd (g5 _ (.inr hr))) (g2 dl _ ht) (fun hr => lt _ _ ht (g5 _ (.inr hr))) he
    exact ⟨sl, de, dd2, de2, h1, h2, dec, k1, k2, k3, k4, k5, k6⟩

/-! ## The hypotheses are met -/

/-- A heap with a specification: the property dicts, and the dict of them. -/
def heapOf (spec : Spec) : List Obj := (spec.map fun p => fieldObj p.2) ++ [.dict (specItems 0 spec)]

theorem heapOf_spec {spec : Spec} (h2 : ∀ p ∈ spec, Plain p.2 = true) (g : List Obj) : SpecAt (heapOf spec ++ g) (.ref spec.length) spec := by
  have := (specAt_after (h := []) (g := g) h2).1
  simpa [heapOf] using this

/-- A specification with a fixed header, a type, a bitmap and one field. -/
def heapSpec : Spec := [
  (py"h", { dataEnc := py"ascii", lenEnc := py"ascii", lenType := 0, maxLen := 2, desc := some py"Header" }),
  (py"t", { dataEnc := py"b", lenEnc := py"ascii", lenType := 0, maxLen := 2, desc := some py"Type" }),
  (py"p", { dataEnc := py"b", lenEnc := py"ascii", lenType := 0, maxLen := 8, desc := some py"Bitmap" }),
  (py"3", { dataEnc := py"cp500", lenEnc := py"b", lenType := 1, maxLen := 9, desc := some py"Code" })]

/-- A message for it. -/
def heapMsg : Bytes := [0x48, 0x44, 0x02, 0x00, 0x20, 0, 0, 0, 0, 0, 0, 0, 0x03, 0xF1, 0xF2, 0xF3]

/-- `decode`, when the specification is at 4 and a bytearray with the message is at 5. -/
example (st : St Unit) (hh : st.heap = heapOf heapSpec ++ [.barray heapMsg]) : ∃ (dd de : Nat) (h : List Obj),
    program plainRt decoderDefs .decode [.ref 5, .ref 4] [] st = (.ok (.tuple [.ref dd, .ref de]), { st with heap := h }) ∧ h[5]? = some (.barray heapMsg) ∧
    HasDec h dd [(py"h", py"HD"), (py"t", py"0200"), (py"p", py"2000000000000000"), (py"3", py"123")] := by
  have hb : st.heap[5]? = some (.barray heapMsg) := by rw [hh]; rfl
  obtain ⟨x, h, h1, h2, h3⟩ := decode_heap (rt := plainRt) (pv := .ref 4) (sv := .ref 5) (fun _ => rfl) (fun _ => .refl _) cpython_sane st
    (hh ▸ heapOf_spec (spec := heapSpec) (by decide) _) (.inr ⟨5, rfl, hb⟩)
  have hr : decodeLim plainRt.env heapSpec heapMsg = .ok ([(py"h", py"HD"), (py"t", py"0200"), (py"p", py"2000000000000000"), (py"3", py"123")],
    [(py"h", ⟨[], [0x48, 0x44]⟩), (py"t", ⟨[], [2, 0]⟩), (py"p", ⟨[], [0x20, 0, 0, 0, 0, 0, 0, 0]⟩), (py"3", ⟨[3], [0xF1, 0xF2, 0xF3]⟩)]) := by decide +kernel
  rw [hr] at h3
  obtain ⟨dd, de, rfl, -, h4, -⟩ := h3
  exact ⟨dd, de, h, h1, h2 5 _ hb, h4⟩

/-- `encode` without the header the specification asks for: the exception has the caller's dict. -/
example (st : St Unit) (hh : st.heap = heapOf heapSpec ++ [.dict [(.str py"t", .str py"0200")]]) : ∃ (l de : Nat) (h : List Obj),
    program plainRt encoderDefs .encode [.ref 5, .ref 4] [] st = (.error (.inst .EncodeError l), { st with heap := h }) ∧
    h[l]? = some (.inst .EncodeError [.str py"Field data is required according to specifications: field h"] [(.msg, .str py"Field data is required according to specifications"), (.doc_dec, .ref 5), (.doc_enc, .ref de), (.field, .str py"h")]) := by
  have hd : st.heap[5]? = some (.dict [(.str py"t", .str py"0200")]) := by rw [hh]; rfl
  have hn : ¬ Refers st.heap (.ref 4) 5 := by
    rintro (h | ⟨i, items, k, h1, h2, h3⟩)
    · cases h
    · cases h1
      rw [hh] at h2
      cases h2
      obtain ⟨i, q, h4, h5⟩ := specItems_mem h3
      have h6 : 5 = 0 + i := by simpa using congrArg Prod.snd h5
      rw [← Nat.zero_add i, ← h6] at h4
      cases h4
  obtain ⟨x, h, items', h1, -, -, -, -, h3⟩ := encode_heap (rt := plainRt) (pv := .ref 4) (doc := [(.str py"t", .str py"0200")]) (fun _ => rfl) (fun _ => .refl _) cpython_sane.digits st
    (hh ▸ heapOf_spec (spec := heapSpec) (by decide) _) hd ⟨rfl, rfl, nofun, trivial⟩ hn
  have hr : (encodeLim plainRt.env heapSpec [(.str py"t", .str py"0200")]).1 = .error (.exc (.encodeError ⟨.requiredBySpec, [(.str py"t", .str py"0200")], [], py"h"⟩)) := by decide +kernel
  rw [hr] at h3
  obtain ⟨l, de, d, rfl, hm, h4, -⟩ := h3
  cases hm (by decide)
  exact ⟨l, de, h, h1, h4⟩

theorem docVal_simple (doc : Doc) : ∀ p ∈ docVal doc, p.2.simple = true := by
  intro p hp
  obtain ⟨⟨k, v⟩, -, rfl⟩ := List.mem_map.1 hp
  cases v <;> rfl

/-- specs.py is imported into an interpreter with a dict for the shipped specifications, which is encoded,
decoded and printed with `default_ascii`. -/
example (call : Caller String (List (Bool × Str))) (st : St (List (Bool × Str))) (hd : st.heap[0]? = some (.dict dispatchItems)) (hd1 : st.heap[1]? = some (.dict (docVal shippedDoc))) :
    ∃ (st0 : St (List (Bool × Str))) (vb : Val) (sl de dd2 de2 : Nat) (h1 h2 : List Obj) (dec : DecDoc),
      execs { recordRt 0 with globals := fun _ => none } call specsModule st = (.ok .next, st0) ∧ st0.vars .default_ascii = some vb ∧
      program { recordRt 0 with globals := fun _ => none } encoderDefs .encode [.ref 1, vb] [] st0 = (.ok (.tuple [.ref sl, .ref de]), { st0 with heap := h1 }) ∧
      program { recordRt 0 with globals := fun _ => none } decoderDefs .decode [.ref sl, vb] [] { st0 with heap := h1 } = (.ok (.tuple [.ref dd2, .ref de2]), { st0 with heap := h2 }) ∧
      program (recordRt 0) toolsDefs .pp [.ref dd2, vb] [] { st0 with heap := h2 } =
        callS (ppStream cpython ((recordRt 0).write true) (printDec dec) defaultAsciiSpec (.int 30) none (.int 80)) { st0 with heap := h2 } := by
  obtain ⟨st0, va, vb, g1, g2, g3, g4⟩ := shipped_session (rt := { recordRt 0 with globals := fun _ => none }) (call := call) (dl := 0) (fun _ => rfl) (fun _ => .refl _) cpython_sane rfl
    st hd1 ((docVal_is shippedDoc).docAt (docVal_simple _)) hd
  have hr : ∃ s enc doc', encode cpython defaultAsciiSpec shippedDoc = (.ok (s, enc), doc') := by
    have h : (encode cpython defaultAsciiSpec shippedDoc).1.isOk = true := by decide +kernel
    rcases hr : encode cpython defaultAsciiSpec shippedDoc with ⟨e | ⟨s, enc⟩, d⟩
    · rw [hr] at h; cases h
    · exact ⟨s, enc, d, rfl⟩
  obtain ⟨s, enc, doc', hr⟩ := hr
  obtain ⟨sl, de, dd2, de2, h1, h2, dec, k1, -, k3, -, k5, -⟩ := g4 vb defaultAsciiSpec (.inr ⟨rfl, rfl⟩) s enc doc' hr
  exact ⟨st0, vb, sl, de, dd2, de2, h1, h2, dec, g1, g3, k1, k3, k5⟩

end Iso8583.Src
