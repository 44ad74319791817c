import Verif.Props.SourceHeap
/-!
# C90: any sequence of calls

A program that imports the package, makes objects of its own, changes them, and calls `decode`, `encode` and
`pp` in any order and as often as it likes, with results of earlier calls among the arguments.  As long as it
leaves the specifications alone, every call does what the model says about the contents its arguments have at
that time; what was called before plays no part.
-/

namespace Iso8583.Src

variable {ε σ : Type} {rt : Rt ε σ}

/-- What a program does next. -/
inductive Cmd
  /-- Call `decode(s, spec)`. -/
  | decode (s spec : Val)
  /-- Call `encode(doc, spec)` with the dict at `doc`. -/
  | encode (doc : Nat) (spec : Val)
  /-- Call `pp(doc, spec, desc_width, stream, line_width)`. -/
  | pp (doc spec descWidth stream lineWidth : Val)
  /-- Make a new object. -/
  | make (o : Obj)
  /-- Change the object at `l` in any way. -/
  | change (l : Nat) (o : Obj)

/-- The runtime of tools.py: its variable `_dispatch` is the dict at `dl`. -/
def toolsRt (rt : Rt ε σ) (dl : Nat) : Rt ε σ := { rt with globals := Vars.set (fun _ => none) ._dispatch (.ref dl) }

/-- One step: the text of the package is run, or the program acts itself. -/
def step (rt : Rt ε σ) (dl : Nat) : Cmd → St σ → Except (Exc ε) Val × St σ
  | .decode sv pv, st => program rt decoderDefs .decode [sv, pv] [] st
  | .encode dd pv, st => program rt encoderDefs .encode [.ref dd, pv] [] st
  | .pp docv pv dwv sv lwv, st => program (toolsRt rt dl) toolsDefs .pp [docv, pv, dwv, sv, lwv] [] st
  | .make o, st => (.ok (.ref st.heap.length), { st with heap := st.heap ++ [o] })
  | .change l o, st => (.ok .none, { st with heap := st.heap.set l o })

/-- One step of a session: the state before, what was done, what came of it, the state after. -/
structure Event (ε σ : Type) where
  before : St σ
  cmd : Cmd
  result : Except (Exc ε) Val
  after : St σ

/-- The steps of a session, one after the other. -/
def events (rt : Rt ε σ) (dl : Nat) : List Cmd → St σ → List (Event ε σ)
  | [], _ => []
  | c :: cs, st => ⟨st, c, (step rt dl c st).1, (step rt dl c st).2⟩ :: events rt dl cs (step rt dl c st).2

/-- The objects the program must leave alone: the specifications it uses, with the dicts of their fields,
and the table of tools.py. -/
def Guarded (h : List Obj) (specs : List (Val × Spec)) (dl : Nat) (l : Nat) : Prop := l = dl ∨ ∃ p ∈ specs, Refers h p.1 l

/-- The arguments are of the right kind at this time, and the program leaves the guarded objects alone.
Nothing is asked about the contents of the specification. -/
def Proper (G : Nat → Prop) (specs : List (Val × Spec)) (rt : Rt ε σ) (st : St σ) : Cmd → Prop
  | .decode sv pv => (∃ spec, (pv, spec) ∈ specs) ∧ ∃ s, BytesIn st.heap sv s
  | .encode dd pv => (∃ spec, (pv, spec) ∈ specs) ∧
      (∃ items doc, st.heap[dd]? = some (.dict items) ∧ DocAt st.heap (fun l => l = dd ∨ Refers st.heap pv l) items doc) ∧ ¬ G dd
  | .pp docv pv dwv sv lwv => (∃ spec, (pv, spec) ∈ specs) ∧ (∃ items doc, DictAt st.heap docv items ∧ PpDocIs st.heap items doc ∧ Shallow st.heap items) ∧
      (∃ dw, widthOf dwv = some dw) ∧ (∃ ow, streamOf rt sv = some ow) ∧ ∃ lw, widthOf lwv = some lw
  | .make _ => True
  | .change l _ => ¬ G l

/-- The objects a step may change. -/
def Touches : Cmd → Nat → Prop
  | .encode dd _, l => l = dd
  | .change k _, l => l = k
  | _, _ => False

/-- What the model says about a step. -/
def Answered (specs : List (Val × Spec)) (rt : Rt ε σ) (e : Event ε σ) : Prop :=
  match e.cmd with
  | .decode sv pv => ∀ spec s, (pv, spec) ∈ specs → BytesIn e.before.heap sv s →
      ∃ h, e.after = { e.before with heap := h } ∧ DecodeOut h sv (decodeLim rt.env spec s) e.result
  | .encode dd pv => ∀ spec items doc, (pv, spec) ∈ specs → e.before.heap[dd]? = some (.dict items) →
      DocAt e.before.heap (fun l => l = dd ∨ Refers e.before.heap pv l) items doc →
      ∃ h items', e.after = { e.before with heap := h } ∧ h[dd]? = some (.dict items') ∧
        DocAt h (fun l => l = dd ∨ Refers e.before.heap pv l) items' (encodeLim rt.env spec doc).2 ∧
        Keeps items items' ∧ EncodeOut h dd (encodeLim rt.env spec doc).1 e.result
  | .pp docv pv dwv sv lwv => ∀ spec items doc dw ow lw, (pv, spec) ∈ specs → DictAt e.before.heap docv items → PpDocIs e.before.heap items doc →
      Shallow e.before.heap items → widthOf dwv = some dw → streamOf rt sv = some ow → widthOf lwv = some lw →
      (e.result, e.after) = callS (ppStream rt.env (rt.write true) doc spec dw ow lw) e.before
  | _ => True

/-- The specifications and the table are where the program starts. -/
structure Ready (h : List Obj) (specs : List (Val × Spec)) (dl : Nat) : Prop where
  spec : ∀ p ∈ specs, SpecAt h p.1 p.2
  table : h[dl]? = some (.dict dispatchItems)
  apart : ∀ p ∈ specs, ¬ Refers h p.1 dl

theorem refers_back {h h' : List Obj} {pv : Val} {spec : Spec} (hp : SpecAt h pv spec) (hk : ∀ l o, Refers h pv l → h[l]? = some o → h'[l]? = some o)
    {l : Nat} (hr : Refers h' pv l) : Refers h pv l := by
  obtain ⟨a, its, rfl, g1, -⟩ := hp
  rcases hr with hr | ⟨i, its', k, hi, g2, g3⟩
  · exact .inl hr
  · cases hi
    rw [hk a _ (.inl rfl) g1] at g2; cases g2
    exact .inr ⟨a, its, k, rfl, g1, g3⟩

theorem Ready.keep {h h' : List Obj} {specs : List (Val × Spec)} {dl : Nat} (hr : Ready h specs dl)
    (hk : ∀ l o, Guarded h specs dl l → h[l]? = some o → h'[l]? = some o) : Ready h' specs dl where
  spec p hp := (hr.spec p hp).mono fun l o hl => hk l o (.inr ⟨p, hp, hl⟩)
  table := hk dl _ (.inl rfl) hr.table
  apart p hp hl := hr.apart p hp (refers_back (hr.spec p hp) (fun l o hl => hk l o (.inr ⟨p, hp, hl⟩)) hl)

theorem guarded_back {h h' : List Obj} {specs : List (Val × Spec)} {dl : Nat} (hr : Ready h specs dl)
    (hk : ∀ l o, Guarded h specs dl l → h[l]? = some o → h'[l]? = some o) {l : Nat} (hl : Guarded h' specs dl l) : Guarded h specs dl l := by
  rcases hl with hl | ⟨p, hp, hl⟩
  · exact .inl hl
  · exact .inr ⟨p, hp, refers_back (hr.spec p hp) (fun l o hl => hk l o (.inr ⟨p, hp, hl⟩)) hl⟩

theorem toolsRt_globals (hs : Sane rt.env) (dl : Nat) : ToolsGlobals (toolsRt rt dl) dl :=
  ⟨by simp [toolsRt, src], fun x hx => by simp [toolsRt, src, hx], hs.digits⟩

/-- One step from a state where the specifications are in place. -/
theorem step_answered (hg : ∀ x, rt.globals x = none) (ho : ∀ xs, (rt.order xs).Perm xs) (hs : Sane rt.env) {specs : List (Val × Spec)} {dl : Nat}
    (st : St σ) (hr : Ready st.heap specs dl) (c : Cmd) (hc : Proper (Guarded st.heap specs dl) specs rt st c) :
    Answered specs rt ⟨st, c, (step rt dl c st).1, (step rt dl c st).2⟩ ∧
    ∀ (l : Nat) o, ¬ Touches c l → st.heap[l]? = some o → (step rt dl c st).2.heap[l]? = some o := by
  cases c with
  | decode sv pv =>
    constructor
    · intro spec s hp hb
      obtain ⟨x, h, h1, -, h3⟩ := decode_heap hg ho hs st (hr.spec _ hp) hb
      simp only [step, h1]
      exact ⟨h, rfl, h3⟩
    · obtain ⟨⟨spec, hp⟩, s, hb⟩ := hc
      obtain ⟨x, h, h1, h2, -⟩ := decode_heap hg ho hs st (hr.spec _ hp) hb
      intro l o _ hl
      simp only [step, h1]
      exact h2 l o hl
  | encode dd pv =>
    obtain ⟨⟨spec, hp⟩, ⟨items, doc, hd, di⟩, hn⟩ := hc
    constructor
    · intro spec items doc hp hd di
      obtain ⟨x, h, items', h1, -, h3, h4, h5, h6⟩ := encode_heap hg ho hs.digits st (hr.spec _ hp) hd di fun hl => hn (.inr ⟨_, hp, hl⟩)
      simp only [step, h1]
      exact ⟨h, items', rfl, h3, h4, h5, h6⟩
    · obtain ⟨x, h, items', h1, h2, -⟩ := encode_heap hg ho hs.digits st (hr.spec _ hp) hd di fun hl => hn (.inr ⟨_, hp, hl⟩)
      intro l o hne hl
      simp only [step, h1]
      exact h2 l o hne hl
  | pp docv pv dwv sv lwv =>
    have key : ∀ spec items doc dw ow lw, (pv, spec) ∈ specs → DictAt st.heap docv items → PpDocIs st.heap items doc →
        Shallow st.heap items → widthOf dwv = some dw → streamOf rt sv = some ow → widthOf lwv = some lw →
        step rt dl (.pp docv pv dwv sv lwv) st = callS (ppStream rt.env (rt.write true) doc spec dw ow lw) st := by
      intro spec items doc dw ow lw hp hat hdoc hsh h1 h2 h3
      exact (pp_heap (toolsRt_globals hs dl) st (hr.spec _ hp) hr.table (hr.apart _ hp) hat hdoc hsh h1 (by cases sv <;> exact h2) h3).1
    constructor
    · intro spec items doc dw ow lw hp hat hdoc hsh h1 h2 h3
      exact key spec items doc dw ow lw hp hat hdoc hsh h1 h2 h3
    · obtain ⟨⟨spec, hp⟩, ⟨items, doc, hat, hdoc, hsh⟩, ⟨dw, h1⟩, ⟨ow, h2⟩, lw, h3⟩ := hc
      rw [key spec items doc dw ow lw hp hat hdoc hsh h1 h2 h3]
      intro l o _ hl
      unfold callS
      rcases ppStream rt.env (rt.write true) doc spec dw ow lw st.world with ⟨e | u, w⟩ <;> exact hl
  | make o =>
    refine ⟨trivial, fun l o' _ hl => ?_⟩
    obtain ⟨hi, -⟩ := List.getElem?_eq_some_iff.1 hl
    simp only [step]
    rw [List.getElem?_append_left hi]
    exact hl
  | change k o =>
    refine ⟨trivial, fun l o' hne hl => ?_⟩
    simp only [step]
    rw [List.getElem?_set_ne (fun h => hne h.symm)]
    exact hl

theorem Proper.untouched {G : Nat → Prop} {specs : List (Val × Spec)} {st : St σ} {c : Cmd} (hc : Proper G specs rt st c) {l : Nat} (hl : G l) :
    ¬ Touches c l := by
  cases c with
  | encode dd pv => rintro rfl; exact hc.2.2 hl
  | change k o => rintro rfl; exact hc hl
  | _ => exact id

theorem Proper.mono {G G' : Nat → Prop} (h : ∀ l, G' l → G l) {specs : List (Val × Spec)} {st : St σ} {c : Cmd} (hc : Proper G specs rt st c) :
    Proper G' specs rt st c := by
  cases c with
  | encode dd pv => exact ⟨hc.1, hc.2.1, fun hl => hc.2.2 (h _ hl)⟩
  | change k o => exact fun hl => hc (h _ hl)
  | _ => exact hc

attribute [local irreducible] step Answered Proper in
/-- **C90**: in any session that starts with specifications in place and leaves them alone, every call is
answered as the model says, from the contents its arguments have at that time; and an object that neither
was given to `encode` nor changed by the program is at the end of every step as it was at the beginning of the
session. -/
theorem session (hg : ∀ x, rt.globals x = none) (ho : ∀ xs, (rt.order xs).Perm xs) (hs : Sane rt.env) {specs : List (Val × Spec)} {dl : Nat}
    (cs : List Cmd) (st : St σ) (hr : Ready st.heap specs dl)
    (hp : ∀ e ∈ events rt dl cs st, Proper (Guarded st.heap specs dl) specs rt e.before e.cmd) :
    ∀ e ∈ events rt dl cs st, Answered specs rt e ∧ Ready e.after.heap specs dl ∧
      ∀ (l : Nat) o, (∀ c ∈ cs, ¬ Touches c l) → st.heap[l]? = some o → e.after.heap[l]? = some o := by
  induction cs generalizing st with
  | nil => intro e he; cases he
  | cons c cs ih =>
    have hc := hp _ (List.mem_cons_self)
    obtain ⟨h1, h2⟩ := step_answered hg ho hs st hr c hc
    have hk : ∀ l o, Guarded st.heap specs dl l → st.heap[l]? = some o → (step rt dl c st).2.heap[l]? = some o :=
      fun l o hl => h2 l o (hc.untouched hl)
    have hr' := hr.keep hk
    have ih' := ih (step rt dl c st).2 hr' fun e he => (hp e (List.mem_cons_of_mem _ he)).mono fun l hl => guarded_back hr hk hl
    intro e he
    rcases List.mem_cons.1 he with rfl | he'
    · exact ⟨h1, hr', fun l o hl => h2 l o (hl c List.mem_cons_self)⟩
    · obtain ⟨a, b, d⟩ := ih' e he'
      exact ⟨a, b, fun l o hl ho' => d l o (fun c hc => hl c (List.mem_cons_of_mem _ hc)) (h2 l o (hl c List.mem_cons_self) ho')⟩

/-- The state after a session. -/
def final (rt : Rt ε σ) (dl : Nat) : List Cmd → St σ → St σ
  | [], st => st
  | c :: cs, st => final rt dl cs (step rt dl c st).2

theorem events_append (dl : Nat) (cs cs' : List Cmd) (st : St σ) :
    events rt dl (cs ++ cs') st = events rt dl cs st ++ events rt dl cs' (final rt dl cs st) := by
  induction cs generalizing st with
  | nil => rfl
  | cons c cs ih => simp only [List.cons_append, events, final, ih]

/-- **C90** (until the end): the same for the state a session ends in. -/
theorem session_final (hg : ∀ x, rt.globals x = none) (ho : ∀ xs, (rt.order xs).Perm xs) (hs : Sane rt.env) {specs : List (Val × Spec)} {dl : Nat}
    (cs : List Cmd) (st : St σ) (hr : Ready st.heap specs dl)
    (hp : ∀ e ∈ events rt dl cs st, Proper (Guarded st.heap specs dl) specs rt e.before e.cmd) :
    Ready (final rt dl cs st).heap specs dl ∧
      (∀ l, Guarded (final rt dl cs st).heap specs dl l → Guarded st.heap specs dl l) ∧
      ∀ (l : Nat) o, (∀ c ∈ cs, ¬ Touches c l) → st.heap[l]? = some o → (final rt dl cs st).heap[l]? = some o := by
  induction cs generalizing st with
  | nil => exact ⟨hr, fun _ h => h, fun _ _ _ h => h⟩
  | cons c cs ih =>
    have hc := hp _ (List.mem_cons_self)
    obtain ⟨h1, h2⟩ := step_answered hg ho hs st hr c hc
    have hk : ∀ l o, Guarded st.heap specs dl l → st.heap[l]? = some o → (step rt dl c st).2.heap[l]? = some o :=
      fun l o hl => h2 l o (hc.untouched hl)
    obtain ⟨i1, i2, i3⟩ := ih (step rt dl c st).2 (hr.keep hk) fun e he => (hp e (List.mem_cons_of_mem _ he)).mono fun l hl => guarded_back hr hk hl
    exact ⟨i1, fun l hl => guarded_back hr hk (i2 l hl), fun l o hl ho' =>
      i3 l o (fun c hc => hl c (List.mem_cons_of_mem _ hc)) (h2 l o (hl c List.mem_cons_self) ho')⟩

/-- **C90** (results stay): the dict `decode` returned has the contents the model says for as long as the
program neither changes it nor gives it to `encode`, whatever else it does meanwhile. -/
theorem result_stays (hg : ∀ x, rt.globals x = none) (ho : ∀ xs, (rt.order xs).Perm xs) (hs : Sane rt.env) {specs : List (Val × Spec)} {dl : Nat}
    {cs cs' : List Cmd} {st : St σ} {sv pv : Val} {spec : Spec} {s : Bytes} {dec : DecDoc} {enc : EncDoc} (hr : Ready st.heap specs dl)
    (hp : ∀ e ∈ events rt dl (cs ++ .decode sv pv :: cs') st, Proper (Guarded st.heap specs dl) specs rt e.before e.cmd)
    (hsp : (pv, spec) ∈ specs) (hb : BytesIn (final rt dl cs st).heap sv s) (hd : decode rt.env spec s = .ok (dec, enc)) :
    ∃ dd de, (step rt dl (.decode sv pv) (final rt dl cs st)).1 = .ok (.tuple [.ref dd, .ref de]) ∧
      ((∀ c ∈ cs', ¬ Touches c dd) → HasDec (final rt dl (cs ++ .decode sv pv :: cs') st).heap dd dec) := by
  have hfin : ∀ (cs cs' : List Cmd) (st : St σ), final rt dl (cs ++ cs') st = final rt dl cs' (final rt dl cs st) := by
    intro cs cs' st
    induction cs generalizing st with
    | nil => rfl
    | cons c cs ih => exact ih _
  rw [events_append] at hp
  obtain ⟨r1, g1, -⟩ := session_final hg ho hs cs st hr fun e he => hp e (List.mem_append.2 (.inl he))
  have hp2 : ∀ e ∈ events rt dl (.decode sv pv :: cs') (final rt dl cs st), Proper (Guarded (final rt dl cs st).heap specs dl) specs rt e.before e.cmd :=
    fun e he => (hp e (List.mem_append.2 (.inr he))).mono g1
  obtain ⟨a1, a2⟩ := step_answered hg ho hs _ r1 (.decode sv pv) (hp2 _ List.mem_cons_self)
  obtain ⟨h, a3, a4⟩ := a1 spec s hsp hb
  rw [decodeLim_ok.2 hd] at a4
  obtain ⟨dd, de, a5, -, a6, -⟩ := a4
  refine ⟨dd, de, a5, fun ht => ?_⟩
  have hk : ∀ l o, Guarded (final rt dl cs st).heap specs dl l → (final rt dl cs st).heap[l]? = some o →
      (step rt dl (.decode sv pv) (final rt dl cs st)).2.heap[l]? = some o := fun l o _ => a2 l o id
  obtain ⟨-, -, b3⟩ := session_final hg ho hs cs' (step rt dl (.decode sv pv) (final rt dl cs st)).2 (r1.keep hk)
    fun e he => (hp2 e (List.mem_cons_of_mem _ he)).mono fun l hl => guarded_back r1 hk hl
  rw [hfin]
  refine b3 dd _ ht ?_
  have a3' : (step rt dl (.decode sv pv) (final rt dl cs st)).2.heap = h := congrArg St.heap a3
  rw [a3']
  exact a6

/-- **C90** (where a session may start): importing tools.py and specs.py, in any interpreter, puts the two
shipped specifications and the table in place, all of new objects. -/
theorem package_ready {call : Caller ε σ} (hg : ∀ x, rt.globals x = none) (st : St σ) (hv : ∀ x, st.vars x = none) (hl : st.locals = []) :
    ∃ (st1 st2 : St σ) (dl : Nat) (va vb : Val), execs rt call toolsModule st = (.ok .next, st1) ∧ st1.vars ._dispatch = some (.ref dl) ∧
      execs rt call specsModule { st1 with vars := fun _ => none } = (.ok .next, st2) ∧ st2.vars .default = some va ∧ st2.vars .default_ascii = some vb ∧
      (∀ (l : Nat) o, st.heap[l]? = some o → st2.heap[l]? = some o) ∧
      Ready st2.heap [(va, defaultSpec), (vb, defaultAsciiSpec)] dl ∧
      ∀ l, Guarded st2.heap [(va, defaultSpec), (vb, defaultAsciiSpec)] dl l → st.heap.length ≤ l := by
  have h1 := tools_import (call := call) hg st hv hl
  obtain ⟨a, b, h, e1, e2, e3, e4, e5⟩ := specs_heap (rt := rt) (call := call)
    { st with vars := fun _ => none, heap := st.heap ++ [.dict dispatchItems] }
  refine ⟨_, _, st.heap.length, .ref a, .ref b, h1, by simp [src], e1, by simp [src], by simp [src], fun l o hl => ?_, ⟨?_, ?_, ?_⟩, ?_⟩
  · refine e2 l o ?_
    obtain ⟨hi, -⟩ := List.getElem?_eq_some_iff.1 hl
    simp only
    rw [List.getElem?_append_left hi]
    exact hl
  · intro p hp
    simp only [List.mem_cons, List.not_mem_nil, or_false] at hp
    rcases hp with rfl | rfl
    · exact e3
    · exact e4
  · exact e2 _ _ (by simp)
  · intro p hp hl
    have : st.heap.length + 1 ≤ st.heap.length := by
      simp only [List.mem_cons, List.not_mem_nil, or_false] at hp
      rcases hp with rfl | rfl
      · simpa using e5 _ (.inl hl)
      · simpa using e5 _ (.inr hl)
    omega
  · rintro l (rfl | ⟨p, hp, hl⟩)
    · exact Nat.le_refl _
    · have : st.heap.length + 1 ≤ l := by
        simp only [List.mem_cons, List.not_mem_nil, or_false] at hp
        rcases hp with rfl | rfl
        · simpa using e5 _ (.inl hl)
        · simpa using e5 _ (.inr hl)
      omega

/-! ## A session -/

theorem heapSpec_ready : Ready (heapOf heapSpec ++ [.dict dispatchItems]) [(.ref 4, heapSpec)] 5 where
  spec p hp := by
    rw [List.mem_singleton] at hp; subst hp
    exact heapOf_spec (spec := heapSpec) (by decide) _
  table := rfl
  apart p hp := by
    rw [List.mem_singleton] at hp; subst hp
    rintro (h | ⟨i, items, k, h1, h2, h3⟩)
    · cases h
    · cases h1
      cases h2
      obtain ⟨i, q, h4, h5⟩ := specItems_mem h3
      have h6 : 5 = 0 + i := by simpa using congrArg Prod.snd h5
      rw [← Nat.zero_add i, ← h6] at h4
      cases h4

theorem heapSpec_guarded {l : Nat} (h : Guarded (heapOf heapSpec ++ [.dict dispatchItems]) [(.ref 4, heapSpec)] 5 l) : l ≤ 5 := by
  rcases h with rfl | ⟨p, hp, h⟩
  · exact Nat.le_refl _
  · rw [List.mem_singleton] at hp; subst hp
    rcases h with h | ⟨i, items, k, h1, h2, h3⟩
    · cases h; decide
    · cases h1
      cases h2
      obtain ⟨i, q, h4, h5⟩ := specItems_mem h3
      have h6 : l = 0 + i := by simpa using congrArg Prod.snd h5
      obtain ⟨hi, -⟩ := List.getElem?_eq_some_iff.1 h4
      have : i < 4 := hi
      omega

/-- A bytearray is made, decoded, emptied and decoded again: the first `decode` returns and the second raises
`DecodeError`, while the dict of the first is as it was. -/
example (st : St Unit) (hh : st.heap = heapOf heapSpec ++ [.dict dispatchItems]) :
    ∃ dd de l, ((events plainRt 5 [.make (.barray heapMsg), .decode (.ref 6) (.ref 4), .change 6 (.barray []), .decode (.ref 6) (.ref 4)] st).map Event.result) =
        [.ok (.ref 6), .ok (.tuple [.ref dd, .ref de]), .ok .none, .error (.inst .DecodeError l)] ∧
      (dd ≠ 6 → HasDec (final plainRt 5 [.make (.barray heapMsg), .decode (.ref 6) (.ref 4), .change 6 (.barray []), .decode (.ref 6) (.ref 4)] st).heap dd
        [(py"h", py"HD"), (py"t", py"0200"), (py"p", py"2000000000000000"), (py"3", py"123")]) := by
  have hr0 : Ready st.heap [(.ref 4, heapSpec)] 5 := hh ▸ heapSpec_ready
  have hG : ∀ l, Guarded st.heap [(.ref 4, heapSpec)] 5 l → l ≤ 5 := fun l hl => heapSpec_guarded (hh ▸ hl)
  have hlen : st.heap.length = 6 := by rw [hh]; rfl
  have hg : ∀ x, plainRt.globals x = none := fun _ => rfl
  have ho : ∀ xs, (plainRt.order xs).Perm xs := fun _ => .refl _
  -- the states one after the other
  generalize hs1 : (step plainRt 5 (.make (.barray heapMsg)) st) = s1
  have e1 : s1 = (.ok (.ref 6), { st with heap := st.heap ++ [.barray heapMsg] }) := by rw [← hs1, step, hlen]
  have r1 : Ready s1.2.heap [(.ref 4, heapSpec)] 5 := hr0.keep fun l o _ hl => by
    obtain ⟨hi, -⟩ := List.getElem?_eq_some_iff.1 hl
    rw [e1]; simp only; rw [List.getElem?_append_left hi]; exact hl
  have l1 : s1.2.heap[6]? = some (.barray heapMsg) := by rw [e1]; simp only; rw [← hlen]; simp
  have b1 : BytesIn s1.2.heap (.ref 6) heapMsg := .inr ⟨6, rfl, l1⟩
  have p1 : ∀ G, Proper G [(.ref 4, heapSpec)] plainRt s1.2 (.decode (.ref 6) (.ref 4)) := fun G => ⟨⟨heapSpec, by simp⟩, _, b1⟩
  obtain ⟨a1, f1⟩ := step_answered hg ho cpython_sane s1.2 r1 (.decode (.ref 6) (.ref 4)) (p1 _)
  generalize hs2 : (step plainRt 5 (.decode (.ref 6) (.ref 4)) s1.2) = s2 at a1 f1
  have r2 := r1.keep (h' := s2.2.heap) fun l o _ => f1 l o id
  have l2 : s2.2.heap[6]? = some (.barray heapMsg) := f1 6 _ id l1
  generalize hs3 : (step plainRt 5 (.change 6 (.barray [])) s2.2) = s3
  have e3 : s3 = (.ok .none, { s2.2 with heap := s2.2.heap.set 6 (.barray []) }) := by rw [← hs3]; rfl
  have b3 : BytesIn s3.2.heap (.ref 6) [] := .inr ⟨6, rfl, by
    rw [e3]; simp only
    obtain ⟨hi, -⟩ := List.getElem?_eq_some_iff.1 l2
    rw [List.getElem?_set_self hi]⟩
  have hp : ∀ e ∈ events plainRt 5 [.make (.barray heapMsg), .decode (.ref 6) (.ref 4), .change 6 (.barray []), .decode (.ref 6) (.ref 4)] st,
      Proper (Guarded st.heap [(.ref 4, heapSpec)] 5) [(.ref 4, heapSpec)] plainRt e.before e.cmd := by
    intro e he
    simp only [events, hs1, hs2, hs3, List.mem_cons, List.not_mem_nil, or_false] at he
    rcases he with rfl | rfl | rfl | rfl
    · trivial
    · exact p1 _
    · intro hl; exact absurd (hG 6 hl) (by decide)
    · exact ⟨⟨heapSpec, by simp⟩, _, b3⟩
  have hd : decode plainRt.env heapSpec heapMsg = .ok ([(py"h", py"HD"), (py"t", py"0200"), (py"p", py"2000000000000000"), (py"3", py"123")],
    [(py"h", ⟨[], [0x48, 0x44]⟩), (py"t", ⟨[], [2, 0]⟩), (py"p", ⟨[], [0x20, 0, 0, 0, 0, 0, 0, 0]⟩), (py"3", ⟨[3], [0xF1, 0xF2, 0xF3]⟩)]) := by decide +kernel
  obtain ⟨dd, de, k1, k2⟩ := result_stays hg ho cpython_sane (cs := [.make (.barray heapMsg)]) (cs' := [.change 6 (.barray []), .decode (.ref 6) (.ref 4)])
    hr0 hp (by simp) (spec := heapSpec) (s := heapMsg) (by simp only [final, hs1]; exact b1) hd
  simp only [final, hs1] at k1
  obtain ⟨a4, -⟩ := session hg ho cpython_sane _ st hr0 hp ⟨s3.2, .decode (.ref 6) (.ref 4), (step plainRt 5 (.decode (.ref 6) (.ref 4)) s3.2).1, (step plainRt 5 (.decode (.ref 6) (.ref 4)) s3.2).2⟩
    (by simp only [events, hs1, hs2, hs3]; simp)
  obtain ⟨h, -, a5⟩ := a4 heapSpec [] (by simp) b3
  have he : ∃ e, decodeLim plainRt.env heapSpec [] = .error (.exc (.decodeError e)) := by
    have h : (match decodeLim plainRt.env heapSpec [] with | .error (.exc (.decodeError _)) => true | _ => false) = true := by decide +kernel
    split at h
    · exact ⟨_, by assumption⟩
    · cases h
  obtain ⟨e, he⟩ := he
  rw [he] at a5
  obtain ⟨l, _, _, a6, -⟩ := a5
  refine ⟨dd, de, l, ?_, fun hne => k2 fun c hc => ?_⟩
  · simp only [events, List.map_cons, List.map_nil, hs1, hs2, hs3]
    simp only at a6
    rw [hs2] at k1
    rw [a6, k1, e1, e3]
  · simp only [List.mem_cons, List.not_mem_nil, or_false] at hc
    rcases hc with rfl | rfl
    · exact hne
    · exact id

end Iso8583.Src
