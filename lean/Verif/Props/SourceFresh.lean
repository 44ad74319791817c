import Verif.Props.SourceEncode
/-!
# C88: what decode and encode return is new

Running the text of decoder.py and encoder.py never hands the caller an object that existed before the
call, directly or inside another object: the dicts of a result can be changed freely without changing the
caller's data, the specification or the result of another call.
-/

namespace Iso8583.Src

variable {ε σ : Type} {rt : Rt ε σ} {sv pv : Val} {raw : PartialSpec} {s : Bytes}

/-! ## Reaching an object -/

/-- The object at `l` can be reached from the value `v` in the heap `h`. -/
inductive Reach (h : List Obj) : Val → Nat → Prop
  | here {l} : Reach h (.ref l) l
  | tuple {vs v l} : v ∈ vs → Reach h v l → Reach h (.tuple vs) l
  | list {vs v l} : v ∈ vs → Reach h v l → Reach h (.list vs) l
  | frozenKey {items k v l} : (k, v) ∈ items → Reach h k l → Reach h (.dict items) l
  | frozenVal {items k v l} : (k, v) ∈ items → Reach h v l → Reach h (.dict items) l
  | exn {c v l} : Reach h v l → Reach h (.exn c v) l
  | dictKey {a items k v l} : h[a]? = some (.dict items) → (k, v) ∈ items → Reach h k l → Reach h (.ref a) l
  | dictVal {a items k v l} : h[a]? = some (.dict items) → (k, v) ∈ items → Reach h v l → Reach h (.ref a) l
  | arg {a c args attrs v l} : h[a]? = some (.inst c args attrs) → v ∈ args → Reach h v l → Reach h (.ref a) l
  | attr {a c args attrs x v l} : h[a]? = some (.inst c args attrs) → (x, v) ∈ attrs → Reach h v l → Reach h (.ref a) l

theorem Reach.str {h : List Obj} {t : Str} {l : Nat} : ¬ Reach h (.str t) l := nofun
theorem Reach.bytes {h : List Obj} {b : Bytes} {l : Nat} : ¬ Reach h (.bytes b) l := nofun
theorem Reach.int {h : List Obj} {n : Int} {l : Nat} : ¬ Reach h (.int n) l := nofun

/-- From a dict one reaches it and what its items reach. -/
theorem Reach.of_dict {h : List Obj} {a l : Nat} {items : List (Val × Val)} (ha : h[a]? = some (.dict items)) (r : Reach h (.ref a) l) :
    l = a ∨ ∃ p ∈ items, Reach h p.1 l ∨ Reach h p.2 l := by
  cases r with
  | here => exact .inl rfl
  | dictKey h1 h2 h3 => rw [ha] at h1; cases h1; exact .inr ⟨_, h2, .inl h3⟩
  | dictVal h1 h2 h3 => rw [ha] at h1; cases h1; exact .inr ⟨_, h2, .inr h3⟩
  | arg h1 => rw [ha] at h1; cases h1
  | attr h1 => rw [ha] at h1; cases h1

/-- A bytearray leads nowhere else. -/
theorem Reach.of_barray {h : List Obj} {a l : Nat} {b : Bytes} (ha : h[a]? = some (.barray b)) (r : Reach h (.ref a) l) : l = a := by
  cases r with
  | here => rfl
  | dictKey h1 => rw [ha] at h1; cases h1
  | dictVal h1 => rw [ha] at h1; cases h1
  | arg h1 => rw [ha] at h1; cases h1
  | attr h1 => rw [ha] at h1; cases h1

theorem Reach.of_pair {h : List Obj} {a b : Val} {l : Nat} (r : Reach h (.tuple [a, b]) l) : Reach h a l ∨ Reach h b l := by
  cases r with
  | tuple h1 h2 =>
    rcases List.mem_cons.1 h1 with rfl | h1
    · exact .inl h2
    · rcases List.mem_singleton.1 h1 with rfl
      exact .inr h2

/-- A decoded dict leads nowhere else. -/
theorem Reach.of_dec {h : List Obj} {a l : Nat} {d : DecDoc} (ha : h[a]? = some (.dict (decItems d))) (r : Reach h (.ref a) l) : l = a := by
  rcases r.of_dict ha with h1 | ⟨p, hp, h1⟩
  · exact h1
  · obtain ⟨q, -, rfl⟩ := List.mem_map.1 hp
    rcases h1 with h1 | h1 <;> cases h1

/-- The caller's dict leads nowhere else. -/
theorem Reach.of_doc {h : List Obj} {a l : Nat} {items : List (Val × Val)} {doc : Doc} (ha : h[a]? = some (.dict items)) (di : DocIs items doc)
    (r : Reach h (.ref a) l) : l = a := by
  rcases r.of_dict ha with h1 | ⟨p, hp, h1⟩
  · exact h1
  · exfalso
    clear ha r
    induction items generalizing doc with
    | nil => cases hp
    | cons q t ih =>
      cases doc with
      | nil => exact di
      | cons d doc =>
        obtain ⟨h2, h3, h4⟩ := di
        rcases List.mem_cons.1 hp with rfl | hp
        · obtain ⟨k, v⟩ := p
          rcases h1 with h1 | h1
          · cases h1 <;> cases h2
          · cases h1 <;> cases h3
        · exact ih h4 hp

/-- From an encoded dict one reaches it and its entries, which are at none of the places in `F`. -/
theorem Rep.reach_enc {h : List Obj} {dd de l : Nat} {dec : List (Val × Val)} {enc : EncDoc} {F : List (Nat × Obj)} (r : Rep h dd de dec enc F)
    (hr : Reach h (.ref de) l) : l ≠ dd ∧ ∀ p ∈ F, p.1 ≠ l := by
  obtain ⟨loc, h1, h2, -⟩ := r.henc
  rcases hr.of_dict h1 with rfl | ⟨p, hp, h3⟩
  · exact ⟨r.ne.symm, fun p hp => (r.frame p hp).2.2⟩
  · obtain ⟨q, hq, rfl⟩ := List.mem_map.1 hp
    rcases h3 with h3 | h3
    · cases h3
    · obtain ⟨e, he⟩ := Dict.mem_keys_iff.1 (List.mem_map_of_mem hq : q.1 ∈ enc.keys)
      obtain ⟨h4, h5, -, h6⟩ := h2 q.1 e he
      have : l = loc q.1 := by
        rcases h3.of_dict h4 with h7 | ⟨p, hp, h7⟩
        · exact h7
        · simp only [entryItems, List.mem_cons, List.not_mem_nil, or_false] at hp
          rcases hp with rfl | rfl <;> rcases h7 with h7 | h7 <;> cases h7
      subst this
      exact ⟨h5, h6⟩

/-- What can be reached when nothing that can be reached was changed. -/
theorem Reach.back {h h' : List Obj} {P : Nat → Prop} (hP : ∀ l, P l → h'[l]? = h[l]?) {v : Val} {l : Nat} (r : Reach h' v l)
    (hv : ∀ l, Reach h v l → P l) : Reach h v l := by
  induction r with
  | here => exact .here
  | tuple h1 _ ih => exact .tuple h1 (ih fun l hl => hv l (.tuple h1 hl))
  | list h1 _ ih => exact .list h1 (ih fun l hl => hv l (.list h1 hl))
  | frozenKey h1 _ ih => exact .frozenKey h1 (ih fun l hl => hv l (.frozenKey h1 hl))
  | frozenVal h1 _ ih => exact .frozenVal h1 (ih fun l hl => hv l (.frozenVal h1 hl))
  | exn _ ih => exact .exn (ih fun l hl => hv l (.exn hl))
  | dictKey h1 h2 _ ih =>
    rw [hP _ (hv _ .here)] at h1
    exact .dictKey h1 h2 (ih fun l hl => hv l (.dictKey h1 h2 hl))
  | dictVal h1 h2 _ ih =>
    rw [hP _ (hv _ .here)] at h1
    exact .dictVal h1 h2 (ih fun l hl => hv l (.dictVal h1 h2 hl))
  | arg h1 h2 _ ih =>
    rw [hP _ (hv _ .here)] at h1
    exact .arg h1 h2 (ih fun l hl => hv l (.arg h1 h2 hl))
  | attr h1 h2 _ ih =>
    rw [hP _ (hv _ .here)] at h1
    exact .attr h1 h2 (ih fun l hl => hv l (.attr h1 h2 hl))

/-! ## decode -/

/-- Everything reachable from `v` in `h` exists there and did not exist in `h0`. -/
def New (h0 h : List Obj) (v : Val) : Prop := ∀ l, Reach h v l → h0.length ≤ l ∧ l < h.length

theorem new_str {h0 h : List Obj} {t : Str} : New h0 h (.str t) := fun _ hl => absurd hl Reach.str
theorem new_int {h0 h : List Obj} {n : Int} : New h0 h (.int n) := fun _ hl => absurd hl Reach.int

theorem Rep.enc_lt {h : List Obj} {dd de l : Nat} {dec : List (Val × Val)} {enc : EncDoc} {F : List (Nat × Obj)} (r : Rep h dd de dec enc F)
    (hr : Reach h (.ref de) l) : l < h.length := by
  obtain ⟨loc, h1, h2, -⟩ := r.henc
  rcases hr.of_dict h1 with rfl | ⟨p, hp, h3⟩
  · exact lt_of_getElem? h1
  · obtain ⟨q, hq, rfl⟩ := List.mem_map.1 hp
    rcases h3 with h3 | h3
    · cases h3
    · obtain ⟨e, he⟩ := Dict.mem_keys_iff.1 (List.mem_map_of_mem hq : q.1 ∈ enc.keys)
      obtain ⟨h4, -⟩ := h2 q.1 e he
      rcases h3.of_dict h4 with h7 | ⟨p, hp, h7⟩
      · rw [h7]; exact lt_of_getElem? h4
      · simp only [entryItems, List.mem_cons, List.not_mem_nil, or_false] at hp
        rcases hp with rfl | rfl <;> rcases h7 with h7 | h7 <;> cases h7

/-- **C88** (decode): everything reachable from what `decode` returns is new; so is everything reachable
from the attributes of the exception it raises, except that `s` is the argument itself. -/
theorem decode_new (hg : ∀ x, rt.globals x = none) (ho : ∀ xs, (rt.order xs).Perm xs) (hs : Sane rt.env)
    (hp : PSpecVal pv raw) (st : St σ) (hb : BytesIn st.heap sv s) :
    ∃ (x : Except (Exc ε) Val) (h : List Obj), program rt decoderDefs .decode [sv, pv] [] st = (x, { st with heap := h }) ∧
      (∀ v, x = .ok v → New st.heap h v) ∧
      ∀ c l, x = .error (.inst c l) → ∃ args attrs, h[l]? = some (.inst c args attrs) ∧ (.s, sv) ∈ attrs ∧
        ∀ a v, (a, v) ∈ attrs → a ≠ .s → New st.heap h v := by
  obtain ⟨h, x, h1, h2, h3⟩ := decode_sim hg hp hs ho st hb
  have hdd : New st.heap h (.ref st.heap.length) := fun l hl => by
    have := Reach.of_dec h2.hdec hl
    subst this
    exact ⟨Nat.le_refl _, lt_of_getElem? h2.hdec⟩
  have hde : New st.heap h (.ref (st.heap.length + 1)) := fun l hl => by
    refine ⟨?_, h2.enc_lt hl⟩
    rcases Nat.lt_or_ge l st.heap.length with hlt | hge
    · exact absurd rfl ((h2.reach_enc hl).2 (l, st.heap[l]) (mem_objs.2 (by simp [hlt])))
    · exact hge
  refine ⟨x, h, h1, ?_, ?_⟩
  · rintro v rfl
    rcases hres : (decodeBodyP rt.env raw s ⟨[], []⟩).1 with e | u
    · rw [hres] at h3
      obtain ⟨exc, h4, -⟩ := h3
      cases h4
    · rw [hres] at h3
      cases h3
      exact fun l hl => hl.of_pair.elim (hdd l) (hde l)
  · rintro c l rfl
    rcases hres : (decodeBodyP rt.env raw s ⟨[], []⟩).1 with ⟨m, pos, f⟩ | k | u
    · rw [hres] at h3
      obtain ⟨exc, h4, h5⟩ := h3
      cases h4
      simp only [ErrIs] at h5
      split at h5
      · obtain ⟨l', h6, h7⟩ := h5
        cases h6
        refine ⟨_, _, h7, by simp, fun a v hv ha => ?_⟩
        simp only [List.mem_cons, Prod.mk.injEq, List.not_mem_nil, or_false] at hv
        rcases hv with ⟨-, rfl⟩ | ⟨rfl, -⟩ | ⟨-, rfl⟩ | ⟨-, rfl⟩ | ⟨-, rfl⟩ | ⟨-, rfl⟩
        · exact new_str
        · exact absurd rfl ha
        · exact hdd
        · exact hde
        · exact new_str
        · exact new_int
      · cases h5
    · rw [hres] at h3
      obtain ⟨exc, h4, h5⟩ := h3
      cases h4
      simp only [ErrIs] at h5
      cases h5
    · rw [hres] at h3
      cases h3

/-! ## encode -/

/-- **C88** (encode): everything reachable from what `encode` returns is new; so is everything reachable
from the attributes of the exception it raises, except that `doc_dec` is the argument itself.  The
caller's dict leads to no other object. -/
theorem encode_new (hg : ∀ x, rt.globals x = none) (ho : ∀ xs, (rt.order xs).Perm xs)
    (hs : rt.env.maxStrDigits = 0 ∨ 640 ≤ rt.env.maxStrDigits) (hp : PSpecVal pv raw)
    (st : St σ) {dd : Nat} {items : List (Val × Val)} {doc : Doc} (hd : st.heap[dd]? = some (.dict items)) (di : DocIs items doc) :
    ∃ (x : Except (Exc ε) Val) (h : List Obj), program rt encoderDefs .encode [.ref dd, pv] [] st = (x, { st with heap := h }) ∧
      (∀ v, x = .ok v → New st.heap h v) ∧
      (∀ c l, x = .error (.inst c l) → ∃ args attrs, h[l]? = some (.inst c args attrs) ∧ (.doc_dec, .ref dd) ∈ attrs ∧
        ∀ a v, (a, v) ∈ attrs → a ≠ .doc_dec → New st.heap h v) ∧
      ∀ l, Reach h (.ref dd) l → l = dd := by
  obtain ⟨h, x, items', h1, h2, h3, h4, h5⟩ := encode_sim hg hp ho hs st hd di
  have hde : New st.heap h (.ref (st.heap.length + 1)) := fun l hl => by
    refine ⟨?_, h2.enc_lt hl⟩
    rcases Nat.lt_or_ge l st.heap.length with hlt | hge
    · obtain ⟨h6, h7⟩ := h2.reach_enc hl
      have hm : (l, st.heap[l]) ∈ others st.heap dd := List.mem_filter.2 ⟨mem_objs.2 (by simp [hlt]), by simpa using h6⟩
      refine absurd rfl (h7 (l, st.heap[l]) ?_)
      cases (encodeBodyP rt.env raw ⟨doc, []⟩).1 with
      | error e => exact hm
      | ok b => exact List.mem_cons_of_mem _ hm
    · exact hge
  refine ⟨x, h, h1, ?_, ?_, fun l hl => hl.of_doc h2.hdec h3⟩
  · rintro v rfl
    rcases hres : (encodeBodyP rt.env raw ⟨doc, []⟩).1 with e | b
    · rw [hres] at h5
      obtain ⟨exc, h6, -⟩ := h5
      cases h6
    · rw [hres] at h5 h2
      cases h5
      have hsl : h[st.heap.length]? = some (.barray b) := h2.frame_get
      intro l hl
      rcases hl.of_pair with hl | hl
      · have := hl.of_barray hsl
        subst this
        exact ⟨Nat.le_refl _, lt_of_getElem? hsl⟩
      · exact hde l hl
  · rintro c l rfl
    rcases hres : (encodeBodyP rt.env raw ⟨doc, []⟩).1 with e | b
    · rw [hres] at h5
      obtain ⟨exc, h6, h7⟩ := h5
      cases h6
      cases e with
      | err m f =>
        simp only [ErrIsE] at h7
        split at h7
        · obtain ⟨l', d, -, h8, h9⟩ := h7
          cases h8
          refine ⟨_, _, h9, by simp, fun a v hv ha => ?_⟩
          simp only [List.mem_cons, Prod.mk.injEq, List.not_mem_nil, or_false] at hv
          rcases hv with ⟨-, rfl⟩ | ⟨rfl, -⟩ | ⟨-, rfl⟩ | ⟨-, rfl⟩
          · exact new_str
          · exact absurd rfl ha
          · exact hde
          · exact new_str
        · cases h7
      | keyError k => cases h7
      | valueError => cases h7
      | typeError => cases h7
      | unboundLocal => cases h7
      | indexError => cases h7
    · rw [hres] at h5
      cases h5

/-! ## Two calls -/

/-- What was new after one call and what is new after a later one have nothing in common. -/
theorem new_apart {h0 h1 h2 : List Obj} {v1 v2 : Val} (hfr : ∀ (l : Nat) o, h0.length ≤ l → h1[l]? = some o → h2[l]? = some o)
    (n1 : New h0 h1 v1) (n2 : New h1 h2 v2) (l : Nat) (r1 : Reach h2 v1 l) : ¬ Reach h2 v2 l := by
  intro r2
  have hP : ∀ l, h0.length ≤ l ∧ l < h1.length → h2[l]? = h1[l]? := by
    intro l ⟨ha, hl⟩
    have : h1[l]? = some h1[l] := by simp [hl]
    rw [this, hfr l _ ha this]
  have := (n1 l (r1.back hP n1)).2
  have := (n2 l r2).1
  omega

/-- **C88** (two calls of decode): the results of two calls, of whatever data with whatever specifications,
share no object, and the second call changes nothing that can be reached from the first result. -/
theorem decode_twice {s' : Bytes} {sv' pv' : Val} {raw' : PartialSpec} (hg : ∀ x, rt.globals x = none) (ho : ∀ xs, (rt.order xs).Perm xs)
    (hs : Sane rt.env) (hp : PSpecVal pv raw) (hp' : PSpecVal pv' raw') (st : St σ) (hb : BytesIn st.heap sv s) (hb' : BytesIn st.heap sv' s') :
    ∃ (x x' : Except (Exc ε) Val) (st1 st2 : St σ), program rt decoderDefs .decode [sv, pv] [] st = (x, st1) ∧
      program rt decoderDefs .decode [sv', pv'] [] st1 = (x', st2) ∧
      ∀ v v', x = .ok v → x' = .ok v' →
        (∀ l, Reach st2.heap v l → ¬ Reach st2.heap v' l) ∧ ∀ l, Reach st1.heap v l → st2.heap[l]? = st1.heap[l]? := by
  obtain ⟨x, h, h1, h2, -⟩ := decode_new hg ho hs hp st hb
  obtain ⟨_, _, h3, h4, -⟩ := decode_source_missing hg ho hs hp st hb
  rw [h1] at h3
  simp only [Prod.mk.injEq, St.mk.injEq, true_and, and_true] at h3
  obtain ⟨rfl, rfl⟩ := h3
  have hb1 : BytesIn ({ st with heap := h } : St σ).heap sv' s' := hb'.imp id fun ⟨l, e, hl⟩ => ⟨l, e, h4 l _ hl⟩
  obtain ⟨x', h', k1, k2, -⟩ := decode_new hg ho hs hp' { st with heap := h } hb1
  obtain ⟨_, _, k3, k4, -⟩ := decode_source_missing hg ho hs hp' { st with heap := h } hb1
  rw [k1] at k3
  simp only [Prod.mk.injEq, St.mk.injEq, true_and, and_true] at k3
  obtain ⟨rfl, rfl⟩ := k3
  refine ⟨x, x', _, _, h1, k1, fun v v' hv hv' => ⟨?_, fun l hl => ?_⟩⟩
  · exact new_apart (fun l o _ => k4 l o) (h2 v hv) (k2 v' hv')
  · have hlt := (h2 v hv l hl).2
    have : h[l]? = some h[l] := by simp [hlt]
    show h'[l]? = h[l]?
    rw [this, k4 l _ this]

/-- **C88** (two calls of encode): the results of two calls on the same dict, with whatever specifications,
share no object, none of them is the dict, and the second call changes nothing that can be reached from the
first result. -/
theorem encode_twice {pv' : Val} {raw' : PartialSpec} (hg : ∀ x, rt.globals x = none) (ho : ∀ xs, (rt.order xs).Perm xs)
    (hs : rt.env.maxStrDigits = 0 ∨ 640 ≤ rt.env.maxStrDigits) (hp : PSpecVal pv raw) (hp' : PSpecVal pv' raw')
    (st : St σ) {dd : Nat} {items : List (Val × Val)} {doc : Doc} (hd : st.heap[dd]? = some (.dict items)) (di : DocIs items doc) :
    ∃ (x x' : Except (Exc ε) Val) (st1 st2 : St σ), program rt encoderDefs .encode [.ref dd, pv] [] st = (x, st1) ∧
      program rt encoderDefs .encode [.ref dd, pv'] [] st1 = (x', st2) ∧
      ∀ v v', x = .ok v → x' = .ok v' →
        (∀ l, Reach st2.heap v l → ¬ Reach st2.heap v' l) ∧ ¬ Reach st2.heap v dd ∧ ¬ Reach st2.heap v' dd ∧
        ∀ l, Reach st1.heap v l → st2.heap[l]? = st1.heap[l]? := by
  have hlt := lt_of_getElem? hd
  obtain ⟨x, h, h1, h2, -⟩ := encode_new hg ho hs hp st hd di
  obtain ⟨_, _, items1, h3, h4, h5, h6, -⟩ := encode_source_missing hg ho hs hp st hd di
  rw [h1] at h3
  simp only [Prod.mk.injEq, St.mk.injEq, true_and, and_true] at h3
  obtain ⟨rfl, rfl⟩ := h3
  obtain ⟨x', h', k1, k2, -⟩ := encode_new hg ho hs hp' { st with heap := h } h5 h6
  obtain ⟨_, _, items2, k3, k4, -⟩ := encode_source_missing hg ho hs hp' { st with heap := h } h5 h6
  rw [k1] at k3
  simp only [Prod.mk.injEq, St.mk.injEq, true_and, and_true] at k3
  obtain ⟨rfl, rfl⟩ := k3
  have hP : ∀ l, st.heap.length ≤ l ∧ l < h.length → h'[l]? = h[l]? := by
    intro l ⟨ha, hl⟩
    have : h[l]? = some h[l] := by simp [hl]
    rw [this, k4 l _ (by omega) this]
  refine ⟨x, x', _, _, h1, k1, fun v v' hv hv' => ⟨?_, fun r => ?_, fun r => ?_, fun l hl => hP l (h2 v hv l hl)⟩⟩
  · exact new_apart (fun l o hl => k4 l o (by omega)) (h2 v hv) (k2 v' hv')
  · have := (h2 v hv dd (Reach.back hP r (h2 v hv))).1
    omega
  · have h8 : h.length ≤ dd := (k2 v' hv' dd r).1
    have := lt_of_getElem? h5
    omega

/-! ## The hypotheses are met -/

set_option maxRecDepth 4000 in
/-- Decoding the same bytearray twice, with the same specification: two results, nothing shared, and
neither leads to the bytearray. -/
example (st : St Unit) (hst : st.heap = [.set [7], .barray demoMsg]) :
    ∃ (st1 st2 : St Unit) (a b a' b' : Nat),
      program plainRt decoderDefs .decode [.ref 1, specVal demoSpec] [] st = (.ok (.tuple [.ref a, .ref b]), st1) ∧
      program plainRt decoderDefs .decode [.ref 1, specVal demoSpec] [] st1 = (.ok (.tuple [.ref a', .ref b']), st2) ∧
      (∃ l, Reach st1.heap (.ref b) l ∧ st1.heap[l]? = some (.dict [(.str py"len", .bytes []), (.str py"data", .bytes [0x02, 0x00])])) ∧ a ≠ 1 ∧ b ≠ 1 ∧
      ∀ l, Reach st2.heap (.tuple [.ref a, .ref b]) l → ¬ Reach st2.heap (.tuple [.ref a', .ref b']) l := by
  have hb : BytesIn st.heap (.ref 1) demoMsg := .inr ⟨1, rfl, by rw [hst]; rfl⟩
  have hd : decodeLim plainRt.env demoSpec demoMsg = .ok (demoDec, demoEnc) := by decide +kernel
  obtain ⟨x, x', st1, st2, h1, h2, h3⟩ := decode_twice (rt := plainRt) (fun _ => rfl) (fun _ => .refl _) cpython_sane
    (specVal_is demoSpec).full (specVal_is demoSpec).full st hb hb
  obtain ⟨y, h, k1, k2, k3⟩ := decode_source (rt := plainRt) (fun _ => rfl) (fun _ => .refl _) cpython_sane (specVal_is demoSpec) st hb
  obtain ⟨z, g, m1, m2, -⟩ := decode_new (rt := plainRt) (fun _ => rfl) (fun _ => .refl _) cpython_sane (specVal_is demoSpec).full st hb
  rw [h1] at k1 m1
  cases k1
  simp only [Prod.mk.injEq, St.mk.injEq, true_and, and_true] at m1
  obtain ⟨rfl, rfl⟩ := m1
  rw [hd] at k3
  obtain ⟨a, b, rfl, -, -, loc, e1, e2, -⟩ := k3
  have hb1 : BytesIn ({ st with heap := h } : St Unit).heap (.ref 1) demoMsg := hb.imp id fun ⟨l, e, hl⟩ => ⟨l, e, k2 l _ hl⟩
  obtain ⟨y', h', k1', -, k3'⟩ := decode_source (rt := plainRt) (fun _ => rfl) (fun _ => .refl _) cpython_sane (specVal_is demoSpec) { st with heap := h } hb1
  rw [h2] at k1'
  cases k1'
  rw [hd] at k3'
  obtain ⟨a', b', rfl, -⟩ := k3'
  have hl2 : st.heap.length = 2 := by rw [hst]; rfl
  have na := (m2 _ rfl a (.tuple (List.mem_cons_self) .here)).1
  have nb := (m2 _ rfl b (.tuple (by simp) .here)).1
  refine ⟨_, _, a, b, a', b', h1, h2, ⟨loc py"t", ?_, e2 py"t" ⟨[], [0x02, 0x00]⟩ rfl⟩,
    by omega, by omega, (h3 _ _ rfl rfl).1⟩
  exact .dictVal (k := .str py"t") (v := .ref (loc py"t")) e1 (List.mem_map.2 ⟨(py"t", ⟨[], [0x02, 0x00]⟩), by simp [demoEnc], rfl⟩) .here

set_option maxRecDepth 4000 in
/-- Encoding the demo dict: the bytearray and the dict returned are not the demo dict, and do not lead to it. -/
example (st : St Unit) (hst : st.heap = [.set [7], .dict (docVal demoDoc)]) :
    ∃ (st1 : St Unit) (sl de : Nat), program plainRt encoderDefs .encode [.ref 1, specVal demoSpec] [] st = (.ok (.tuple [.ref sl, .ref de]), st1) ∧
      st1.heap[sl]? = some (.barray demoMsg) ∧ ¬ Reach st1.heap (.tuple [.ref sl, .ref de]) 1 ∧ ¬ Reach st1.heap (.ref 1) sl ∧ ¬ Reach st1.heap (.ref 1) de := by
  have hd : st.heap[1]? = some (.dict (docVal demoDoc)) := by rw [hst]; rfl
  have hl2 : st.heap.length = 2 := by rw [hst]; rfl
  obtain ⟨x, h, items', h1, -, -, -, -, h6⟩ := encode_source (rt := plainRt) (fun _ => rfl) (fun _ => .refl _) cpython_sane.digits (specVal_is demoSpec) st
    hd (docVal_is demoDoc)
  have hl : encodeLim plainRt.env demoSpec demoDoc = (.ok (demoMsg, demoEnc), demoDocAfter) := by decide +kernel
  rw [hl] at h6
  obtain ⟨sl, de, rfl, h7, -⟩ := h6
  obtain ⟨x, g, k1, k2, -, k3⟩ := encode_new (rt := plainRt) (fun _ => rfl) (fun _ => .refl _) cpython_sane.digits (specVal_is demoSpec).full st hd (docVal_is demoDoc)
  rw [h1] at k1
  simp only [Prod.mk.injEq, St.mk.injEq, true_and, and_true] at k1
  obtain ⟨rfl, rfl⟩ := k1
  have n1 := (k2 _ rfl sl (.tuple (List.mem_cons_self) .here)).1
  have n2 := (k2 _ rfl de (.tuple (by simp) .here)).1
  refine ⟨_, sl, de, h1, h7, fun r => ?_, fun r => ?_, fun r => ?_⟩
  · have := (k2 _ rfl 1 r).1
    omega
  · have := k3 sl r
    omega
  · have := k3 de r
    omega

/-- An instance of `encode_twice`. -/
example (st : St Unit) (hst : st.heap = [.set [7], .dict (docVal demoDoc)]) :
    ∃ (x x' : Except (Exc Empty) Val) (st1 st2 : St Unit), program plainRt encoderDefs .encode [.ref 1, specVal demoSpec] [] st = (x, st1) ∧
      program plainRt encoderDefs .encode [.ref 1, specVal demoSpec] [] st1 = (x', st2) ∧
      ∀ v v', x = .ok v → x' = .ok v' → ∀ l, Reach st2.heap v l → ¬ Reach st2.heap v' l := by
  obtain ⟨x, x', st1, st2, h1, h2, h3⟩ := encode_twice (rt := plainRt) (fun _ => rfl) (fun _ => .refl _) cpython_sane.digits
    (specVal_is demoSpec).full (specVal_is demoSpec).full st (dd := 1) (by rw [hst]; rfl) (docVal_is demoDoc)
  exact ⟨x, x', st1, st2, h1, h2, fun v v' e e' => (h3 v v' e e').1⟩

end Iso8583.Src
