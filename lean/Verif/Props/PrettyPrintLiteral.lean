import Verif.Lemmas.Literal
import Verif.Props.PrettyPrintRead
/-!
# `pp` prints Python literals, and nothing can hide in them (C75, C76)
-/

namespace Iso8583

/-! ## C75 -/

theorem eval_pieces {env : PyEnv} {p : Str ⊕ Bytes} {qs : List (Str × (Str ⊕ Bytes))} (hp : LitOk p)
    (hq : ∀ q ∈ qs, q.1 ≠ [] ∧ (∀ c ∈ q.1, c = 32 ∨ c = 10) ∧ LitOk q.2) :
    evalLiterals (lit env p ++ qs.flatMap fun q => q.1 ++ lit env q.2) = glueLiterals (litVal p :: qs.map fun q => litVal q.2) := by
  have hl : qs.length ≤ (qs.flatMap fun q => q.1 ++ lit env q.2).length := by
    clear hp
    induction qs with
    | nil => simp
    | cons q t ih =>
      have := ih fun x hx => hq x (by simp [hx])
      have h1 : 0 < q.1.length := List.length_pos_iff.2 (hq q (by simp)).1
      simp only [List.flatMap_cons, List.length_append, List.length_cons]
      omega
  obtain ⟨c, t, hc, _⟩ := lit_head (env := env) p
  have h1 : 0 < (lit env p).length := by rw [hc]; simp
  have := readLiterals_pieces (env := env) (qs := qs) (w := []) (n := (lit env p ++ qs.flatMap fun q => q.1 ++ lit env q.2).length + 1)
    (by simp) hp hq (by simp only [List.length_append]; omega)
  rw [List.nil_append] at this
  unfold evalLiterals
  rw [this, Option.bind_some]

theorem glues_eval {ps : List (Str ⊕ Bytes)} {v : PpVal} (hne : ps ≠ []) (h : Glues ps v) :
    glueLiterals (ps.map litVal) = some v := by
  cases v with
  | str s =>
    obtain ⟨qs, rfl, rfl⟩ := h
    rw [List.map_map]
    exact glue_str (by simpa using hne)
  | bytes b =>
    obtain ⟨qs, rfl, rfl⟩ := h
    rw [List.map_map]
    exact glue_bytes (by simpa using hne)
  | dict _ _ => exact h.elim
  | other _ => exact h.elim

theorem newLine_blank (n : Nat) : newLine n ≠ [] ∧ ∀ c ∈ newLine n, c = 32 ∨ c = 10 := by
  refine ⟨by simp [newLine], ?_⟩
  intro c hc
  unfold newLine at hc
  rcases List.mem_cons.1 hc with rfl | hc
  · exact .inr rfl
  · exact .inl (List.eq_of_mem_replicate hc)

theorem flatMap_pairs {env : PyEnv} (n : Nat) (ps : List (Str ⊕ Bytes)) :
    (ps.map (lit env)).flatMap (newLine n ++ ·) = (ps.map fun p => (newLine n, p)).flatMap fun q => q.1 ++ lit env q.2 := by
  rw [List.flatMap_map, List.flatMap_map]

theorem fieldText_evals {env : PyEnv} {spec : Spec} {dw lw : Int} {k txt : Str} {v : PpVal} (h : FieldText env spec dw lw k v txt)
    (hv : Literal v) :
    ∃ d value, DescText spec dw k d ∧ txt = padded 3 k ++ d ++ py": " ++ value ++ [10] ∧ evalLiterals value = some v.flat := by
  obtain ⟨d, pre, w, body, hd, hu, hs, rfl⟩ := h
  obtain ⟨hok, _⟩ := unpacks_ok hu hv.ok
  obtain ⟨p, ps, rfl, hg, hl⟩ := hs.lines hok
  have hb := newLine_blank (5 + d.length + pre.length)
  refine ⟨d, pre ++ (lit env p ++ (ps.map (lit env)).flatMap (newLine (5 + d.length + pre.length) ++ ·)), hd,
    by simp only [List.append_assoc], ?_⟩
  have plain : pre = [] → evalLiterals (pre ++ (lit env p ++ (ps.map (lit env)).flatMap (newLine (5 + d.length + pre.length) ++ ·))) = some w := by
    intro h0
    rw [h0] at hb ⊢
    rw [List.nil_append, flatMap_pairs, eval_pieces (hl p (by simp)), List.map_map]
    · exact glues_eval (ps := p :: ps) (by simp) hg
    · intro q hq
      obtain ⟨x, hx, rfl⟩ := List.mem_map.1 hq
      exact ⟨hb.1, hb.2, hl x (by simp [hx])⟩
  rcases hv with ⟨s, rfl, _⟩ | ⟨b, rfl⟩ | ⟨l, b, rfl⟩
  · obtain ⟨h0, rfl⟩ := hu
    exact plain h0
  · obtain ⟨h0, rfl⟩ := hu
    exact plain h0
  · obtain ⟨h0, rfl⟩ := hu
    by_cases he : l.getD [] = []
    · rw [if_pos he] at h0
      rw [plain h0, PpVal.flat, he, List.nil_append]
    · rw [if_neg he] at h0
      generalize newLine (5 + d.length + pre.length) = nl at hb ⊢
      subst h0
      have e : reprBytes (l.getD []) ++ py" " ++ (lit env p ++ (ps.map (lit env)).flatMap (nl ++ ·)) =
          lit env (.inr (l.getD [])) ++ ((py" ", p) :: ps.map fun p => (nl, p)).flatMap fun q => q.1 ++ lit env q.2 := by
        rw [List.flatMap_cons, List.flatMap_map, List.flatMap_map]
        simp only [List.append_assoc]
        rfl
      obtain ⟨qs, hqs, hf⟩ := hg
      rw [e, eval_pieces (p := .inr (l.getD [])) trivial]
      · have hm : (litVal (.inr (l.getD [])) :: ((py" ", p) :: ps.map fun p => (nl, p)).map fun q => litVal q.2) =
            (l.getD [] :: qs).map fun b => PpVal.bytes b := by
          have : ((py" ", p) :: ps.map fun p => (nl, p)).map (fun q => litVal q.2) = (p :: ps).map litVal := by
            simp [Function.comp_def]
          rw [this, hqs, List.map_map]
          rfl
        rw [hm, glue_bytes (by simp), List.flatten_cons, hf]
        rfl
      · intro q hq
        rcases List.mem_cons.1 hq with rfl | hq
        · exact ⟨by simp, by simp, hl p (by simp)⟩
        · obtain ⟨x, hx, rfl⟩ := List.mem_map.1 hq
          exact ⟨hb.1, hb.2, hl x (by simp [hx])⟩

theorem groups_evaluate {env : PyEnv} {spec : Spec} {doc : PpDoc} {dw lw : Int} {ks : List Str} {text : Str → Str}
    (ht : ∀ k ∈ ks, ∃ v, doc.get? (.str k) = some v ∧ FieldText env spec dw lw k v (text k))
    (hl : ∀ k ∈ ks, ∀ v, doc.get? (.str k) = some v → Literal v) :
    ∃ value, LaidOut spec dw ks value (ks.flatMap text) ∧
      ∀ k ∈ ks, ∃ v, doc.get? (.str k) = some v ∧ evalLiterals (value k) = some v.flat := by
  have hex : ∀ k, ∃ p : Str × Str, k ∈ ks → DescText spec dw k p.1 ∧ text k = padded 3 k ++ p.1 ++ py": " ++ p.2 ++ [10] ∧
      ∃ v, doc.get? (.str k) = some v ∧ evalLiterals p.2 = some v.flat := by
    intro k
    by_cases hm : k ∈ ks
    · obtain ⟨v, hv, hf⟩ := ht k hm
      obtain ⟨d, value, h1, h2, h3⟩ := fieldText_evals hf (hl _ hm _ hv)
      exact ⟨(d, value), fun _ => ⟨h1, h2, v, hv, h3⟩⟩
    · exact ⟨([], []), fun h => absurd h hm⟩
  obtain ⟨f, hf⟩ : ∃ f : Str → Str × Str, ∀ k, k ∈ ks → DescText spec dw k (f k).1 ∧
      text k = padded 3 k ++ (f k).1 ++ py": " ++ (f k).2 ++ [10] ∧
      ∃ v, doc.get? (.str k) = some v ∧ evalLiterals (f k).2 = some v.flat := ⟨fun k => (hex k).choose, fun k => (hex k).choose_spec⟩
  refine ⟨fun k => (f k).2, ⟨fun k => (f k).1, fun k hm => (hf k hm).1, ?_⟩, fun k hm => (hf k hm).2.2⟩
  rw [List.flatMap_def, List.flatMap_def, List.map_congr_left fun k hm => (hf k hm).2.1]

/-- **C75**: for every printed key, what `pp` writes between the colon and the end of the group is
text that Python evaluates to the value: to the text, to the bytes, and for an encoded field to the
bytes sent for it, length prefix included. -/
theorem pp_evaluates {env : PyEnv} {spec : Spec} {doc : PpDoc} {dw lw : Int} {out : Str} (nd : doc.NoDup)
    (hl : ∀ k v, doc.get? k = some v → Literal v) (h : pp env doc spec dw lw = (.ok (), out)) :
    ∃ ks value, PrintedKeys env spec doc ks ∧ LaidOut spec dw ks value out ∧
      ∀ k ∈ ks, ∃ v, doc.get? (.str k) = some v ∧ evalLiterals (value k) = some v.flat := by
  obtain ⟨_, _, ks, text, hk, ht, rfl⟩ := (pp_ok_iff nd).1 h
  obtain ⟨value, h1, h2⟩ := groups_evaluate ht fun k _ v hv => hl _ v hv
  exact ⟨ks, value, hk, h1, h2⟩

/-- The bytes sent for a key. -/
def sentBytes (enc : EncDoc) (k : Str) : Bytes :=
  match enc.get? k with
  | some e => e.len ++ e.data
  | none => []

theorem sentBytes_wire : ∀ {enc : EncDoc}, enc.keys.Nodup → enc.keys.flatMap (sentBytes enc) = wire enc
  | [], _ => rfl
  | (k, e) :: t, h => by
    have hk : Dict.keys ((k, e) :: t) = k :: Dict.keys t := rfl
    rw [hk, List.nodup_cons] at h
    have ih := sentBytes_wire h.2
    rw [hk, List.flatMap_cons]
    have h1 : sentBytes ((k, e) :: t) k = e.len ++ e.data := by simp [sentBytes, Dict.get?]
    have h2 : (Dict.keys t).map (sentBytes ((k, e) :: t)) = (Dict.keys t).map (sentBytes t) := by
      refine List.map_congr_left fun x hx => ?_
      have : k ≠ x := by rintro rfl; exact h.1 hx
      simp [sentBytes, Dict.get?, this]
    rw [h1, List.flatMap_def, h2, ← List.flatMap_def, ih]
    rfl

theorem prints_dump {env : PyEnv} {spec : Spec} {enc : EncDoc} {dw lw : Int} (h : Prints env spec dw lw (printEnc enc) enc.keys)
    (nd : enc.keys.Nodup) :
    ∃ out value field, pp env (printEnc enc) spec dw lw = (.ok (), out) ∧ LaidOut spec dw enc.keys value out ∧
      (∀ k ∈ enc.keys, evalLiterals (value k) = some (.bytes (field k))) ∧ enc.keys.flatMap field = wire enc := by
  obtain ⟨text, ht, hp⟩ := h
  obtain ⟨value, h1, h2⟩ := groups_evaluate ht (by
    intro k _ v hv
    rw [get?_printEnc] at hv
    obtain ⟨e, _, rfl⟩ := Option.map_eq_some_iff.1 hv
    exact .inr (.inr ⟨_, _, rfl⟩))
  refine ⟨_, value, sentBytes enc, hp, h1, ?_, sentBytes_wire nd⟩
  intro k hk
  obtain ⟨v, hv, e⟩ := h2 k hk
  rw [get?_printEnc] at hv
  obtain ⟨ent, he, rfl⟩ := Option.map_eq_some_iff.1 hv
  rw [e, sentBytes, he]
  rfl

/-- **C75** (encode): the dump of an encoded message can be turned back into the message.  Evaluating
what is printed for its keys, one after the other, gives the bytes. -/
theorem pp_dump_encoded {env : PyEnv} {spec : Spec} {doc doc' : Doc} {s : Bytes} {enc : EncDoc} {dw lw : Int}
    (h : encode env spec doc = (.ok (s, enc), doc')) (he : AsciiNumeric env)
    (hdig : env.maxStrDigits = 0 ∨ 3 ≤ env.maxStrDigits) (hdesc : Described spec dw) :
    ∃ out value field, pp env (printEnc enc) spec dw lw = (.ok (), out) ∧ LaidOut spec dw enc.keys value out ∧
      (∀ k ∈ enc.keys, evalLiterals (value k) = some (.bytes (field k))) ∧ enc.keys.flatMap field = s := by
  have hn : enc.keys.Nodup := by
    obtain ⟨ns, _, hr, items, bms, hw, rfl, rfl, rfl⟩ := encode_ok_iff.1 h
    rw [keys_encOf]
    exact hw.nodup (inRange_mem hr).1
  rw [encode_wire h]
  exact prints_dump (pp_encoded h he hdig hdesc) hn

/-- **C75** (decode): likewise for both dicts `decode` returned; the decoded one gives the texts. -/
theorem pp_dump_decoded {env : PyEnv} {spec : Spec} {s : Bytes} {dec : DecDoc} {enc : EncDoc} {dw lw : Int}
    (h : decode env spec s = .ok (dec, enc)) (he : AsciiNumeric env) (hdig : env.maxStrDigits = 0 ∨ 3 ≤ env.maxStrDigits)
    (hb : BoundedBitmaps env spec) (hdesc : Described spec dw) :
    (∃ out value field, pp env (printEnc enc) spec dw lw = (.ok (), out) ∧ LaidOut spec dw enc.keys value out ∧
      (∀ k ∈ enc.keys, evalLiterals (value k) = some (.bytes (field k))) ∧ enc.keys.flatMap field = s) ∧
    ((∀ k v, dec.get? k = some v → IsText v) →
      ∃ out value, pp env (printDec dec) spec dw lw = (.ok (), out) ∧ LaidOut spec dw dec.keys value out ∧
        ∀ k ∈ dec.keys, ∃ v, dec.get? k = some v ∧ evalLiterals (value k) = some (.str v)) := by
  obtain ⟨p1, p2⟩ := pp_decoded (lw := lw) h he hdig hb hdesc
  have hent := decode_entries h
  refine ⟨?_, ?_⟩
  · have := prints_dump p2 (by rw [← hent.1]; exact hent.2.1)
    rwa [decode_wire h] at this
  · intro ht
    obtain ⟨text, hx, hp⟩ := p1
    obtain ⟨value, h1, h2⟩ := groups_evaluate hx (by
      intro k _ v hv
      rw [get?_printDec] at hv
      obtain ⟨e, he, rfl⟩ := Option.map_eq_some_iff.1 hv
      exact .inl ⟨_, rfl, ht k e he⟩)
    refine ⟨_, value, hp, h1, ?_⟩
    intro k hk
    obtain ⟨v, hv, e⟩ := h2 k hk
    rw [get?_printDec] at hv
    obtain ⟨w, hw, rfl⟩ := Option.map_eq_some_iff.1 hv
    exact ⟨w, hw, e⟩

/-! ## C76 -/

theorem hexPad_printable {env : PyEnv} (w n : Nat) : ∀ c ∈ hexPad w n, Printable env c := by
  intro c hc
  have := hexPad_digits w n c hc
  exact .inl (by omega)

theorem reprStrChar_printable {env : PyEnv} {q c : Nat} (hq : q = 39 ∨ q = 34) : ∀ x ∈ reprStrChar env q c, Printable env x := by
  have lits : ∀ {l : Str}, (∀ x ∈ l, 32 ≤ x ∧ x ≤ 126) → ∀ x ∈ l, Printable env x := fun h x hx => .inl (h x hx)
  have esc : ∀ {l : Str} {w n : Nat}, (∀ x ∈ l, 32 ≤ x ∧ x ≤ 126) → ∀ x ∈ l ++ hexPad w n, Printable env x := by
    intro l w n h x hx
    rcases List.mem_append.1 hx with hx | hx
    · exact .inl (h x hx)
    · exact hexPad_printable w n x hx
  unfold reprStrChar
  by_cases h1 : c = q ∨ c = 92
  · rw [if_pos h1]; exact lits (by simp; omega)
  rw [if_neg h1]
  by_cases h2 : c = 9
  · rw [if_pos h2]; exact lits (by decide)
  rw [if_neg h2]
  by_cases h3 : c = 10
  · rw [if_pos h3]; exact lits (by decide)
  rw [if_neg h3]
  by_cases h4 : c = 13
  · rw [if_pos h4]; exact lits (by decide)
  rw [if_neg h4]
  by_cases h5 : c < 32 ∨ c = 127
  · rw [if_pos h5]; exact esc (by decide)
  rw [if_neg h5]
  by_cases h6 : c < 127
  · rw [if_pos h6]; exact lits (by simp; omega)
  rw [if_neg h6]
  by_cases h7 : env.isPrintableCp c = true
  · rw [if_pos h7]
    intro x hx
    rw [List.mem_singleton.1 hx]
    exact .inr ⟨by omega, h7⟩
  rw [if_neg h7]
  by_cases h8 : c ≤ 0xff
  · rw [if_pos h8]; exact esc (by decide)
  rw [if_neg h8]
  by_cases h9 : c ≤ 0xffff
  · rw [if_pos h9]; exact esc (by decide)
  · rw [if_neg h9]; exact esc (by decide)

theorem reprByte_printable {env : PyEnv} {q c : Nat} (hq : q = 39 ∨ q = 34) : ∀ x ∈ reprByte q c, Printable env x := by
  have lits : ∀ {l : Str}, (∀ x ∈ l, 32 ≤ x ∧ x ≤ 126) → ∀ x ∈ l, Printable env x := fun h x hx => .inl (h x hx)
  unfold reprByte
  by_cases h1 : c = q ∨ c = 92
  · rw [if_pos h1]; exact lits (by simp; omega)
  rw [if_neg h1]
  by_cases h2 : c = 9
  · rw [if_pos h2]; exact lits (by decide)
  rw [if_neg h2]
  by_cases h3 : c = 10
  · rw [if_pos h3]; exact lits (by decide)
  rw [if_neg h3]
  by_cases h4 : c = 13
  · rw [if_pos h4]; exact lits (by decide)
  rw [if_neg h4]
  by_cases h5 : c < 32 ∨ c ≥ 127
  · rw [if_pos h5]
    intro x hx
    rcases List.mem_append.1 hx with hx | hx
    · exact lits (by decide) x hx
    · exact hexPad_printable 2 c x hx
  · rw [if_neg h5]; exact lits (by simp; omega)

theorem reprStr_printable {env : PyEnv} (s : Str) : ∀ x ∈ reprStr env s, Printable env x := by
  have hq := (reprQuote_cases s).symm
  intro x hx
  unfold reprStr at hx
  dsimp only at hx
  rcases List.mem_append.1 hx with hx | hx
  · rcases List.mem_append.1 hx with hx | hx
    · rw [List.mem_singleton] at hx; exact .inl (by omega)
    · obtain ⟨c, _, hc⟩ := List.mem_flatMap.1 hx
      exact reprStrChar_printable hq x hc
  · rw [List.mem_singleton] at hx; exact .inl (by omega)

theorem reprBytes_printable {env : PyEnv} (b : Bytes) : ∀ x ∈ reprBytes b, Printable env x := by
  have hq := (reprQuote_cases (b.map UInt8.toNat)).symm
  intro x hx
  unfold reprBytes at hx
  dsimp only at hx
  rcases List.mem_append.1 hx with hx | hx
  · rcases List.mem_append.1 hx with hx | hx
    · simp only [List.mem_cons, List.not_mem_nil, or_false] at hx; exact .inl (by omega)
    · obtain ⟨c, _, hc⟩ := List.mem_flatMap.1 hx
      exact reprByte_printable hq x hc
  · rw [List.mem_singleton] at hx; exact .inl (by omega)

/-- The text of a value is a first line and further ones below it, all of harmless characters. -/
theorem Shows.tame {env : PyEnv} {P : Nat → Prop} (hP : ∀ c, Printable env c → P c) {n : Nat} {w : Int} {v : PpVal} {body : Str}
    (h : Shows env n w v body) (hv : v.Tame P) :
    ∃ p ps, body = p ++ ps.flatMap (newLine n ++ ·) ∧ ∀ x ∈ p :: ps, ∀ c ∈ x, P c := by
  have join : ∀ {qs : List Str}, qs ≠ [] → (∀ x ∈ qs, ∀ c ∈ x, P c) →
      ∃ p ps, joinWith (newLine n) qs = p ++ ps.flatMap (newLine n ++ ·) ∧ ∀ x ∈ p :: ps, ∀ c ∈ x, P c := by
    intro qs hne hq
    cases qs with
    | nil => exact absurd rfl hne
    | cons q t => exact ⟨q, t, joinWith_cons _ _ _, hq⟩
  have one : ∀ {q : Str}, (∀ c ∈ q, P c) → ∃ p ps, q = p ++ ps.flatMap (newLine n ++ ·) ∧ ∀ x ∈ p :: ps, ∀ c ∈ x, P c := by
    intro q hq
    exact ⟨q, [], by simp, by simpa using hq⟩
  cases h with
  | @strFits s h => exact one fun c hc => hP c (reprStr_printable s c hc)
  | @strFolds s ps h1 h2 hf =>
    refine join ?_ ?_
    · rintro he
      rw [List.map_eq_nil_iff.1 he] at hf
      have := hf.whole
      simp at this
      subst this
      simp at h2
    · intro x hx c hc
      obtain ⟨y, _, rfl⟩ := List.mem_map.1 hx
      exact hP c (reprStr_printable y c hc)
  | @bytesFits b h => exact one fun c hc => hP c (reprBytes_printable b c hc)
  | @bytesFolds b ps h1 h2 hf =>
    refine join ?_ ?_
    · rintro he
      rw [List.map_eq_nil_iff.1 he] at hf
      have := hf.whole
      simp at this
      subst this
      simp at h2
    · intro x hx c hc
      obtain ⟨y, _, rfl⟩ := List.mem_map.1 hx
      exact hP c (reprBytes_printable y c hc)
  | other => exact one hv

theorem descText_tame {spec : Spec} {dw : Int} {k d : Str} {P : Nat → Prop} (h32 : P 32) (h : DescText spec dw k d)
    (hd : TameDescs spec dw P) : ∀ c ∈ d, P c := by
  rcases h with ⟨_, rfl⟩ | ⟨h0, fs, x, hs, hx, rfl⟩
  · simp
  · rcases hd with hd | hd
    · omega
    · intro c hc
      rcases List.mem_append.1 hc with hc | hc
      · rw [List.mem_singleton.1 hc]; exact h32
      · unfold padded at hc
        rcases List.mem_append.1 hc with hc | hc
        · exact hd k fs x hs hx c (List.mem_of_mem_take hc)
        · rw [List.eq_of_mem_replicate hc]; exact h32

theorem unpacks_tame {env : PyEnv} {P : Nat → Prop} (hP : ∀ c, Printable env c → P c) {v w : PpVal} {pre : Str}
    (h : Unpacks v pre w) (hv : v.Tame P) : w.Tame P ∧ ∀ c ∈ pre, P c := by
  cases v with
  | str s => obtain ⟨rfl, rfl⟩ := h; exact ⟨hv, by simp⟩
  | bytes s => obtain ⟨rfl, rfl⟩ := h; exact ⟨hv, by simp⟩
  | other s => obtain ⟨rfl, rfl⟩ := h; exact ⟨hv, by simp⟩
  | dict l d =>
    obtain ⟨rfl, rfl⟩ := h
    refine ⟨trivial, ?_⟩
    by_cases hl : l.getD [] = []
    · rw [if_pos hl]; simp
    · rw [if_neg hl]
      intro c hc
      rcases List.mem_append.1 hc with hc | hc
      · exact hP c (reprBytes_printable _ c hc)
      · rw [List.mem_singleton.1 hc]; exact hP 32 (.inl (by omega))

theorem fieldText_tame {env : PyEnv} {P : Nat → Prop} (hP : ∀ c, Printable env c → P c) {spec : Spec} {dw lw : Int} {k txt : Str}
    {v : PpVal} (h : FieldText env spec dw lw k v txt) (hv : v.Tame P) (hd : TameDescs spec dw P) (hk : ∀ c ∈ k, P c) :
    ∃ (n : Nat) (first : Str) (rest : List Str), txt = (padded 3 k ++ first) ++ rest.flatMap (newLine (n + 1) ++ ·) ++ [10] ∧
      (∀ c ∈ padded 3 k ++ first, P c) ∧ ∀ x ∈ rest, ∀ c ∈ x, P c := by
  have h32 : P 32 := hP 32 (.inl (by omega))
  obtain ⟨d, pre, w, body, hd', hu, hs, rfl⟩ := h
  obtain ⟨hw, hpre⟩ := unpacks_tame hP hu hv
  obtain ⟨p, ps, rfl, hps⟩ := hs.tame hP hw
  refine ⟨4 + d.length + pre.length, d ++ py": " ++ pre ++ p, ps, ?_, ?_, fun x hx => hps x (by simp [hx])⟩
  · have : 5 + d.length + pre.length = 4 + d.length + pre.length + 1 := by omega
    rw [this]
    simp only [List.append_assoc]
  · intro c hc
    rcases List.mem_append.1 hc with hc | hc
    · unfold padded at hc
      rcases List.mem_append.1 hc with hc | hc
      · exact hk c hc
      · rw [List.eq_of_mem_replicate hc]; exact h32
    · rcases List.mem_append.1 hc with hc | hc
      · rcases List.mem_append.1 hc with hc | hc
        · rcases List.mem_append.1 hc with hc | hc
          · exact descText_tame h32 hd' hd c hc
          · simp only [List.mem_cons, List.not_mem_nil, or_false] at hc
            exact hP c (.inl (by omega))
        · exact hpre c hc
      · exact hps p (by simp) c hc

theorem printed_chars {env : PyEnv} {P : Nat → Prop} (hnum : ∀ c, env.isNumericCp c = true → P c) (hP : ∀ c, Printable env c → P c)
    {spec : Spec} {doc : PpDoc} {ks : List Str} (h : PrintedKeys env spec doc ks) : ∀ k ∈ ks, ∀ c ∈ k, P c := by
  have letter : ∀ {k : Str}, k = py"h" ∨ k = py"t" ∨ k = py"p" → ∀ c ∈ k, P c := by
    rintro k (rfl | rfl | rfl) c hc <;> rw [List.mem_singleton.1 hc] <;> exact hP _ (.inl (by omega))
  obtain ⟨ls, ns, rfl, ⟨hs, ts, ps, rfl, h1, h2, h3⟩, hp, _⟩ := h
  intro k hk
  rcases List.mem_append.1 hk with hk | hk
  · refine letter ?_
    rcases List.mem_append.1 hk with hk | hk
    · rcases List.mem_append.1 hk with hk | hk
      · rcases h1 with ⟨_, _, rfl⟩ | ⟨_, rfl⟩
        · exact .inl (by simpa using hk)
        · cases hk
      · rcases h2 with ⟨_, rfl⟩ | ⟨_, rfl⟩
        · exact .inr (.inl (by simpa using hk))
        · cases hk
    · rcases h3 with ⟨_, rfl⟩ | ⟨_, rfl⟩
      · exact .inr (.inr (by simpa using hk))
      · cases hk
  · have := (mem_numericStrs.1 (hp.mem_iff.1 hk)).2
    simp only [isNumeric, Bool.and_eq_true, decide_eq_true_eq, List.all_eq_true] at this
    exact fun c hc => hnum c (this.2 c hc)

/-- **C76**: `pp` writes newlines and printable characters only, whatever the values hold. -/
theorem pp_printable {env : PyEnv} {spec : Spec} {doc : PpDoc} {dw lw : Int} {out : Str} (nd : doc.NoDup)
    (hnum : ∀ c, env.isNumericCp c = true → Printable env c) (hd : TameDescs spec dw (Printable env))
    (hv : ∀ k v, doc.get? k = some v → v.Tame (Printable env)) (h : pp env doc spec dw lw = (.ok (), out)) :
    ∀ c ∈ out, c = 10 ∨ Printable env c := by
  obtain ⟨_, _, ks, text, hk, ht, rfl⟩ := (pp_ok_iff nd).1 h
  intro c hc
  obtain ⟨k, hm, hc⟩ := List.mem_flatMap.1 hc
  obtain ⟨v, hg, hf⟩ := ht k hm
  have hkp := printed_chars hnum (fun _ h => h) hk k hm
  obtain ⟨n, first, rest, e, h1, h2⟩ := fieldText_tame (fun _ h => h) hf (hv _ _ hg) hd hkp
  rw [e] at hc
  rcases List.mem_append.1 hc with hc | hc
  · rcases List.mem_append.1 hc with hc | hc
    · exact .inr (h1 c hc)
    · obtain ⟨x, hx, hc⟩ := List.mem_flatMap.1 hc
      rcases List.mem_append.1 hc with hc | hc
      · rcases (newLine_blank _).2 c hc with rfl | rfl
        · exact .inr (.inl (by omega))
        · exact .inl rfl
      · exact .inr (h2 x hx c hc)
  · exact .inl (List.mem_singleton.1 hc)

theorem linesOf_line : ∀ {x : Str} (y : Str), (∀ c ∈ x, c ≠ 10) → linesOf (x ++ 10 :: y) = x :: linesOf y
  | [], _, _ => by simp [linesOf]
  | c :: t, y, h => by
    have ih := linesOf_line (x := t) y fun d hd => h d (by simp [hd])
    have hc : c ≠ 10 := h c (by simp)
    rw [List.cons_append, linesOf, if_neg hc, ih]

theorem linesOf_group {n : Nat} : ∀ {rest : List Str} {first : Str} (y : Str), (∀ c ∈ first, c ≠ 10) →
    (∀ x ∈ rest, ∀ c ∈ x, c ≠ 10) →
    linesOf (first ++ rest.flatMap (newLine n ++ ·) ++ [10] ++ y) = first :: rest.map (List.replicate n 32 ++ ·) ++ linesOf y
  | [], first, y, h, _ => by
    have := linesOf_line y h
    simpa using this
  | r :: t, first, y, h, hr => by
    have ih := linesOf_group (n := n) (rest := t) (first := List.replicate n 32 ++ r) y (by
      intro c hc
      rcases List.mem_append.1 hc with hc | hc
      · rw [List.eq_of_mem_replicate hc]; decide
      · exact hr r (by simp) c hc) fun x hx => hr x (by simp [hx])
    have e : first ++ (r :: t).flatMap (newLine n ++ ·) ++ [10] ++ y =
        first ++ 10 :: (List.replicate n 32 ++ r ++ t.flatMap (newLine n ++ ·) ++ [10] ++ y) := by
      simp [newLine, List.append_assoc]
    rw [e, linesOf_line _ h, ih]
    simp

theorem lines_groups {env : PyEnv} {spec : Spec} {doc : PpDoc} {dw lw : Int} {text : Str → Str}
    (hd : TameDescs spec dw (· ≠ 10)) (hv : ∀ k v, doc.get? k = some v → v.Tame (· ≠ 10)) : ∀ {ks : List Str},
    (∀ k ∈ ks, KeyOk k) → (∀ k ∈ ks, ∀ c ∈ k, c ≠ 10) →
    (∀ k ∈ ks, ∃ v, doc.get? (.str k) = some v ∧ FieldText env spec dw lw k v (text k)) →
    ∃ firsts : List Str, firsts.length = ks.length ∧
      (linesOf (ks.flatMap text)).filter (fun l => l.head? ≠ some 32) = (ks.zip firsts).map fun p => padded 3 p.1 ++ p.2
  | [], _, _, _ => ⟨[], rfl, rfl⟩
  | k :: t, hk, h10, ht => by
    obtain ⟨fs, hl, ih⟩ := lines_groups hd hv (ks := t) (fun x hx => hk x (by simp [hx])) (fun x hx => h10 x (by simp [hx]))
      fun x hx => ht x (by simp [hx])
    obtain ⟨v, hg, hf⟩ := ht k (by simp)
    obtain ⟨n, first, rest, e, h1, h2⟩ := fieldText_tame (P := (· ≠ 10)) (by rintro c (h | h) rfl <;> omega) hf (hv _ _ hg) hd
      (h10 k (by simp))
    refine ⟨first :: fs, by simp [hl], ?_⟩
    rw [List.flatMap_cons, e, linesOf_group _ h1 h2, List.filter_append, ih, List.filter_cons]
    have hhead : (padded 3 k ++ first).head? ≠ some 32 := by
      obtain ⟨hne, hok⟩ := hk k (by simp)
      cases k with
      | nil => exact absurd rfl hne
      | cons c u =>
        simp only [padded, List.cons_append, List.head?_cons, ne_eq, Option.some.injEq]
        exact (hok c (by simp)).1
    have hrest : (rest.map (List.replicate (n + 1) 32 ++ ·)).filter (fun l => l.head? ≠ some 32) = [] := by
      rw [List.filter_eq_nil_iff]
      intro l hl
      obtain ⟨x, _, rfl⟩ := List.mem_map.1 hl
      simp [List.replicate_succ]
    rw [if_pos (decide_eq_true hhead), hrest]
    simp

/-- **C76** (lines): the lines that do not begin with a space are one for each printed key, in the
order of the keys, and begin with that key.  No value can hold text that would look like a further
field. -/
theorem pp_no_forged_line {env : PyEnv} {spec : Spec} {doc : PpDoc} {dw lw : Int} {out : Str} (he : AsciiNumeric env) (nd : doc.NoDup)
    (hd : TameDescs spec dw (· ≠ 10)) (hv : ∀ k v, doc.get? k = some v → v.Tame (· ≠ 10))
    (h : pp env doc spec dw lw = (.ok (), out)) :
    ∃ ks firsts, PrintedKeys env spec doc ks ∧ firsts.length = ks.length ∧
      (linesOf out).filter (fun l => l.head? ≠ some 32) = (ks.zip firsts).map fun p => padded 3 p.1 ++ p.2 := by
  obtain ⟨_, _, ks, text, hk, ht, rfl⟩ := (pp_ok_iff nd).1 h
  have hnum : ∀ c, env.isNumericCp c = true → c ≠ 10 := by
    rintro c hc rfl
    rw [he 10 (by decide)] at hc
    exact absurd hc (by decide)
  obtain ⟨firsts, h1, h2⟩ := lines_groups hd hv (printed_keyOk he hk)
    (printed_chars hnum (by rintro c (h | h) rfl <;> omega) hk) ht
  exact ⟨ks, firsts, hk, h1, h2⟩

/-! ## The hypotheses are met -/

theorem nodup_read : readDoc'.NoDup := by unfold Dict.NoDup; decide

example : ∃ ks value, PrintedKeys cpython ppSpec readDoc' ks ∧
    LaidOut ppSpec 0 ks value (py"t  : '0200'\n2  : b\"\\x12'\\n\"\n44 : \"it's\\n" ++ [0xe9] ++ py"\"\n") ∧
    ∀ k ∈ ks, ∃ v, readDoc'.get? (.str k) = some v ∧ evalLiterals (value k) = some v.flat :=
  pp_evaluates (lw := 80) nodup_read (literal_of_all read_literals.2) (by decide +kernel)

/-- The reader on its own: both quotes, escapes, adjacent literals over two lines, and what Python
rejects. -/
example : evalLiterals py"'a' \"b'\\x41\"\n     '\\u00e9\\101'" = some (.str (py"ab'A" ++ [0xe9] ++ py"A")) ∧
    evalLiterals py"b'\\xff' b'\\''" = some (.bytes [0xff, 0x27]) ∧ evalLiterals py"'a' b'b'" = none ∧
    evalLiterals py"'a\n'" = none ∧ evalLiterals py"'a" = none ∧ evalLiterals py"0200" = none := by decide +kernel

example : ∃ out value field, pp cpython (printEnc demoEnc) demoSpec 0 40 = (.ok (), out) ∧
    LaidOut demoSpec 0 demoEnc.keys value out ∧
    (∀ k ∈ demoEnc.keys, evalLiterals (value k) = some (.bytes (field k))) ∧ demoEnc.keys.flatMap field = demoMsg :=
  pp_dump_encoded demo_encode cpython_ascii (by decide) (.inl (by decide))

example : ∃ out value field, pp cpython (printEnc demoEnc) demoSpec 0 40 = (.ok (), out) ∧
    LaidOut demoSpec 0 demoEnc.keys value out ∧
    (∀ k ∈ demoEnc.keys, evalLiterals (value k) = some (.bytes (field k))) ∧ demoEnc.keys.flatMap field = demoMsg := by
  refine (pp_dump_decoded demo_decode cpython_ascii (by decide) ?_ (.inl (by decide))).1
  intro k fs hk hs
  right
  intro c hc
  exact (cpython_codecs_lawful _ c hc).bounded

/-- A text that would show a further field if it were printed as it is, ring the bell and go back to
the start of the line. -/
def slyDoc : PpDoc := [(.str py"2", .str (py"1\n44 : '0'\n" ++ [7, 13])), (.str py"t", .str py"0200")]

theorem slyDoc_tame (P : Nat → Prop) : ∀ k v, slyDoc.get? k = some v → v.Tame P := by
  intro k v h
  have := Dict.mem_of_get? h
  simp only [slyDoc, List.mem_cons, List.not_mem_nil, or_false, Prod.mk.injEq] at this
  rcases this with ⟨_, rfl⟩ | ⟨_, rfl⟩ <;> trivial

example : ∀ c ∈ (pp cpython slyDoc ppSpec 0 80).2, c = 10 ∨ Printable cpython c := by
  refine pp_printable (spec := ppSpec) (dw := 0) (lw := 80) (by unfold Dict.NoDup; decide) ?_ (.inl (by decide)) (slyDoc_tame _)
    (Prod.ext (by decide +kernel) rfl)
  intro c hc
  simp only [cpython, isAsciiDigit, Bool.or_eq_true, Bool.and_eq_true, decide_eq_true_eq, beq_iff_eq, bne_iff_ne] at hc
  unfold Printable
  simp only [cpython, Bool.or_eq_true, Bool.and_eq_true, decide_eq_true_eq, bne_iff_ne]
  omega

example : ∃ ks firsts, PrintedKeys cpython ppSpec slyDoc ks ∧ firsts.length = ks.length ∧
    (linesOf (pp cpython slyDoc ppSpec 0 80).2).filter (fun l => l.head? ≠ some 32) = (ks.zip firsts).map fun p => padded 3 p.1 ++ p.2 :=
  pp_no_forged_line cpython_ascii (by unfold Dict.NoDup; decide) (.inl (by decide)) (slyDoc_tame _) (Prod.ext (by decide +kernel) rfl)

example : linesOf (pp cpython slyDoc ppSpec 0 80).2 = [py"t  : '0200'", py"2  : \"1\\n44 : '0'\\n\\x07\\r\""] := by decide +kernel

end Iso8583
