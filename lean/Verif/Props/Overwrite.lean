import Verif.Props.Edit
import Verif.Props.DecodeTotal
/-!
# Overwriting a field in a received message (C97)

Masking an account number or filling in an authentication code is done on the bytes of a message,
without encoding it again.
-/

namespace Iso8583

section
variable {env : PyEnv} {spec : Spec} {k : Str} {fs : FieldSpec}

theorem bitmapParts_keys {b : List Part} {P : Nat → Prop} (h : BitmapParts env spec b P) : ∀ p ∈ b, p.key = py"p" ∨ p.key = py"1" := by
  cases h <;> simp

/-- A part of a message other than type and bitmaps is a field. -/
theorem Message.part {ps : List Part} (h : Message env spec ps) {p : Part} (hp : p ∈ ps) (ht : p.key ≠ py"t") (hp' : p.key ≠ py"p")
    (h1 : p.key ≠ py"1") : ∃ fs, spec.get? p.key = some fs ∧ FieldRead env fs p.entry p.text := by
  obtain ⟨hd, t, b, f, P, F, rfl, hh, hty, hb, _, _, _, hf⟩ := h
  simp only [List.mem_append, List.mem_cons] at hp
  rcases hp with (hp | rfl | hp) | hp
  · obtain ⟨fs, hs, ⟨_, rfl⟩ | ⟨_, e, v, rfl, hr⟩⟩ := hh
    · cases hp
    · rw [List.mem_singleton] at hp
      subst hp
      exact ⟨fs, hs, hr⟩
  · obtain ⟨_, _, _, _, rfl, _⟩ := hty
    exact absurd rfl ht
  · rcases bitmapParts_keys hb p hp with h | h
    · exact absurd h hp'
    · exact absurd h h1
  · exact hf p hp

/-- Exchanging a field for another reading of it leaves a message. -/
theorem Message.exchange {ps : List Part} (h : Message env spec ps) (ht : k ≠ py"t") (hp : k ≠ py"p") (h1 : k ≠ py"1")
    (hs : spec.get? k = some fs) {e : EncEntry} {v : Str} (hr : FieldRead env fs e v) :
    Message env spec (ps.map (Iso8583.exchange k ⟨k, e, v⟩)) := by
  obtain ⟨hd, t, b, f, P, F, rfl, hh, hty, hb, hF, hmem, hkeys, hf⟩ := h
  refine ⟨hd.map (Iso8583.exchange k ⟨k, e, v⟩), t, b, f.map (Iso8583.exchange k ⟨k, e, v⟩), P, F, ?_, ?_, hty, hb, hF, hmem, ?_, ?_⟩
  · have hbk : b.map (Iso8583.exchange k ⟨k, e, v⟩) = b := by
      refine (List.map_congr_left fun p hpb => exchange_of_ne ?_).trans (List.map_id' b)
      rcases bitmapParts_keys hb p hpb with h | h <;> rw [h]
      · exact Ne.symm hp
      · exact Ne.symm h1
    have htk : Iso8583.exchange k ⟨k, e, v⟩ t = t := by
      obtain ⟨_, _, _, _, rfl, _⟩ := hty
      exact exchange_of_ne (Ne.symm ht)
    simp only [List.map_append, List.map_cons, hbk, htk]
  · obtain ⟨fs', hs', ⟨hm, rfl⟩ | ⟨hm, e', v', rfl, hr'⟩⟩ := hh
    · exact ⟨fs', hs', .inl ⟨hm, rfl⟩⟩
    · by_cases hk : py"h" = k
      · subst hk
        rw [hs] at hs'; cases hs'
        exact ⟨fs, hs, .inr ⟨hm, e, v, by simp [Iso8583.exchange], hr⟩⟩
      · exact ⟨fs', hs', .inr ⟨hm, e', v', by simp [Iso8583.exchange, hk], hr'⟩⟩
  · rw [List.map_map, ← hkeys]
    exact List.map_congr_left fun p _ => exchange_key _ _ _ p
  · intro p hpm
    obtain ⟨q, hq, rfl⟩ := List.mem_map.1 hpm
    unfold Iso8583.exchange
    by_cases hqk : q.key = k
    · rw [if_pos hqk]
      exact ⟨fs, hs, hr⟩
    · rw [if_neg hqk]
      exact hf q hq

theorem partsDec_exchange {ps : List Part} {e : EncEntry} {x : Str} (nd : (ps.map Part.key).Nodup)
    (hk : k ∈ ps.map Part.key) : partsDec (ps.map (exchange k ⟨k, e, x⟩)) = (partsDec ps).set k x := by
  have hkeys : (partsDec ps).keys = ps.map Part.key := by simp [partsDec, Dict.keys, Function.comp_def]
  rw [Dict.set_eq_map (by unfold Dict.NoDup; rw [hkeys]; exact nd) (by rw [hkeys]; exact hk)]
  simp only [partsDec, List.map_map]
  refine List.map_congr_left fun p _ => ?_
  simp only [Function.comp, exchange]
  by_cases hp : p.key = k
  · rw [if_pos hp, if_pos hp]
  · rw [if_neg hp, if_neg hp]

/-- A field of a message is expected after the parts before it. -/
theorem Message.expects {pre post : List Part} {p : Part} (h : Message env spec (pre ++ p :: post)) (ht : p.key ≠ py"t")
    (hp : p.key ≠ py"p") (h1 : p.key ≠ py"1") : Expects env spec pre p.key := by
  obtain ⟨hd, t, b, f, P, F, he, hh, hty, hb, hF, hmem, hkeys, hf⟩ := h
  have hnb : p ∉ t :: b := by
    intro hm
    rcases List.mem_cons.1 hm with rfl | hm
    · obtain ⟨_, _, _, _, rfl, _⟩ := hty
      exact ht rfl
    · rcases bitmapParts_keys hb p hm with h | h
      · exact hp h
      · exact h1 h
  rw [List.append_assoc] at he
  have hsplit : ∀ f1 f2, f = f1 ++ p :: f2 → pre = hd ++ t :: b ++ f1 → Expects env spec pre p.key := by
    rintro f1 f2 rfl rfl
    have hlen := congrArg List.length hkeys
    rw [List.map_append, List.map_cons] at hkeys
    obtain ⟨done, rest', hFe, hd1, hr1⟩ := List.map_eq_append_iff.1 hkeys.symm
    obtain ⟨i, rest, rfl, hi, _⟩ := List.map_eq_cons_iff.1 hr1
    subst hFe
    rw [← hi]
    exact .field hh hty hb hF hmem hd1.symm fun q hq => hf q (by simp [hq])
  obtain ⟨fs', hs', ⟨hm, rfl⟩ | ⟨hm, e', v', rfl, hr'⟩⟩ := hh
  · rw [List.nil_append] at he
    rcases List.append_eq_append_iff.1 he with ⟨a, ha, hb'⟩ | ⟨a, ha, hb'⟩
    · cases a with
      | nil => exact hsplit [] post hb'.symm (by simpa using ha.symm)
      | cons x a =>
        simp only [List.cons_append, List.cons.injEq] at hb'
        exact absurd (by rw [ha, ← hb'.1]; simp) hnb
    · exact hsplit a post hb' (by simpa using ha)
  · cases pre with
    | nil =>
      simp only [List.nil_append, List.cons_append, List.cons.injEq] at he
      rw [he.1]
      exact .header fun fs'' hs'' => by rw [hs'] at hs''; cases hs''; exact hm
    | cons x pre =>
      simp only [List.cons_append, List.nil_append, List.cons.injEq] at he
      obtain ⟨rfl, he⟩ := he
      rcases List.append_eq_append_iff.1 (show pre ++ p :: post = (t :: b) ++ f from he) with ⟨a, ha, hb'⟩ | ⟨a, ha, hb'⟩
      · cases a with
        | nil => exact hsplit [] post hb'.symm (by simpa using ha.symm)
        | cons x a =>
          simp only [List.cons_append, List.cons.injEq] at hb'
          exact absurd (by rw [ha, ← hb'.1]; simp) hnb
      · exact hsplit a post hb' (by simpa using ha)

theorem UnitsRead.unique {L : Bytes} {n n' : Int} (h : UnitsRead env fs L n) (h' : UnitsRead env fs L n') : n = n' := by
  obtain ⟨⟨_, h⟩, _⟩ := h
  obtain ⟨⟨_, h'⟩, _⟩ := h'
  by_cases hl : fs.lenType = 0
  · rw [if_pos hl] at h h'; rw [h, h']
  · rw [if_neg hl] at h h'
    have := h.1.symm.trans h'.1
    simpa using this

theorem DataSays.unique {n : Int} {D : Bytes} {v v' : Str} (h : DataSays env fs n D v) (h' : DataSays env fs n D v') : v = v' := by
  unfold DataSays at h h'
  by_cases hD : D = []
  · rw [if_pos hD] at h h'; rw [h, h']
  · rw [if_neg hD] at h h'
    by_cases hb : fs.isBinary
    · rw [if_pos hb] at h h'
      by_cases ho : fs.inNibbles ∧ n % 2 = 1
      · rw [if_pos ho] at h h'
        by_cases hp : firstPad fs.leftPad = (hexText D).head?
        · rw [if_pos hp] at h h'
          obtain ⟨c, h⟩ := h
          obtain ⟨c', h'⟩ := h'
          rw [h] at h'
          exact (List.cons.inj h').2
        · rw [if_neg hp] at h h'
          obtain ⟨c, hc, h⟩ := h
          obtain ⟨c', hc', h'⟩ := h'
          rw [h] at h'
          rw [hc] at hc'; cases hc'
          exact List.append_cancel_right h'
      · rw [if_neg ho] at h h'; rw [h, h']
    · rw [if_neg hb] at h h'
      obtain ⟨c, hc, h⟩ := h
      obtain ⟨c', hc', h'⟩ := h'
      rw [hc] at hc'; cases hc'
      rw [h] at h'; cases h'; rfl

theorem Dict.split_unique {κ ν : Type} [DecidableEq κ] {a b c d : Dict κ ν} {k : κ} {v w : ν} (ha : k ∉ a.keys) (hb : k ∉ b.keys)
    (h : a ++ (k, v) :: c = b ++ (k, w) :: d) : a = b ∧ v = w ∧ c = d := by
  induction a generalizing b with
  | nil =>
    cases b with
    | nil => simpa using h
    | cons q b =>
      simp only [List.nil_append, List.cons_append, List.cons.injEq] at h
      exact absurd (by rw [← h.1]; simp) hb
  | cons p a ih =>
    cases b with
    | nil =>
      simp only [List.nil_append, List.cons_append, List.cons.injEq] at h
      exact absurd (by rw [h.1]; simp) ha
    | cons q b =>
      simp only [List.cons_append, List.cons.injEq] at h
      simp only [Dict.keys_cons, List.mem_cons, not_or] at ha hb
      obtain ⟨rfl, h2⟩ := ih ha.2 hb.2 h.2
      exact ⟨by rw [h.1], h2⟩

/-- Other data of the same size: it can be read too, or the message is that it cannot. -/
theorem FieldRead.overwrite {L D D' : Bytes} {v : Str} (h : FieldRead env fs ⟨L, D⟩ v) (hl : D'.length = D.length) :
    ∃ n, UnitsRead env fs L n ∧ (D'.length : Int) = bytesFor fs n ∧
      ((∃ v', DataSays env fs n D' v' ∧ FieldRead env fs ⟨L, D'⟩ v') ∨
       ((∀ v', ¬ DataSays env fs n D' v') ∧ n ≠ 0 ∧
        ((fs.isBinary ∧ fs.inNibbles ∧ n % 2 = 1 ∧ (∀ c, firstPad fs.leftPad = some c → (hexText D').head? ≠ some c) ∧
          (∀ c, firstPad fs.rightPad = some c → (hexText D').getLast? ≠ some c)) ∨
         (¬ fs.isBinary ∧ D' ≠ [] ∧ ∃ c, env.codec fs.dataEnc = some c ∧ c.decode D' = none)))) := by
  obtain ⟨n, hu, hb, hd, hn⟩ := h
  dsimp only at hu hb hd
  have hb' : (D'.length : Int) = bytesFor fs n := by rw [hl]; exact hb
  refine ⟨n, hu, hb', ?_⟩
  by_cases hx : ∃ v', DataSays env fs n D' v'
  · obtain ⟨v', hx⟩ := hx
    exact .inl ⟨v', hx, n, hu, hb', hx, hn⟩
  · have hx' : ∀ v', ¬ DataSays env fs n D' v' := fun v' h => hx ⟨v', h⟩
    refine .inr ⟨hx', ?_, ?_⟩
    · rintro rfl
      have : D' = [] := by
        apply List.eq_nil_of_length_eq_zero
        unfold bytesFor at hb'
        split at hb' <;> omega
      exact hx' [] (by unfold DataSays; rw [if_pos this])
    · have hne : D' ≠ [] := fun h => hx' [] (by unfold DataSays; rw [if_pos h])
      have hneD : D ≠ [] := by
        rintro rfl
        exact hne (List.eq_nil_of_length_eq_zero hl)
      by_cases hbin : fs.isBinary
      · left
        by_cases hodd : fs.inNibbles ∧ n % 2 = 1
        · refine ⟨hbin, hodd.1, hodd.2, fun c hc hh => ?_, fun c hc hh => ?_⟩
          · cases ht : hexText D' with
            | nil => rw [ht] at hh; cases hh
            | cons a r =>
              rw [ht] at hh
              refine hx' r ?_
              unfold DataSays
              rw [if_neg hne, if_pos hbin, if_pos hodd, if_pos (by rw [hc, ht]; exact hh.symm)]
              exact ⟨a, ht⟩
          · by_cases hleft : firstPad fs.leftPad = (hexText D').head?
            · cases ht : hexText D' with
              | nil => rw [ht] at hh; cases hh
              | cons a r =>
                refine hx' r ?_
                unfold DataSays
                rw [if_neg hne, if_pos hbin, if_pos hodd, if_pos hleft]
                exact ⟨a, ht⟩
            · refine hx' (hexText D').dropLast ?_
              unfold DataSays
              rw [if_neg hne, if_pos hbin, if_pos hodd, if_neg hleft]
              refine ⟨c, hc, ?_⟩
              obtain ⟨ys, hys⟩ := List.getLast?_eq_some_iff.1 hh
              rw [hys, List.dropLast_concat]
        · refine absurd ?_ (hx' (hexText D'))
          unfold DataSays
          rw [if_neg hne, if_pos hbin, if_neg hodd]
      · right
        unfold DataSays at hd
        rw [if_neg hneD, if_neg hbin] at hd
        obtain ⟨c, hc, _⟩ := hd
        refine ⟨hbin, hne, c, hc, ?_⟩
        cases hdec : c.decode D' with
        | none => rfl
        | some v' =>
          refine absurd ?_ (hx' v')
          unfold DataSays
          rw [if_neg hne, if_neg hbin]
          exact ⟨c, hc, hdec⟩

end

/-- **C97**: in a message that decodes, the bytes of one field (or of the header) can be
exchanged for other bytes that read as that field, of the same or another length.  The result
decodes to the same dicts with that one entry exchanged. -/
theorem overwrite_field {env : PyEnv} {spec : Spec} {s : Bytes} {dec : DecDoc} {pre post : EncDoc} {k : Str} {e e' : EncEntry} {v' : Str}
    {fs : FieldSpec} (h : decode env spec s = .ok (dec, pre ++ (k, e) :: post)) (ht : k ≠ py"t") (hp : k ≠ py"p") (h1 : k ≠ py"1")
    (hs : spec.get? k = some fs) (hr : FieldRead env fs e' v') :
    s = wire pre ++ (e.len ++ e.data) ++ wire post ∧
    decode env spec (wire pre ++ (e'.len ++ e'.data) ++ wire post) = .ok (dec.set k v', pre ++ (k, e') :: post) := by
  have hnd : Dict.NoDup (pre ++ (k, e) :: post) := by
    have := decode_entries h
    unfold Dict.NoDup
    rw [← this.1]
    exact this.2.1
  obtain ⟨ps, hm, rfl, he, hw⟩ := decode_iff.1 h
  have hkeys : (partsEnc ps).keys = ps.map Part.key := by simp [partsEnc, Dict.keys, Function.comp_def]
  have hnk : (ps.map Part.key).Nodup := by rw [← hkeys, ← he]; exact hnd
  have hk : k ∈ ps.map Part.key := by rw [← hkeys, ← he]; simp
  unfold Dict.NoDup at hnd
  rw [Dict.keys_append, Dict.keys_cons] at hnd
  have hpre : k ∉ pre.keys := fun hm => (List.nodup_append.1 hnd).2.2 k hm k (by simp) rfl
  refine ⟨by rw [hw]; simp [wire], decode_iff.2 ⟨_, hm.exchange ht hp h1 hs hr, (partsDec_exchange hnk hk).symm, ?_, ?_⟩⟩
  · rw [partsEnc_exchange hnk hk, ← he, Dict.set_append_of_not_mem hpre]
    simp [Dict.set]
  · simp [wire]

/-- **C97**: the data of one field overwritten by other data of the same length. Either the data can
be read for this field, and the message decodes to the same dicts with that one entry exchanged;
or `decode` raises `DecodeError` about the data of this very field, at its place. -/
theorem overwrite_data {env : PyEnv} {spec : Spec} {s : Bytes} {dec : DecDoc} {pre post : EncDoc} {k : Str} {L D D' : Bytes}
    {fs : FieldSpec} (h : decode env spec s = .ok (dec, pre ++ (k, ⟨L, D⟩) :: post)) (ht : k ≠ py"t") (hp : k ≠ py"p") (h1 : k ≠ py"1")
    (hs : spec.get? k = some fs) (hl : D'.length = D.length) :
    ∃ n, UnitsRead env fs L n ∧
      ((∃ v', DataSays env fs n D' v' ∧
        decode env spec (wire pre ++ (L ++ D') ++ wire post) = .ok (dec.set k v', pre ++ (k, ⟨L, D'⟩) :: post)) ∨
       ((∀ v', ¬ DataSays env fs n D' v') ∧ ∃ e, decode env spec (wire pre ++ (L ++ D') ++ wire post) = .error (.decodeError e) ∧
        e.field = k ∧ e.pos = (wire pre ++ L).length ∧ e.docEnc = pre ++ [(k, ⟨L, D'⟩)] ∧
        e.docDec.keys = pre.keys ++ [k] ∧ (∀ x ∈ pre.keys, e.docDec.get? x = dec.get? x) ∧
        e.msg = if fs.isBinary then .padMissing (2 * D'.length) n else .invalidData)) := by
  obtain ⟨ps, hm, rfl, he, hw⟩ := decode_iff.1 h
  obtain ⟨P, p, Q, rfl, hP, hpe, hQ⟩ : ∃ P p Q, ps = P ++ p :: Q ∧ partsEnc P = pre ∧ (p.key, p.entry) = (k, ⟨L, D⟩) ∧ partsEnc Q = post := by
    obtain ⟨P, R, rfl, hP, hR⟩ := List.map_eq_append_iff.1 he.symm
    obtain ⟨p, Q, rfl, hp, hQ⟩ := List.map_eq_cons_iff.1 hR
    exact ⟨P, p, Q, rfl, hP, hp, hQ⟩
  simp only [Prod.mk.injEq] at hpe
  obtain ⟨rfl, hpe⟩ := hpe
  obtain ⟨fs', hs', hr⟩ := hm.part (p := p) (by simp) ht hp h1
  rw [hs] at hs'; cases hs'
  rw [hpe] at hr
  obtain ⟨n, hu, hb, hcase⟩ := hr.overwrite hl
  refine ⟨n, hu, ?_⟩
  rcases hcase with ⟨v', hd, hr'⟩ | ⟨hno, hn0, hwhy⟩
  · exact .inl ⟨v', hd, (overwrite_field h ht hp h1 hs hr').2⟩
  · right
    refine ⟨hno, ?_⟩
    have hx := hm.expects ht hp h1
    have hL : L.length = fs.lenType := hu.1.1
    have hpw : (partsWire P).length = (wire pre).length := by unfold partsWire; rw [hP]
    have hheld : DataHeld env fs (wire pre ++ (L ++ D') ++ wire post) (partsWire P).length ⟨L, D'⟩ n := by
      refine ⟨⟨?_, ?_⟩, hu, hn0, hb, ?_⟩
      · rw [hpw, ← hL]; simp only [List.length_append]; omega
      · rw [hpw, List.append_assoc, List.drop_left, List.append_assoc, ← hL, List.take_left]
      · rw [hpw, ← List.append_assoc, ← hL, ← List.length_append, List.append_assoc, List.drop_left]
        exact List.prefix_append _ _
    have hfault : ∃ v m, DecFieldFault env fs (wire pre ++ (L ++ D') ++ wire post) (partsWire P).length ⟨L, D'⟩ v m ∧ m.aboutData = true ∧
        m = if fs.isBinary then .padMissing (2 * D'.length) n else .invalidData := by
      rcases hwhy with ⟨a1, a2, a3, a4, a5⟩ | ⟨a1, a2, a3⟩
      · exact ⟨hexText D', .padMissing (2 * D'.length) n, ⟨hheld, a1, a2, a3, a4, a5, rfl, rfl⟩, rfl, by rw [if_pos a1]⟩
      · exact ⟨[], .invalidData, ⟨n, hheld, a1, a2, a3, rfl⟩, rfl, by rw [if_neg a1]⟩
    obtain ⟨v, m, hf, hm1, hm2⟩ := hfault
    refine ⟨⟨m, _, partsDec P ++ [(p.key, v)], partsEnc P ++ [(p.key, ⟨L, D'⟩)], (partsWire P).length + fs.lenType, p.key⟩,
      decode_of_fails ⟨rfl, .inr (.inl ⟨P, fs, ⟨L, D'⟩, v, fs.lenType, hx, ?_, hs, ?_, rfl, rfl, rfl⟩)⟩, rfl, ?_, by rw [hP], ?_, ?_, hm2⟩
    · unfold partsWire
      rw [hP, List.append_assoc]
      exact List.prefix_append _ _
    · unfold DecSimpleFault
      dsimp only
      rw [if_neg ht, if_neg (by simp [hp, h1])]
      exact ⟨hf, by rw [if_pos hm1]⟩
    · dsimp only
      rw [hpw, List.length_append, hL]
    · rw [← hP]
      simp [partsDec, partsEnc, Dict.keys, Function.comp_def]
    · intro x hx
      have hkp : (partsDec P).keys = pre.keys := by rw [← hP]; simp [partsDec, partsEnc, Dict.keys, Function.comp_def]
      have hd : partsDec (P ++ p :: Q) = partsDec P ++ partsDec (p :: Q) := by simp [partsDec]
      obtain ⟨y, hy⟩ := Dict.mem_keys_iff.1 (hkp ▸ hx)
      rw [hd, Dict.get?_append, Dict.get?_append, hy]
      rfl

/-- **C97**: binary data in whole bytes can be overwritten with anything, such as an authentication
code. -/
theorem overwrite_binary {env : PyEnv} {spec : Spec} {s : Bytes} {dec : DecDoc} {pre post : EncDoc} {k : Str} {L D D' : Bytes}
    {fs : FieldSpec} (h : decode env spec s = .ok (dec, pre ++ (k, ⟨L, D⟩) :: post)) (ht : k ≠ py"t") (hp : k ≠ py"p") (h1 : k ≠ py"1")
    (hs : spec.get? k = some fs) (hb : fs.isBinary) (hn : ¬ fs.inNibbles) (hl : D'.length = D.length) :
    decode env spec (wire pre ++ (L ++ D') ++ wire post) = .ok (dec.set k (hexText D'), pre ++ (k, ⟨L, D'⟩) :: post) := by
  have hsay : ∀ n, DataSays env fs n D' (hexText D') := by
    intro n
    unfold DataSays
    by_cases hD : D' = []
    · rw [if_pos hD, hD]; rfl
    · rw [if_neg hD, if_pos hb, if_neg (fun h => hn h.1)]
  obtain ⟨n, _, ⟨v', hd, h'⟩ | ⟨hno, _⟩⟩ := overwrite_data h ht hp h1 hs hl
  · have : v' = hexText D' := by
      unfold DataSays at hd
      by_cases hD : D' = []
      · rw [if_pos hD] at hd; rw [hd, hD]; rfl
      · rwa [if_neg hD, if_pos hb, if_neg (fun h => hn h.1)] at hd
    rw [← this]; exact h'
  · exact absurd (hsay n) (hno _)

/-- **C97**: by position.  The data of field `k` starts at `i`; the bytes there are overwritten and
nothing else. -/
theorem overwrite_at {env : PyEnv} {spec : Spec} {s : Bytes} {dec : DecDoc} {pre post : EncDoc} {k : Str} {L D D' : Bytes} {i : Nat}
    {fs : FieldSpec} {r : DecDoc × EncDoc} (h : decode env spec s = .ok (dec, pre ++ (k, ⟨L, D⟩) :: post)) (ht : k ≠ py"t") (hp : k ≠ py"p")
    (h1 : k ≠ py"1") (hs : spec.get? k = some fs) (hl : D'.length = D.length) (hi : i = (wire pre).length + L.length) :
    decode env spec (s.take i ++ D' ++ s.drop (i + D.length)) = .ok r ↔
      ∃ n v', UnitsRead env fs L n ∧ DataSays env fs n D' v' ∧ r = (dec.set k v', pre ++ (k, ⟨L, D'⟩) :: post) := by
  have hw : s = (wire pre ++ L) ++ D ++ wire post := by
    obtain ⟨_, _, _, _, hw⟩ := decode_iff.1 h
    rw [hw]; simp [wire]
  have hi' : i = (wire pre ++ L).length := by rw [hi, List.length_append]
  have hnew : s.take i ++ D' ++ s.drop (i + D.length) = wire pre ++ (L ++ D') ++ wire post := by
    rw [hw, hi', List.append_assoc (wire pre ++ L) D, List.take_left, ← List.length_append, ← List.append_assoc, List.drop_left]
    simp [List.append_assoc]
  rw [hnew]
  obtain ⟨n, hu, ⟨v', hd, h'⟩ | ⟨hno, e, h', _⟩⟩ := overwrite_data h ht hp h1 hs hl
  · rw [h']
    constructor
    · intro hr
      cases hr
      exact ⟨n, v', hu, hd, rfl⟩
    · rintro ⟨n', v'', hu', hd', rfl⟩
      cases hu.unique hu'
      rw [hd.unique hd']
  · rw [h']
    constructor
    · intro hr; cases hr
    · rintro ⟨n', v'', hu', hd', _⟩
      cases hu.unique hu'
      exact absurd hd' (hno _)

/-- **C97**: the message type overwritten, as when a request is turned into a reply.  If the bytes can
be read as a message type, nothing else of the dicts changes; otherwise `decode` raises
`DecodeError` about the type, at its place. -/
theorem overwrite_type {env : PyEnv} {spec : Spec} {s : Bytes} {dec : DecDoc} {pre post : EncDoc} {L D D' : Bytes} {fs : FieldSpec}
    (h : decode env spec s = .ok (dec, pre ++ (py"t", ⟨L, D⟩) :: post)) (hs : spec.get? py"t" = some fs) (hl : D'.length = D.length) :
    L = [] ∧ s = wire pre ++ D ++ wire post ∧
    ((∃ v', PlainSays env fs D' v' ∧
      decode env spec (wire pre ++ D' ++ wire post) = .ok (dec.set py"t" v', pre ++ (py"t", ⟨[], D'⟩) :: post)) ∨
     ((∀ v', ¬ PlainSays env fs D' v') ∧ ∃ e, decode env spec (wire pre ++ D' ++ wire post) = .error (.decodeError e) ∧
      e.field = py"t" ∧ e.pos = (wire pre).length ∧ e.docEnc = pre ++ [(py"t", ⟨[], D'⟩)] ∧
      e.docDec.keys = pre.keys ++ [py"t"] ∧ (∀ x ∈ pre.keys, e.docDec.get? x = dec.get? x) ∧ e.msg = .invalidData)) := by
  have hnd : Dict.NoDup (pre ++ (py"t", ⟨L, D⟩) :: post) := by
    have := decode_entries h
    unfold Dict.NoDup
    rw [← this.1]
    exact this.2.1
  obtain ⟨ps, hm, rfl, he, hw⟩ := decode_iff.1 h
  obtain ⟨hd, t, b, f, P, F, rfl, hh, ⟨fs', D0, v0, hs', rfl, hD0, hsay⟩, hb, hF, hmem, hkeys, hf⟩ := hm
  rw [hs] at hs'; cases hs'
  have hkeysE : ∀ ps : List Part, (partsEnc ps).keys = ps.map Part.key := fun ps => by simp [partsEnc, Dict.keys, Function.comp_def]
  have hsplit : partsEnc (hd ++ ⟨py"t", ⟨[], D0⟩, v0⟩ :: b ++ f) = partsEnc hd ++ (py"t", ⟨[], D0⟩) :: partsEnc (b ++ f) := by
    simp [partsEnc]
  have hhd : py"t" ∉ (partsEnc hd).keys := by
    rw [hkeysE]
    obtain ⟨_, _, ⟨_, rfl⟩ | ⟨_, e, v, rfl, _⟩⟩ := hh <;> simp
  have hnd' := hnd
  unfold Dict.NoDup at hnd'
  rw [Dict.keys_append, Dict.keys_cons] at hnd'
  have hpre : py"t" ∉ pre.keys := fun hm => (List.nodup_append.1 hnd').2.2 _ hm _ (by simp) rfl
  have heq : pre = partsEnc hd ∧ (⟨L, D⟩ : EncEntry) = ⟨[], D0⟩ ∧ post = partsEnc (b ++ f) := by
    rw [hsplit] at he
    exact Dict.split_unique hpre hhd he
  obtain ⟨rfl, hLD, rfl⟩ := heq
  simp only [EncEntry.mk.injEq] at hLD
  obtain ⟨rfl, rfl⟩ := hLD
  refine ⟨rfl, by rw [hw]; simp [wire], ?_⟩
  have hnk : ((hd ++ ⟨py"t", ⟨[], D⟩, v0⟩ :: b ++ f).map Part.key).Nodup := by
    rw [← hkeysE, ← he]; exact hnd
  by_cases hx : ∃ v', PlainSays env fs D' v'
  · obtain ⟨v', hx⟩ := hx
    left
    refine ⟨v', hx, decode_iff.2 ⟨hd ++ ⟨py"t", ⟨[], D'⟩, v'⟩ :: b ++ f,
      ⟨hd, _, b, f, P, F, rfl, hh, ⟨fs, D', v', hs, rfl, hl.trans hD0, hx⟩, hb, hF, hmem, hkeys, hf⟩, ?_, by simp [partsEnc], by simp [wire]⟩⟩
    have hhd' : py"t" ∉ Dict.keys (partsDec hd) := by
      have : Dict.keys (partsDec hd) = (partsEnc hd).keys := by simp [partsDec, partsEnc, Dict.keys, Function.comp_def]
      rw [this]; exact hhd
    have : partsDec (hd ++ ⟨py"t", ⟨[], D⟩, v0⟩ :: b ++ f) = partsDec hd ++ (py"t", v0) :: partsDec (b ++ f) := by simp [partsDec]
    rw [this, Dict.set_append_of_not_mem hhd']
    simp [Dict.set, partsDec]
  · have hx' : ∀ v', ¬ PlainSays env fs D' v' := fun v' h => hx ⟨v', h⟩
    refine .inr ⟨hx', ?_⟩
    have hbin : ¬ fs.isBinary := fun hb => hx' (hexText D') (by unfold PlainSays; rw [if_pos hb])
    unfold PlainSays at hsay
    rw [if_neg hbin] at hsay
    obtain ⟨c, hc, _⟩ := hsay
    have hdec : c.decode D' = none := by
      cases hdec : c.decode D' with
      | none => rfl
      | some v' => exact absurd (by unfold PlainSays; rw [if_neg hbin]; exact ⟨c, hc, hdec⟩) (hx' v')
    have hlen : D'.length = typeBytes fs := hl.trans hD0
    refine ⟨⟨.invalidData, _, partsDec hd ++ [(py"t", [])], partsEnc hd ++ [(py"t", ⟨[], D'⟩)], (partsWire hd).length + 0, py"t"⟩,
      decode_of_fails ⟨rfl, .inr (.inl ⟨hd, fs, ⟨[], D'⟩, [], 0, .type hh, ?_, hs, ?_, rfl, rfl, rfl⟩)⟩, rfl, rfl, rfl, ?_, ?_, rfl⟩
    · unfold partsWire
      rw [List.append_assoc]
      exact List.prefix_append _ _
    · unfold DecSimpleFault
      dsimp only
      rw [if_pos rfl]
      refine ⟨⟨?_, ?_, rfl, hbin, c, hc, hdec⟩, rfl⟩
      · unfold partsWire; rw [← hlen]; simp only [List.length_append]; omega
      · unfold partsWire; rw [List.append_assoc, List.drop_left, ← hlen, List.take_left]
    · simp [partsDec, partsEnc, Dict.keys, Function.comp_def]
    · intro x hx
      have hkp : (partsDec hd).keys = (partsEnc hd).keys := by simp [partsDec, partsEnc, Dict.keys, Function.comp_def]
      have hsp : partsDec (hd ++ ⟨py"t", ⟨[], D⟩, v0⟩ :: b ++ f) = partsDec hd ++ (py"t", v0) :: partsDec (b ++ f) := by simp [partsDec]
      obtain ⟨y, hy⟩ := Dict.mem_keys_iff.1 (hkp ▸ hx)
      rw [hsp, Dict.get?_append, Dict.get?_append, hy]
      rfl

/-! ## Examples -/

/-- The worked request turned into a reply. -/
example : decode cpython demoSpec (wire (demoEnc.take 1) ++ [0x02, 0x10] ++ wire (demoEnc.drop 2)) =
    .ok (demoDec.set py"t" py"0210", demoEnc.take 1 ++ (py"t", ⟨[], [0x02, 0x10]⟩) :: demoEnc.drop 2) := by
  obtain ⟨_, _, ⟨v', hv, h⟩ | ⟨h, _⟩⟩ := overwrite_type (pre := demoEnc.take 1) (post := demoEnc.drop 2) (L := []) (D := [0x02, 0x00])
    (D' := [0x02, 0x10]) demo_decode rfl rfl
  · have : v' = py"0210" := hv
    exact this ▸ h
  · exact absurd rfl (h py"0210")

/-- The account number of the worked message masked in place. -/
example : decode cpython demoSpec (demoMsg.take 46 ++ py"***45".map Nat.toUInt8 ++ demoMsg.drop 51) =
    .ok (demoDec.set py"2" py"***45", demoEnc.take 4 ++ (py"2", ⟨[0x05], py"***45".map Nat.toUInt8⟩) :: demoEnc.drop 5) :=
  (overwrite_at (pre := demoEnc.take 4) (post := demoEnc.drop 5) (k := py"2") (L := [0x05]) (D := py"12345".map Nat.toUInt8)
    (D' := py"***45".map Nat.toUInt8) (i := 46) demo_decode (by decide) (by decide) (by decide) rfl rfl (by decide)).2
    ⟨5, py"***45", ⟨by unfold UnitsAre; decide +kernel, fun _ _ h => absurd h.2 (by decide)⟩, ⟨_, rfl, by decide +kernel⟩, rfl⟩

/-- Field 130, the last one, filled in. -/
example (a b : UInt8) : decode cpython demoSpec (wire (demoEnc.take 7) ++ [a, b] ++ []) =
    .ok (demoDec.set py"130" (hexText [a, b]), demoEnc.take 7 ++ [(py"130", ⟨[], [a, b]⟩)]) :=
  overwrite_binary (pre := demoEnc.take 7) (post := []) (k := py"130") (L := []) (D := [0xBE, 0xEF]) (D' := [a, b]) demo_decode
    (by decide) (by decide) (by decide) (fs := { dataEnc := py"b", lenEnc := py"ascii", lenType := 0, maxLen := 2 }) rfl (by decide) (by decide) rfl

/-- A byte that is not ASCII in the account number is reported as such. -/
example : ∃ e, decode cpython demoSpec (wire (demoEnc.take 4) ++ ([0x05] ++ [0x31, 0x32, 0x80, 0x34, 0x35]) ++ wire (demoEnc.drop 5)) =
    .error (.decodeError e) ∧ e.field = py"2" ∧ e.pos = 46 ∧ e.msg = .invalidData := by
  obtain ⟨n, _, ⟨v', ⟨c, hc, hd⟩, _⟩ | ⟨_, e, h, h1, h2, _, _, _, h3⟩⟩ := overwrite_data (pre := demoEnc.take 4) (post := demoEnc.drop 5)
    (k := py"2") (L := [0x05]) (D := py"12345".map Nat.toUInt8) (D' := [0x31, 0x32, 0x80, 0x34, 0x35]) demo_decode (by decide) (by decide)
    (by decide) rfl rfl
  · cases hc
    exact absurd hd (by intro h; have : (asciiCodec.decode [0x31, 0x32, 0x80, 0x34, 0x35]) = none := by decide +kernel
                        exact absurd (h.symm.trans this) nofun)
  · exact ⟨e, h, h1, h2.trans (by decide), h3⟩

/-- An account number of another length. -/
example : decode cpython demoSpec (wire (demoEnc.take 4) ++ ([0x02] ++ [0x39, 0x39]) ++ wire (demoEnc.drop 5)) =
    .ok (demoDec.set py"2" py"99", demoEnc.take 4 ++ (py"2", ⟨[0x02], [0x39, 0x39]⟩) :: demoEnc.drop 5) :=
  (overwrite_field (pre := demoEnc.take 4) (post := demoEnc.drop 5) (k := py"2") (e := ⟨[0x05], py"12345".map Nat.toUInt8⟩)
    (e' := ⟨[0x02], [0x39, 0x39]⟩) demo_decode (by decide) (by decide) (by decide) rfl
    ⟨2, ⟨by unfold UnitsAre; decide +kernel, fun _ _ h => absurd h.2 (by decide)⟩, rfl, ⟨_, rfl, by decide +kernel⟩, nofun⟩).2

end Iso8583
