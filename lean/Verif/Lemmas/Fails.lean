import Verif.Lemmas.Grammar
import Verif.Spec.Fails
/-! # Decoding stops exactly where reading a message fails -/

namespace Iso8583
open PyM

/-- The items of parts. -/
abbrev itemsOf (ps : List Part) : List Item := ps.map Part.item

theorem partsWire_eq (ps : List Part) : partsWire ps = wireOf (itemsOf ps) := (wireOf_items ps).symm

theorem itemsOf_append (a b : List Part) : itemsOf (a ++ b) = itemsOf a ++ itemsOf b := List.map_append

theorem HeaderPart.keys {env : PyEnv} {spec : Spec} {h : List Part} (hh : HeaderPart env spec h) :
    keysOf (itemsOf h) = [] ∨ keysOf (itemsOf h) = [py"h"] := (headerReads_iff.2 hh).keys

theorem TypePart.key {env : PyEnv} {spec : Spec} {t : Part} (ht : TypePart env spec t) : t.key = py"t" := by
  obtain ⟨fs, D, v, _, rfl, _⟩ := ht; rfl

/-! ## What the decoder does after the parts read so far -/

section
variable {env : PyEnv} {spec : Spec} {s : Bytes} {h : List Part} {t : Part}

theorem core_after_header (hh : HeaderPart env spec h) (hp : partsWire h <+: s) :
    decodeCore env spec s (.of []) =
      (do
        let idx ← decodeType env spec s (partsWire h).length
        let (field, idx, fields) ← decodeBitmaps env spec s idx
        decodeFields env spec s idx field (sortedNat fields) : DecM (Nat × Str)) (.of (itemsOf h)) := by
  rw [partsWire_eq] at hp ⊢
  simp only [decodeCore, run_bind]
  rw [decodeHeader_of_reads (headerReads_iff.2 hh) hp]

theorem core_after_type (hh : HeaderPart env spec h) (ht : TypePart env spec t) (hp : partsWire (h ++ [t]) <+: s) :
    decodeCore env spec s (.of []) =
      (do
        let (field, idx, fields) ← decodeBitmaps env spec s (partsWire (h ++ [t])).length
        decodeFields env spec s idx field (sortedNat fields) : DecM (Nat × Str)) (.of (itemsOf (h ++ [t]))) := by
  have hp0 : wireOf (itemsOf h) ++ wireOf (itemsOf [t]) <+: s.drop 0 := by
    rw [partsWire_eq, itemsOf_append, wireOf_append] at hp; simpa using hp
  rw [prefix_drop_append] at hp0
  rw [core_after_header hh (by rw [partsWire_eq]; simpa using hp0.1)]
  simp only [run_bind]
  rw [decodeType_of_reads (typeItem_iff.2 ht) (by rcases hh.keys with h | h <;> simp [h])
    (by rw [partsWire_eq]; simpa using hp0.2)]
  simp [partsWire_eq]

theorem no_p (hh : HeaderPart env spec h) (ht : TypePart env spec t) : py"p" ∉ keysOf (itemsOf (h ++ [t])) := by
  have hk : t.item.key = py"t" := ht.key
  rcases hh.keys with h | h <;> simp [h, hk]

theorem no_1 (hh : HeaderPart env spec h) (ht : TypePart env spec t) : py"1" ∉ keysOf (itemsOf (h ++ [t])) := by
  have hk : t.item.key = py"t" := ht.key
  rcases hh.keys with h | h <;> simp [h, hk]

theorem no_1' (hh : HeaderPart env spec h) (ht : TypePart env spec t) (D : Bytes) (x : Str) :
    py"1" ∉ keysOf (itemsOf (h ++ [t]) ++ [⟨py"p", [], D, x⟩]) := by
  have := no_1 hh ht
  simp only [keysOf_append, List.mem_append, not_or]
  exact ⟨this, by simp⟩

theorem core_after_bitmaps {b : List Part} {P : Nat → Prop} {F : List Nat} (hh : HeaderPart env spec h)
    (ht : TypePart env spec t) (hb : BitmapParts env spec b P) (hF : F.Pairwise (· < ·))
    (hm : ∀ j, j ∈ F ↔ P j ∧ j ≠ 1 ∧ j ≠ 65) (hp : partsWire (h ++ t :: b) <+: s) :
    ∃ last, decodeCore env spec s (.of []) =
      decodeFields env spec s (partsWire (h ++ t :: b)).length last F (.of (itemsOf (h ++ t :: b))) := by
  have e : h ++ t :: b = (h ++ [t]) ++ b := by simp
  rw [e] at hp ⊢
  have hp0 : wireOf (itemsOf (h ++ [t])) ++ wireOf (itemsOf b) <+: s.drop 0 := by
    rw [partsWire_eq, itemsOf_append, wireOf_append] at hp; simpa using hp
  rw [prefix_drop_append] at hp0
  obtain ⟨G, hb', hG⟩ := bitmapsRead_of hb
  have hGF : sortedNat G = F := sorted_lt_ext (sortedNat_lt hb'.fields.1) hF fun x => by rw [mem_sortedNat, hG, hm]
  rw [core_after_type hh ht (by rw [partsWire_eq]; simpa using hp0.1)]
  simp only [run_bind]
  rw [decodeBitmaps_of_reads hb' (no_p hh ht) (no_1 hh ht) (by rw [partsWire_eq]; simpa using hp0.2)]
  refine ⟨lastKey py"p" (itemsOf b), ?_⟩
  simp only
  rw [hGF, partsWire_eq, partsWire_eq, itemsOf_append (h ++ [t]) b, wireOf_append, List.length_append]

end

theorem decodeFields_of_lack {env : PyEnv} {spec : Spec} {s : Bytes} {pre post : List Nat} {i : Nat} {its : List Item}
    (hs : spec.get? (natStr i) = none) (hr : FieldsRead env spec pre its) : ∀ {idx : Nat} {last : Str} {items : List Item},
    (keysOf (items ++ its)).Nodup → wireOf its <+: s.drop idx →
    decodeFields env spec s idx last (pre ++ i :: post) (.of items) =
      (.error (.keyError (natStr i)), .of (items ++ its)) := by
  induction hr with
  | nil =>
    intro idx last items _ _
    simp [List.nil_append, decodeFields, decSpec, hs, run_bind]
  | @cons j is it its fs' n hs' hk hr _ ih =>
    intro idx last items hnd hp
    rw [wireOf_cons, prefix_drop_append] at hp
    have hfresh : it.key ∉ keysOf items := by
      simp [List.nodup_append] at hnd
      intro hmem
      exact (hnd.2.2 _ hmem).1 rfl
    simp only [List.cons_append, decodeFields, decSpec, hs', run_bind, run_pure]
    rw [← hk, decodeField_of_reads hfresh hr hp.1]
    simp only
    rw [ih (by simpa using hnd) hp.2]
    simp

/-- Keys of the parts up to some field are distinct. -/
theorem nodup_expected {env : PyEnv} {spec : Spec} {h : List Part} {t : Part} {b f : List Part} {P : Nat → Prop}
    {done rest : List Nat} {i : Nat} (hh : HeaderPart env spec h) (ht : TypePart env spec t)
    (hb : BitmapParts env spec b P) (hF : (done ++ i :: rest).Pairwise (· < ·))
    (hm : ∀ j, j ∈ done ++ i :: rest ↔ P j ∧ j ≠ 1 ∧ j ≠ 65) (hf : f.map Part.key = done.map natStr) :
    (keysOf (itemsOf (h ++ t :: b ++ f)) ++ [natStr i]).Nodup := by
  obtain ⟨G, hb', hG⟩ := bitmapsRead_of hb
  have hn : (done ++ [i]).Nodup := by
    have hsub : (done ++ [i]).Sublist (done ++ i :: rest) := by simp
    exact hsub.nodup (List.nodup_iff_pairwise_ne.2 (hF.imp fun h => by omega))
  have h1 : 1 ∉ done ++ [i] := by
    intro hmem
    have : 1 ∈ done ++ i :: rest := by simp at hmem ⊢; rcases hmem with h | h <;> simp [h]
    exact ((hm 1).1 this).2.1 rfl
  have := nodup_msg_keys (F := done ++ [i]) hh.keys hb'.keys hn h1
  have hk : t.item.key = py"t" := ht.key
  have hf' : keysOf (itemsOf f) = done.map natStr := by
    rw [← hf]; simp [keysOf, Part.item, Function.comp_def]
  simpa [hk, hf'] using this

theorem decodeCore_of_lack {env : PyEnv} {spec : Spec} {s : Bytes} {ps : List Part} {k : Str} (h : Expects env spec ps k)
    (hp : partsWire ps <+: s) (hs : spec.get? k = none) :
    decodeCore env spec s (.of []) = (.error (.keyError k), .of (itemsOf ps)) := by
  cases h with
  | header _ => simp [decodeCore, decodeHeader, decSpec, hs, run_bind]
  | type hh =>
    rw [core_after_header hh hp]
    simp only [run_bind]
    rw [decodeType_run, hs]
  | primary hh ht =>
    rw [core_after_type hh ht hp]
    simp only [run_bind, decodeBitmaps, decSpec, hs, run_raise]
  | @secondary h t fs D x bm hh ht hsp hr h1 =>
    have e : h ++ [t, ⟨py"p", ⟨[], D⟩, x⟩] = (h ++ [t]) ++ [⟨py"p", ⟨[], D⟩, x⟩] := by simp
    rw [e] at hp ⊢
    have hp0 : wireOf (itemsOf (h ++ [t])) ++ D <+: s.drop 0 := by
      rw [partsWire_eq, itemsOf_append, wireOf_append] at hp; simpa [Part.item, Item.wire] using hp
    rw [prefix_drop_append] at hp0
    rw [core_after_type hh ht (by rw [partsWire_eq]; simpa using hp0.1)]
    simp only [run_bind, decodeBitmaps, decSpec, hsp, run_pure]
    rw [decodeBitmap_of_reads (no_p hh ht) (bitmapReads_iff.2 hr) (by rw [partsWire_eq]; simpa using hp0.2)]
    simp only [run_ite]
    rw [if_pos (show 1 ∈ setUpdate [] (bitmapFields 0 bm) from mem_fields0_announces.2 h1)]
    simp only [run_bind, hs, run_raise]
    rw [itemsOf_append (h ++ [t])]; rfl
  | @field h t b f P done rest i hh ht hb hF hm hf hr =>
    have hp0 : wireOf (itemsOf (h ++ t :: b)) ++ wireOf (itemsOf f) <+: s.drop 0 := by
      rw [partsWire_eq, itemsOf_append, wireOf_append] at hp; simpa using hp
    rw [prefix_drop_append] at hp0
    obtain ⟨last, hrun⟩ := core_after_bitmaps (s := s) hh ht hb hF hm (by rw [partsWire_eq]; simpa using hp0.1)
    rw [hrun, itemsOf_append (h ++ t :: b) f]
    refine decodeFields_of_lack hs (fieldsRead_iff.2 ⟨hf, hr⟩) ?_ (by rw [partsWire_eq]; simpa using hp0.2)
    rw [← itemsOf_append]
    exact (List.nodup_append.1 (nodup_expected hh ht hb hF hm hf)).1

theorem decodeCore_of_expects {env : PyEnv} {spec : Spec} {s : Bytes} {ps : List Part} {k : Str} {fs : FieldSpec}
    {m : DecMsg} {v : Str} {ent : EncEntry} {off : Nat} (h : Expects env spec ps k)
    (hp : partsWire ps <+: s) (hs : spec.get? k = some fs)
    (hf : DecSimpleFault env fs s (partsWire ps).length k ent v m off) :
    decodeCore env spec s (.of []) =
      (.error (.err m ((partsWire ps).length + off) k), .of (itemsOf ps ++ [⟨k, ent.len, ent.data, v⟩])) := by
  have hle := hp.length_le
  cases h with
  | header hm =>
    have hm : ¬ fs.maxLen ≤ 0 := by have := hm fs hs; omega
    have hg : DecFieldFault env fs s (partsWire []).length ent v m ∧ off = if m.aboutData then fs.lenType else 0 := hf
    obtain ⟨hg, rfl⟩ := hg
    have := (fieldOut_error_iff hle).2 ⟨hg, rfl⟩
    simp only [decodeCore, run_bind, decodeHeader, decSpec, hs, run_pure, run_ite, if_neg hm]
    rw [decodeField_of_fault (items := []) (by simp) (by simpa [partsWire, partsEnc, wire] using this)]
    simp [partsWire, partsEnc, wire]
  | type hh =>
    have hg : DecTypeFault env fs s (partsWire ps).length ent v m ∧ off = 0 := hf
    obtain ⟨hg, rfl⟩ := hg
    have := (typeOut_error_iff hle).2 ⟨hg, rfl⟩
    rw [core_after_header hh hp]
    simp only [run_bind]
    rw [decodeType_run, hs]
    simp only
    rw [this, ← DecState.set_of (it := ⟨py"t", ent.len, ent.data, v⟩) (by rcases hh.keys with hK | hK <;> simp [hK])]
    rfl
  | primary hh ht =>
    have hg : ent.len = [] ∧ DecBitmapFault env fs s _ 0 1 ent.data v m ∧ off = 0 := hf
    obtain ⟨hl, hg, rfl⟩ := hg
    have := (bitmapOut_error_iff hle).2 ⟨hg, rfl⟩
    rw [core_after_type hh ht hp]
    simp only [run_bind, decodeBitmaps, decSpec, hs, run_pure]
    rw [decodeBitmap_of_fault (no_p hh ht) this, hl]
    rfl
  | @secondary h t fs' D x bm hh ht hsp hr h1 =>
    have e : h ++ [t, ⟨py"p", ⟨[], D⟩, x⟩] = (h ++ [t]) ++ [⟨py"p", ⟨[], D⟩, x⟩] := by simp
    have hg : ent.len = [] ∧ DecBitmapFault env fs s _ 0 1 ent.data v m ∧ off = 0 := hf
    rw [e] at hp hg hle ⊢
    obtain ⟨hl, hg, rfl⟩ := hg
    have hout := (bitmapOut_error_iff hle).2 ⟨hg, rfl⟩
    have hp0 : wireOf (itemsOf (h ++ [t])) ++ D <+: s.drop 0 := by
      rw [partsWire_eq, itemsOf_append, wireOf_append] at hp; simpa [Part.item, Item.wire] using hp
    have hw : (partsWire (h ++ [t] ++ [⟨py"p", ⟨[], D⟩, x⟩])).length = (partsWire (h ++ [t])).length + D.length := by
      rw [partsWire_eq, partsWire_eq, itemsOf_append, wireOf_append]; simp [Part.item, Item.wire]; omega
    rw [prefix_drop_append] at hp0
    rw [core_after_type hh ht (by rw [partsWire_eq]; simpa using hp0.1)]
    simp only [run_bind, decodeBitmaps, decSpec, hsp, run_pure]
    rw [decodeBitmap_of_reads (no_p hh ht) (bitmapReads_iff.2 hr) (by rw [partsWire_eq]; simpa using hp0.2)]
    simp only [run_ite]
    rw [if_pos (show 1 ∈ setUpdate [] (bitmapFields 0 bm) from mem_fields0_announces.2 h1)]
    simp only [run_bind, hs, run_pure]
    rw [hw] at hout ⊢
    rw [decodeBitmap_of_fault (no_1' hh ht D x) hout, hl, itemsOf_append (h ++ [t])]
    rfl
  | @field h t b f P done rest i hh ht hb hF hm hf' hr =>
    have hi : i ≠ 1 := ((hm i).1 (by simp)).2.1
    unfold DecSimpleFault at hf
    rw [if_neg (natStr_ne_letter (by decide)), if_neg (by
      rintro (h | h)
      · exact natStr_ne_letter (by decide) h
      · exact natStr_ne_one hi h)] at hf
    obtain ⟨hf, rfl⟩ := hf
    have hout := (fieldOut_error_iff hle).2 ⟨hf, rfl⟩
    have hp0 : wireOf (itemsOf (h ++ t :: b)) ++ wireOf (itemsOf f) <+: s.drop 0 := by
      rw [partsWire_eq, itemsOf_append, wireOf_append] at hp; simpa using hp
    have hw : (partsWire (h ++ t :: b ++ f)).length = (partsWire (h ++ t :: b)).length + (wireOf (itemsOf f)).length := by
      rw [partsWire_eq, partsWire_eq, itemsOf_append (h ++ t :: b) f, wireOf_append, List.length_append]
    rw [prefix_drop_append] at hp0
    obtain ⟨last, hrun⟩ := core_after_bitmaps (s := s) hh ht hb hF hm (by rw [partsWire_eq]; simpa using hp0.1)
    rw [hrun, itemsOf_append (h ++ t :: b) f, hw]
    rw [hw] at hout
    refine decodeFields_of_fault hs (fieldsRead_iff.2 ⟨hf', hr⟩) ?_ (by rw [partsWire_eq]; simpa using hp0.2) hout
    rw [← itemsOf_append]
    exact nodup_expected hh ht hb hF hm hf'

theorem decodeBitmap_ext_of_fault {env : PyEnv} {s : Bytes} {idx : Nat} {key : Str} {fs : FieldSpec} {off : Nat}
    {fields : List Nat} {items : List Item} {D1 D2 : Bytes} {t1 t2 : Str} {m : DecMsg} (hk : key ∉ keysOf items)
    (h : bitmapOut env s idx fs D1.length 2 = (.error (m, idx), t2, D2)) :
    decodeBitmap env s idx key fs off true fields (.of (items ++ [⟨key, [], D1, t1⟩])) =
      (.error (.err m idx key), .of (items ++ [⟨key, [], D1 ++ D2, t1 ++ t2⟩])) := by
  rcases decodeBitmap_ext_cases env s idx fs off fields hk D1 t1 with ⟨D2, t2, bm, hr, hp, _⟩ | ⟨m, D2, t2, _, _, h', hrun⟩
  · rw [bitmapOut_ok_iff.2 ⟨hr, hp, rfl⟩] at h; simp at h
  · rw [h] at h'; cases h'; exact hrun

theorem decodeCore_of_second_half {env : PyEnv} {spec : Spec} {s : Bytes} {ps : List Part} {q : Part} {fs : FieldSpec}
    {m : DecMsg} {v : Str} {D : Bytes} (h : ExpectsSecondHalf env spec ps q)
    (hp : partsWire (ps ++ [q]) <+: s) (hs : spec.get? q.key = some fs)
    (hf : DecBitmapFault env fs s (partsWire (ps ++ [q])).length (bitmapBytes fs) 2 D v m) :
    decodeCore env spec s (.of []) =
      (.error (.err m (partsWire (ps ++ [q])).length q.key), .of (itemsOf ps ++ [⟨q.key, [], q.entry.data ++ D, q.text ++ v⟩])) := by
  have hle := hp.length_le
  have hout := (bitmapOut_error_iff hle).2 ⟨hf, rfl⟩
  cases h with
  | @three h t fs' fs1 D0 D1 x x1 bm bm1 hh ht hsp hr h1 hs1 hr1 h65 =>
    dsimp only at hs
    rw [hs1] at hs; cases hs
    have e : h ++ [t, ⟨py"p", ⟨[], D0⟩, x⟩] = (h ++ [t]) ++ [⟨py"p", ⟨[], D0⟩, x⟩] := by simp
    rw [e] at hp hle hout ⊢
    have hw : (partsWire (h ++ [t] ++ [⟨py"p", ⟨[], D0⟩, x⟩] ++ [⟨py"1", ⟨[], D1⟩, x1⟩])).length =
        (partsWire (h ++ [t])).length + D0.length + D1.length := by
      rw [partsWire_eq, partsWire_eq, itemsOf_append, itemsOf_append, wireOf_append, wireOf_append]; simp [Part.item, Item.wire]; omega
    have hp0 : wireOf (itemsOf (h ++ [t])) ++ (D0 ++ D1) <+: s.drop 0 := by
      rw [partsWire_eq, itemsOf_append, itemsOf_append, wireOf_append, wireOf_append] at hp
      simpa [Part.item, Item.wire] using hp
    rw [prefix_drop_append, prefix_drop_append] at hp0
    rw [core_after_type hh ht (by rw [partsWire_eq]; simpa using hp0.1)]
    simp only [run_bind, decodeBitmaps, decSpec, hsp, run_pure]
    rw [decodeBitmap_of_reads (no_p hh ht) (bitmapReads_iff.2 hr) (by rw [partsWire_eq]; simpa using hp0.2.1)]
    simp only [run_ite]
    rw [if_pos (show 1 ∈ setUpdate [] (bitmapFields 0 bm) from mem_fields0_announces.2 h1)]
    simp only [run_bind, hs1, run_pure]
    rw [decodeBitmap_of_reads (no_1' hh ht D0 x) (bitmapReads_iff.2 hr1) (by rw [partsWire_eq]; simpa using hp0.2.2)]
    simp only [run_ite]
    rw [if_pos (show 65 ∈ setRemove (setUpdate (setUpdate [] (bitmapFields 0 bm)) (bitmapFields 64 bm1)) 1 from by
      have : 65 ∈ fields1 (fields0 bm) bm1 := by
        rw [mem_fields1, mem_fields0_announces, mem_bitmapFields_announces]
        exact ⟨h65, by decide⟩
      exact this)]
    simp only [run_bind, run_pure]
    rw [← hr1.1, hw] at hout
    rw [hw, decodeBitmap_ext_of_fault (no_1' hh ht D0 x) hout, itemsOf_append (h ++ [t])]
    rfl
  | @wide h t fs' D0 x bm hh ht hsp hr h1 h65 =>
    dsimp only at hs
    rw [hsp] at hs; cases hs
    have hw : (partsWire (h ++ [t] ++ [⟨py"p", ⟨[], D0⟩, x⟩])).length = (partsWire (h ++ [t])).length + D0.length := by
      rw [partsWire_eq, partsWire_eq, itemsOf_append, wireOf_append]; simp [Part.item, Item.wire]; omega
    have hp0 : wireOf (itemsOf (h ++ [t])) ++ D0 <+: s.drop 0 := by
      rw [partsWire_eq, itemsOf_append, wireOf_append] at hp; simpa [Part.item, Item.wire] using hp
    rw [prefix_drop_append] at hp0
    rw [core_after_type hh ht (by rw [partsWire_eq]; simpa using hp0.1)]
    simp only [run_bind, decodeBitmaps, decSpec, hsp, run_pure]
    rw [decodeBitmap_of_reads (no_p hh ht) (bitmapReads_iff.2 hr) (by rw [partsWire_eq]; simpa using hp0.2)]
    simp only [run_ite]
    rw [if_neg (show ¬ 1 ∈ setUpdate [] (bitmapFields 0 bm) from mt mem_fields0_announces.1 h1)]
    simp only [run_bind, run_pure, run_ite]
    rw [if_pos (show 65 ∈ setUpdate [] (bitmapFields 0 bm) from mem_fields0_announces.2 h65)]
    simp only [run_bind, hsp, run_pure]
    rw [← hr.1, hw] at hout
    rw [hw, decodeBitmap_ext_of_fault (no_p hh ht) hout]

/-! ## Every input is a message with something behind it, or fails somewhere -/

/-- Reading stops at key `k` with nothing in the specification. -/
def StopsLack (env : PyEnv) (spec : Spec) (s : Bytes) : Prop := ∃ k, DecodeLacks env spec s k

/-- Reading stops at a faulty entry. -/
def StopsAt (env : PyEnv) (spec : Spec) (s : Bytes) : Prop :=
  ∃ ps k fs ent v m off, Expects env spec ps k ∧ partsWire ps <+: s ∧ spec.get? k = some fs ∧
    DecSimpleFault env fs s (partsWire ps).length k ent v m off

/-- Reading stops at a faulty tertiary bitmap. -/
def StopsHalf (env : PyEnv) (spec : Spec) (s : Bytes) : Prop :=
  ∃ ps q fs D v m, ExpectsSecondHalf env spec ps q ∧ partsWire (ps ++ [q]) <+: s ∧ spec.get? q.key = some fs ∧
    DecBitmapFault env fs s (partsWire (ps ++ [q])).length (bitmapBytes fs) 2 D v m

def Stops (env : PyEnv) (spec : Spec) (s : Bytes) : Prop :=
  StopsLack env spec s ∨ StopsAt env spec s ∨ StopsHalf env spec s

section
variable {env : PyEnv} {spec : Spec} {s : Bytes}

theorem partsWire_append (a b : List Part) : partsWire (a ++ b) = partsWire a ++ partsWire b := by
  simp [partsWire_eq]

theorem partsWire_snoc {ps : List Part} {k : Str} {e : EncEntry} {v : Str} (hp : partsWire ps <+: s)
    (he : e.len ++ e.data <+: s.drop (partsWire ps).length) : partsWire (ps ++ [⟨k, e, v⟩]) <+: s := by
  rw [partsWire_append, show partsWire [⟨k, e, v⟩] = e.len ++ e.data by simp [partsWire, partsEnc, wire]]
  have := (prefix_drop_append (idx := 0) (a := partsWire ps) (b := e.len ++ e.data) (s := s)).2 ⟨by simpa using hp, by simpa using he⟩
  simpa using this

theorem field_total {ps : List Part} {k : Str} {fs : FieldSpec} (hk : k ≠ py"t" ∧ k ≠ py"p" ∧ k ≠ py"1")
    (hx : Expects env spec ps k) (hp : partsWire ps <+: s) (hs : spec.get? k = some fs) :
    (∃ e v, FieldRead env fs e v ∧ partsWire (ps ++ [⟨k, e, v⟩]) <+: s) ∨ StopsAt env spec s := by
  rcases h : fieldOut env s (partsWire ps).length fs with ⟨r, v, e⟩
  cases r with
  | ok idx' =>
    obtain ⟨n, hr, hp', rfl⟩ := fieldOut_ok_iff.1 h
    exact .inl ⟨e, v, fieldReads_iff.1 ⟨n, hr⟩, partsWire_snoc hp hp'⟩
  | error mp =>
    obtain ⟨m, pos⟩ := mp
    obtain ⟨hf, _⟩ := (fieldOut_error_iff hp.length_le).1 h
    refine .inr ⟨ps, k, fs, e, v, m, if m.aboutData then fs.lenType else 0, hx, hp, hs, ?_⟩
    unfold DecSimpleFault
    rw [if_neg hk.1, if_neg (by simp [hk.2])]
    exact ⟨hf, rfl⟩

theorem bitmap_total {ps : List Part} {k : Str} {fs : FieldSpec} (hk : k = py"p" ∨ k = py"1")
    (hx : Expects env spec ps k) (hp : partsWire ps <+: s) (hs : spec.get? k = some fs) :
    (∃ D x bm, BitmapRead env fs D x bm ∧ partsWire (ps ++ [⟨k, ⟨[], D⟩, x⟩]) <+: s) ∨ StopsAt env spec s := by
  rcases h : bitmapOut env s (partsWire ps).length fs 0 1 with ⟨r, t, D⟩
  cases r with
  | ok r =>
    obtain ⟨idx', bm⟩ := r
    obtain ⟨hr, hp', rfl⟩ := bitmapOut_ok_iff.1 h
    exact .inl ⟨D, t, bm, bitmapReads_iff.1 hr, partsWire_snoc hp (by simpa using hp')⟩
  | error mp =>
    obtain ⟨m, pos⟩ := mp
    obtain ⟨hf, _⟩ := (bitmapOut_error_iff hp.length_le).1 h
    refine .inr ⟨ps, k, fs, ⟨[], D⟩, t, m, 0, hx, hp, hs, ?_⟩
    unfold DecSimpleFault
    rw [if_neg (by rcases hk with rfl | rfl <;> simp), if_pos hk]
    exact ⟨rfl, hf, rfl⟩

theorem half_total {ps : List Part} {q : Part} {fs : FieldSpec}
    (hx : ExpectsSecondHalf env spec ps q) (hp : partsWire (ps ++ [q]) <+: s) (hs : spec.get? q.key = some fs) :
    (∃ D x bm, BitmapRead env fs D x bm ∧ D <+: s.drop (partsWire (ps ++ [q])).length) ∨ StopsHalf env spec s := by
  rcases h : bitmapOut env s (partsWire (ps ++ [q])).length fs (bitmapBytes fs) 2 with ⟨r, t, D⟩
  cases r with
  | ok r =>
    obtain ⟨idx', bm⟩ := r
    obtain ⟨hr, hp', rfl⟩ := bitmapOut_ok_iff.1 h
    exact .inl ⟨D, t, bm, bitmapReads_iff.1 hr, hp'⟩
  | error mp =>
    obtain ⟨m, pos⟩ := mp
    obtain ⟨hf, _⟩ := (bitmapOut_error_iff hp.length_le).1 h
    exact .inr ⟨ps, q, fs, D, t, m, hx, hp, hs, hf⟩

theorem header_total : (∃ h, HeaderPart env spec h ∧ partsWire h <+: s) ∨ Stops env spec s := by
  cases hs : spec.get? py"h" with
  | none => exact .inr (.inl ⟨_, [], .header (by simp [hs]), by simp [partsWire, partsEnc, wire], hs⟩)
  | some fs =>
    by_cases hm : 0 < fs.maxLen
    · have hx : Expects env spec [] py"h" := .header (by intro fs' h; rw [hs] at h; cases h; exact hm)
      rcases field_total (s := s) (by simp) hx (by simp [partsWire, partsEnc, wire]) hs with ⟨e, v, hr, hp⟩ | h
      · exact .inl ⟨_, ⟨fs, hs, .inr ⟨hm, e, v, rfl, hr⟩⟩, hp⟩
      · exact .inr (.inr (.inl h))
    · exact .inl ⟨[], ⟨fs, hs, .inl ⟨by omega, rfl⟩⟩, by simp [partsWire, partsEnc, wire]⟩

theorem type_total {h : List Part} (hh : HeaderPart env spec h) (hp : partsWire h <+: s) :
    (∃ t, TypePart env spec t ∧ partsWire (h ++ [t]) <+: s) ∨ Stops env spec s := by
  cases hs : spec.get? py"t" with
  | none => exact .inr (.inl ⟨_, h, .type hh, hp, hs⟩)
  | some fs =>
    rcases hr : typeOut env s (partsWire h).length fs with ⟨r, v, e⟩
    cases r with
    | ok idx' =>
      obtain ⟨hrd, hl, hp', _⟩ := typeOut_ok_iff.1 hr
      refine .inl ⟨⟨py"t", e, v⟩, ?_, partsWire_snoc hp (by simpa [hl] using hp')⟩
      have : TypeItem env spec (Part.item ⟨py"t", e, v⟩) := ⟨fs, hs, rfl, hl, hrd⟩
      exact typeItem_iff.1 this
    | error mp =>
      obtain ⟨m, pos⟩ := mp
      obtain ⟨hf, _⟩ := (typeOut_error_iff hp.length_le).1 hr
      exact .inr (.inr (.inl ⟨h, _, fs, e, v, m, 0, .type hh, hp, hs, hf, rfl⟩))

theorem bitmaps_total {h : List Part} {t : Part} (hh : HeaderPart env spec h) (ht : TypePart env spec t)
    (hp : partsWire (h ++ [t]) <+: s) :
    (∃ b P, BitmapParts env spec b P ∧ partsWire (h ++ t :: b) <+: s) ∨ Stops env spec s := by
  have e : ∀ b, h ++ t :: b = (h ++ [t]) ++ b := by simp
  have glue : ∀ {ps : List Part} {k : Str} {D D2 : Bytes} {x x2 : Str}, partsWire (ps ++ [⟨k, ⟨[], D⟩, x⟩]) <+: s →
      D2 <+: s.drop (partsWire (ps ++ [⟨k, ⟨[], D⟩, x⟩])).length → partsWire (ps ++ [⟨k, ⟨[], D ++ D2⟩, x ++ x2⟩]) <+: s := by
    intro ps k D D2 x x2 h1 h2
    have := (prefix_drop_append (idx := 0) (s := s)).2 ⟨by simpa using h1, by simpa using h2⟩
    simpa [partsWire_append, partsWire, partsEnc, wire] using this
  cases hs : spec.get? py"p" with
  | none => exact .inr (.inl ⟨_, _, .primary hh ht, hp, hs⟩)
  | some fs =>
    rcases bitmap_total (.inl rfl) (.primary hh ht) hp hs with ⟨D, x, bm, hr, hp1⟩ | h
    · by_cases h1 : announces bm 0 1
      · have hp1' : partsWire (h ++ [t, ⟨py"p", ⟨[], D⟩, x⟩]) <+: s := by simpa using hp1
        have hx := Expects.secondary hh ht hs hr h1
        cases hs1 : spec.get? py"1" with
        | none => exact .inr (.inl ⟨_, _, hx, hp1', hs1⟩)
        | some fs1 =>
          rcases bitmap_total (.inr rfl) hx hp1' hs1 with ⟨D1, x1, bm1, hr1, hp2⟩ | h
          · by_cases h65 : announces bm 0 65 ∨ announces bm1 64 65
            · have hx := ExpectsSecondHalf.three hh ht hs hr h1 hs1 hr1 h65
              rcases half_total hx hp2 hs1 with ⟨D2, x2, bm2, hr2, hp3⟩ | h
              · refine .inl ⟨_, _, .three hs hr h1 hs1 hr1 h65 hr2, ?_⟩
                have := glue (x2 := x2) hp2 hp3
                simpa using this
              · exact .inr (.inr (.inr h))
            · exact .inl ⟨_, _, .two hs hr h1 hs1 hr1 h65, by simpa using hp2⟩
          · exact .inr (.inr (.inl h))
      · by_cases h65 : announces bm 0 65
        · have hx := ExpectsSecondHalf.wide hh ht hs hr h1 h65
          rcases half_total hx hp1 hs with ⟨D2, x2, bm2, hr2, hp3⟩ | h
          · refine .inl ⟨_, _, .wide hs hr h1 h65 hr2, ?_⟩
            have := glue (x2 := x2) hp1 hp3
            simpa using this
          · exact .inr (.inr (.inr h))
        · exact .inl ⟨_, _, .one hs hr h1 h65, by simpa using hp1⟩
    · exact .inr (.inr (.inl h))

theorem fields_total {h : List Part} {t : Part} {b : List Part} {P : Nat → Prop} (hh : HeaderPart env spec h)
    (ht : TypePart env spec t) (hb : BitmapParts env spec b P) : ∀ (rest done : List Nat) (f : List Part),
    (done ++ rest).Pairwise (· < ·) → (∀ j, j ∈ done ++ rest ↔ P j ∧ j ≠ 1 ∧ j ≠ 65) → f.map Part.key = done.map natStr →
    (∀ p ∈ f, ∃ fs, spec.get? p.key = some fs ∧ FieldRead env fs p.entry p.text) → partsWire (h ++ t :: b ++ f) <+: s →
    (∃ ps, Message env spec ps ∧ partsWire ps <+: s) ∨ Stops env spec s
  | [], done, f, hF, hm, hk, hr, hp => .inl ⟨_, ⟨h, t, b, f, P, done, rfl, hh, ht, hb, by simpa using hF, by simpa using hm, hk, hr⟩, hp⟩
  | i :: rest, done, f, hF, hm, hk, hr, hp => by
    have hx := Expects.field hh ht hb hF hm hk hr
    cases hs : spec.get? (natStr i) with
    | none => exact .inr (.inl ⟨_, _, hx, hp, hs⟩)
    | some fs =>
      have hi : i ≠ 1 := ((hm i).1 (by simp)).2.1
      rcases field_total ⟨natStr_ne_letter (by decide), natStr_ne_letter (by decide), natStr_ne_one hi⟩ hx hp hs with
        ⟨e, v, hfr, hp'⟩ | h
      · refine fields_total hh ht hb rest (done ++ [i]) (f ++ [⟨natStr i, e, v⟩]) (by simpa using hF) (by simpa using hm)
          (by simp [hk]) ?_ (by simpa using hp')
        intro p hmem
        rcases List.mem_append.1 hmem with h | h
        · exact hr p h
        · simp only [List.mem_singleton] at h; subst h; exact ⟨fs, hs, hfr⟩
      · exact .inr (.inr (.inl h))

end

theorem message_or_stops (env : PyEnv) (spec : Spec) (s : Bytes) :
    (∃ ps, Message env spec ps ∧ partsWire ps <+: s) ∨ Stops env spec s := by
  rcases header_total (env := env) (spec := spec) (s := s) with ⟨h, hh, hp⟩ | h
  · rcases type_total hh hp with ⟨t, ht, hp⟩ | h
    · rcases bitmaps_total hh ht hp with ⟨b, P, hb, hp⟩ | h
      · obtain ⟨G, hb', hG⟩ := bitmapsRead_of hb
        refine fields_total hh ht hb (sortedNat G) [] [] (by simpa using sortedNat_lt hb'.fields.1) ?_ rfl (by simp) (by simpa using hp)
        intro j; rw [List.nil_append, mem_sortedNat, hG]
      · exact .inr h
    · exact .inr h
  · exact .inr h

end Iso8583
