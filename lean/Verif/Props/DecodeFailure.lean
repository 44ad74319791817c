import Verif.Lemmas.DecodeFault
import Verif.Spec.Fails
import Verif.Props.DecodeFraming
/-!
# What decode reports when it fails (C47, C51)
-/

namespace Iso8583
open PyM

theorem readable_of_reads {env : PyEnv} {fs : FieldSpec} {D bm : Bytes} {t : Str} (h : BitmapReads env fs D t bm) :
    ReadableBitmap env fs D ∧ PlainSays env fs D t := by
  have hw : D.length = bitmapBytes fs := h.width
  have hne : D ≠ [] := by
    rintro rfl
    have := bitmapBytes_pos fs
    simp at hw; omega
  have hpl := (plainValue_ok_iff hne).1 h.data
  refine ⟨⟨hw, t, hpl, fun hb => ?_⟩, hpl⟩
  have := h.bits
  unfold bitmapBits at this
  rw [if_neg (show ¬ fs.dataEnc = py"b" from hb)] at this
  rw [this]; rfl

/-- **C47**: every `DecodeError` message is true. Extra data: what came before is a message that
decodes to exactly the reported dicts. Any other message: it is true (`DecEntryFault`) of the last
entry of the reported dicts, which is the entry of the reported field, starting where the entries
before it end. -/
theorem decode_error_truthful {env : PyEnv} {spec : Spec} {s : Bytes} {e : DecodeError}
    (h : decode env spec s = .error (.decodeError e)) :
    (e.msg = .extraData ∧ e.pos < s.length ∧ decode env spec (s.take e.pos) = .ok (e.docDec, e.docEnc)) ∨
    (e.msg ≠ .extraData ∧ ∃ pre ent preDec v, e.docEnc = pre ++ [(e.field, ent)] ∧ e.docDec = preDec ++ [(e.field, v)] ∧
      DecEntryFault env spec s (wire pre).length e.field ent v e.msg) := by
  rcases decode_error_cases h with ⟨items, last, hr, hp, hne, hl, hx⟩ | ⟨m, pos, its, it, hnd, hp, hpos, hm, hf, _, hx⟩ | ⟨k, _, _, hx⟩
  · cases hx
    left
    refine ⟨rfl, ?_, ?_⟩
    · rcases Nat.lt_or_ge (wireOf items).length s.length with h | h
      · exact h
      · have := hp.length_le
        exact absurd (hp.eq_of_length (by omega)) hne
    · exact decode_ok_iff.2 ⟨items, hr, List.prefix_iff_eq_take.1 hp, rfl, rfl⟩
  · cases hx
    right
    refine ⟨hm, encOf its, it.entry, decOf its, it.val, by simp [encOf], by simp [decOf], ?_⟩
    simp only [wire_encOf]
    have hi : (wireOf its).length ≤ s.length := by
      have := hp.length_le; simp at this; omega
    cases hf with
    | field hs h1 h2 h3 hf =>
      refine ⟨_, hs, ?_⟩
      rw [if_neg h1, if_neg (by simp [h2, h3])]
      exact ((fieldOut_error_iff hi).1 hf).1
    | type hs h1 hf =>
      refine ⟨_, hs, ?_⟩
      rw [if_pos h1]
      exact ((typeOut_error_iff hi).1 hf).1
    | @bitmap key fs D t hs h1 hf =>
      refine ⟨fs, hs, ?_⟩
      rw [if_neg (by rcases h1 with rfl | rfl <;> simp), if_pos h1]
      exact ⟨rfl, .inl ((bitmapOut_error_iff hi).1 hf).1⟩
    | @tertiary key fs D1 D2 bm1 t1 t2 hs h1 hr hp1 hf =>
      refine ⟨fs, hs, ?_⟩
      rw [if_neg (by rcases h1 with rfl | rfl <;> simp), if_pos h1]
      have hw : D1.length = bitmapBytes fs := hr.width
      have hle : (wireOf its).length + bitmapBytes fs ≤ s.length := by
        have := hp1.length_le; simp at this; omega
      obtain ⟨h2, h3⟩ := readable_of_reads hr
      refine ⟨rfl, .inr ⟨t1, t2, rfl, hle, ?_, ?_, ?_, ?_⟩⟩ <;> simp only [Item.entry] <;> rw [← hw]
      · rw [List.take_left]
        exact List.prefix_iff_eq_take.1 hp1
      · rw [List.take_left]; exact h2
      · rw [List.take_left]; exact h3
      · rw [List.drop_left]
        exact ((bitmapOut_error_iff (by omega)).1 hf).1
  · cases hx

/-- Data reported as too short is all that is left of the input, unless the declared length was
negative. -/
theorem dataShort_is_rest {env : PyEnv} {fs : FieldSpec} {s : Bytes} {idx a : Nat} {u : Str} {n : Int} {ent : EncEntry}
    {v : Str} (h : DecFieldFault env fs s idx ent v (.dataShort a u n)) (hn : 0 ≤ n) :
    ent.data = s.drop (idx + fs.lenType) ∧ (ent.data.length : Int) < bytesFor fs n := by
  obtain ⟨_, _, _, hd, hne, _⟩ := h
  have h0 : 0 ≤ bytesFor fs n := by unfold bytesFor; split <;> omega
  have hb : ((bytesFor fs n).toNat : Int) = bytesFor fs n := by omega
  rw [← hb, slice_nat] at hd
  have hl := congrArg List.length hd
  simp only [List.length_take, List.length_drop] at hl
  refine ⟨?_, by omega⟩
  rw [hd, List.take_of_length_le]
  simp; omega

/-- **C51**: the converse. Take any accepted message, and any input that agrees with it up to the
start of its entry `k`. If one of the messages is true of what follows, `decode` raises
`DecodeError` with that message, naming `k`, the position where the entry or its data starts, and
dicts holding the entries before `k` and the faulty one. -/
theorem decode_fault {env : PyEnv} {spec : Spec} {s s' : Bytes} {dec : DecDoc} {pre post : EncDoc} {k : Str}
    {old : EncEntry} (h : decode env spec s = .ok (dec, pre ++ (k, old) :: post)) (hs' : wire pre <+: s') {fs : FieldSpec}
    (hspec : spec.get? k = some fs) {m : DecMsg} {v : Str} {ent : EncEntry} {off : Nat}
    (hf : DecSimpleFault env fs s' (wire pre).length k ent v m off) :
    decode env spec s' = .error (.decodeError ⟨m, s', dec.take pre.length ++ [(k, v)], pre ++ [(k, ent)],
      (wire pre).length + off, k⟩) := by
  obtain ⟨items, hr, _, rfl, henc⟩ := decode_ok_iff.1 h
  obtain ⟨its, rest, rfl, hpre, hrest⟩ := List.map_eq_append_iff.1 henc.symm
  obtain ⟨it, post', rfl, hit, _⟩ := List.map_eq_cons_iff.1 hrest
  have hpre : pre = encOf its := hpre.symm
  subst hpre
  cases hit
  rw [wire_encOf] at hs' hf ⊢
  have hrun : decodeCore env spec s' (.of []) =
      (.error (.err m ((wireOf its).length + off) it.key), .of (its ++ [⟨it.key, ent.len, ent.data, v⟩])) := by
    unfold DecSimpleFault at hf
    by_cases h1 : it.key = py"t"
    · rw [if_pos h1] at hf
      obtain ⟨hf, rfl⟩ := hf
      exact decodeCore_of_type_fault hr hs' h1 hspec ((typeOut_error_iff hs'.length_le).2 ⟨hf, rfl⟩)
    · rw [if_neg h1] at hf
      by_cases h2 : it.key = py"p" ∨ it.key = py"1"
      · rw [if_pos h2] at hf
        obtain ⟨hl, hf, rfl⟩ := hf
        rw [hl]
        exact decodeCore_of_bitmap_fault hr hs' h2 hspec ((bitmapOut_error_iff hs'.length_le).2 ⟨hf, rfl⟩)
      · rw [if_neg h2] at hf
        obtain ⟨hf, rfl⟩ := hf
        exact decodeCore_of_fault hr hs' h1 (fun h => h2 (.inl h)) (fun h => h2 (.inr h)) hspec
          ((fieldOut_error_iff hs'.length_le).2 ⟨hf, rfl⟩)
  unfold decode
  rw [decodeBody_eq, ← of_nil, hrun]
  simp [DecState.of, decOf, encOf, Item.entry]

/-! ## Examples -/

/-- The message with a BCD prefix of field 2 that is not decimal: `0x0A`. -/
example : decode cpython demoSpec (demoMsg.take 45 ++ [0x0A, 0x31]) =
    .error (.decodeError ⟨.lenInvalidBcd, demoMsg.take 45 ++ [0x0A, 0x31], demoDec.take 4 ++ [(py"2", [])],
      demoEnc.take 4 ++ [(py"2", ⟨[0x0A], []⟩)], 45, py"2"⟩) :=
  decode_fault (pre := demoEnc.take 4) (post := demoEnc.drop 5) (old := ⟨[0x05], [0x31, 0x32, 0x33, 0x34, 0x35]⟩) demo_decode
    (by decide) (fs := { dataEnc := py"ascii", lenEnc := py"bcd", lenType := 1, maxLen := 19 }) (by decide) (off := 0)
    (by
      unfold DecSimpleFault
      rw [if_neg (by decide), if_neg (by decide)]
      exact ⟨⟨⟨by decide, ⟨by decide, by decide⟩, rfl, rfl⟩, rfl, .inl (by decide)⟩, by decide⟩)

/-- The message with a secondary bitmap that is not hex digits. -/
example : decode cpython demoSpec (demoMsg.take 13 ++ py"8400000000000x00".map Nat.toUInt8) =
    .error (.decodeError ⟨.nonHexBitmap, demoMsg.take 13 ++ py"8400000000000x00".map Nat.toUInt8,
      demoDec.take 3 ++ [(py"1", py"8400000000000x00")],
      demoEnc.take 3 ++ [(py"1", ⟨[], py"8400000000000x00".map Nat.toUInt8⟩)], 13, py"1"⟩) :=
  decode_fault (pre := demoEnc.take 3) (post := demoEnc.drop 4) (old := demoEnc[3].2) demo_decode
    (by decide) (fs := { dataEnc := py"ascii", lenEnc := py"ascii", lenType := 0, maxLen := 16 }) (by decide) (off := 0)
    (by
      unfold DecSimpleFault
      rw [if_neg (by decide), if_pos (by decide)]
      exact ⟨rfl, ⟨by decide, by decide, by decide, ⟨asciiCodec, rfl, by decide⟩, by decide⟩, rfl⟩)

/-- The cut message: field 70 declares 3 bytes and 1 is left. -/
example : ∃ pre ent preDec v, demoEnc.take 6 ++ [(py"70", ⟨[0xF0, 0xF3], [0xA7]⟩)] = pre ++ [(py"70", ent)] ∧
    demoDec.take 6 ++ [(py"70", ([] : Str))] = preDec ++ [(py"70", v)] ∧
    DecEntryFault cpython demoSpec (demoMsg.take 57) (wire pre).length py"70" ent v (.dataShort 1 py"bytes" 3) := by
  rcases decode_error_truthful demo_decode_cut with ⟨h, _⟩ | ⟨_, h⟩
  · cases h
  · exact h

/-- An instance of `dataShort_is_rest`. -/
example : ([0xA7] : Bytes) = (demoMsg.take 57).drop (54 + 2) :=
  (dataShort_is_rest (env := cpython) (fs := { dataEnc := py"cp500", lenEnc := py"cp500", lenType := 2, maxLen := 10 }) (s := demoMsg.take 57)
    (idx := 54) (ent := ⟨[0xF0, 0xF3], [0xA7]⟩) (a := 1) (u := py"bytes") (n := 3) (v := [])
    ⟨by unfold PrefixHeld; decide +kernel, ⟨by unfold UnitsAre; decide +kernel, fun _ h => absurd h (by decide)⟩, by decide, by decide, by decide, rfl, by decide, rfl⟩ (by decide)).1

end Iso8583
