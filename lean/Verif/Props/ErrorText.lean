import Verif.Props.DecodeTotal
import Verif.Props.EncodeTotal
import Verif.Props.Exceptions
import Verif.Props.EncodeAttribution
/-!
# What the text of an exception tells (C72)
-/

namespace Iso8583

/-- A key of a message: header, type, primary bitmap, or a number other than zero and 65. -/
def FieldName (f : Str) : Prop := f = py"h" ∨ f = py"t" ∨ f = py"p" ∨ ∃ i : Nat, 1 ≤ i ∧ i ≠ 65 ∧ f = natStr i

theorem announces_pos {bm : Bytes} {off i : Nat} (h : announces bm off i) : 1 ≤ i := by
  have := h.1
  omega

theorem BitmapParts.pos {env : PyEnv} {spec : Spec} {b : List Part} {P : Nat → Prop} (h : BitmapParts env spec b P) {i : Nat}
    (hi : P i) : 1 ≤ i := by
  cases h with
  | one => exact announces_pos hi
  | two => exact hi.elim announces_pos announces_pos
  | three => rcases hi with h | h | h <;> exact announces_pos h
  | wide => exact hi.elim announces_pos announces_pos

theorem BitmapParts.names {env : PyEnv} {spec : Spec} {b : List Part} {P : Nat → Prop} (h : BitmapParts env spec b P) {p : Part}
    (hp : p ∈ b) : FieldName p.key := by
  have one : FieldName py"1" := .inr (.inr (.inr ⟨1, by omega, by omega, by decide⟩))
  have pri : FieldName py"p" := .inr (.inr (.inl rfl))
  cases h with
  | one => rw [List.mem_singleton.1 hp]; exact pri
  | two =>
    rcases List.mem_cons.1 hp with rfl | hp
    · exact pri
    · rw [List.mem_singleton.1 hp]; exact one
  | three =>
    rcases List.mem_cons.1 hp with rfl | hp
    · exact pri
    · rw [List.mem_singleton.1 hp]; exact one
  | wide => rw [List.mem_singleton.1 hp]; exact pri

theorem Message.names {env : PyEnv} {spec : Spec} {ps : List Part} (h : Message env spec ps) {p : Part} (hp : p ∈ ps) :
    FieldName p.key := by
  obtain ⟨h, t, b, f, P, F, rfl, ⟨_, _, hh⟩, ⟨_, _, _, _, rfl, _⟩, hb, _, hF, hk, _⟩ := h
  rcases List.mem_append.1 hp with hp | hp
  · rcases List.mem_append.1 hp with hp | hp
    · rcases hh with ⟨_, rfl⟩ | ⟨_, e, v, rfl, _⟩
      · cases hp
      · rw [List.mem_singleton.1 hp]; exact .inl rfl
    · rcases List.mem_cons.1 hp with rfl | hp
      · exact .inr (.inl rfl)
      · exact hb.names hp
  · have : p.key ∈ f.map Part.key := List.mem_map.2 ⟨p, hp, rfl⟩
    rw [hk] at this
    obtain ⟨i, hi, e⟩ := List.mem_map.1 this
    obtain ⟨h1, _, h3⟩ := (hF i).1 hi
    exact .inr (.inr (.inr ⟨i, hb.pos h1, h3, e.symm⟩))

/-- **C72**: the field a `DecodeError` names is a key of a message. -/
theorem decode_error_field {env : PyEnv} {spec : Spec} {s : Bytes} {e : DecodeError}
    (h : decode env spec s = .error (.decodeError e)) : FieldName e.field := by
  obtain ⟨_, h | h | h⟩ := decode_error_iff.1 h
  · obtain ⟨ps, hm, _, _, _, _, _, _, hl⟩ := h
    cases hq : ps.getLast? with
    | none => rw [hq] at hl; cases hl
    | some q =>
      rw [hq] at hl
      injection hl with hl
      rw [← hl]
      exact hm.names (List.mem_of_getLast? hq)
  · obtain ⟨ps, fs, ent, v, off, hx, _⟩ := h
    generalize e.field = f at hx ⊢
    cases hx with
    | header => exact .inl rfl
    | type => exact .inr (.inl rfl)
    | primary => exact .inr (.inr (.inl rfl))
    | secondary => exact .inr (.inr (.inr ⟨1, by omega, by omega, by decide⟩))
    | @field _ _ _ _ _ _ _ i _ _ hb _ hF =>
      obtain ⟨h1, _, h3⟩ := (hF i).1 (by simp)
      exact .inr (.inr (.inr ⟨i, hb.pos h1, h3, rfl⟩))
  · obtain ⟨ps, q, fs, D, v, hx, _, _, _, hf, _⟩ := h
    rw [hf]
    cases hx with
    | three => exact .inr (.inr (.inr ⟨1, by omega, by omega, show py"1" = natStr 1 by decide⟩))
    | wide => exact .inr (.inr (.inl rfl))

/-- **C72**: so is the field an `EncodeError` names, and a number is at most 192. -/
theorem encode_error_field {env : PyEnv} {spec : Spec} {doc d : Doc} {e : EncodeError} (nd : doc.NoDup)
    (h : encode env spec doc = (.error (.encodeError e), d)) :
    FieldName e.field ∧ ∀ i, e.field = natStr i → i ≤ 192 := by
  have num : ∀ i : Nat, 1 ≤ i → i ≤ 192 → i ≠ 65 → FieldName (natStr i) ∧ ∀ j, natStr i = natStr j → j ≤ 192 := by
    intro i h1 h2 h3
    refine ⟨.inr (.inr (.inr ⟨i, h1, h3, rfl⟩)), ?_⟩
    intro j hj
    rw [← natStr_inj.1 hj]
    exact h2
  have letter : ∀ f : Str, (f = py"h" ∨ f = py"t" ∨ f = py"p") → FieldName f ∧ ∀ j, f = natStr j → j ≤ 192 := by
    intro f hf
    refine ⟨?_, ?_⟩
    · rcases hf with rfl | rfl | rfl
      · exact .inl rfl
      · exact .inr (.inl rfl)
      · exact .inr (.inr (.inl rfl))
    · rintro j rfl
      have hd := natStr_digits j
      rcases hf with e | e | e <;> (rw [e] at hd; exact absurd (hd _ (List.mem_cons_self ..)) (by decide))
  have one : FieldName py"1" ∧ ∀ j, py"1" = natStr j → j ≤ 192 := num 1 (by omega) (by omega) (by omega)
  have fld : ∀ {fs : FieldSpec} {k : Str} {v : Val} {en : EncEntry} {m : EncMsg} {f : Str},
      FieldStops env fs k v en (.err m f) → f = k := by
    intro fs k v en m f h
    rcases h with ⟨_, m', e, _⟩ | ⟨h, _⟩
    · injection e
    · cases h <;> rfl
  obtain ⟨ps, b, f, tail, r, hs, rfl, hx⟩ := (encode_fails_iff nd).1 h
  have hr : ∃ m, r = .err m e.field := by
    cases r with
    | err m g => injection hx with hx; subst hx; exact ⟨m, rfl⟩
    | keyError => cases hx
    | valueError => cases hx
    | typeError => cases hx
    | unboundLocal => cases hx
    | indexError => cases hx
  obtain ⟨m, hr⟩ := hr
  generalize e.field = g at hr ⊢
  subst hr
  cases hs with
  | noHeader => exact letter _ (.inl rfl)
  | header _ _ _ hf => rw [fld hf]; exact letter _ (.inl rfl)
  | noType => exact letter _ (.inr (.inl rfl))
  | type _ _ _ ht =>
    rcases ht with ⟨_, m', e', _⟩ | ⟨ht, _⟩
    · injection e' with _ e'; rw [e']; exact letter _ (.inr (.inl rfl))
    · have : g = py"t" := by cases ht <;> rfl
      rw [this]; exact letter _ (.inr (.inl rfl))
  | keys _ _ hk => cases hk; exact letter _ (.inr (.inr rfl))
  | range => exact letter _ (.inr (.inr rfl))
  | bitmaps _ _ _ _ hb =>
    cases hb with
    | primary => exact letter _ (.inr (.inr rfl))
    | secondary => exact one
    | tertiary => exact one
  | lackField _ _ _ _ _ _ _ _ _ _ hr => cases hr
  | @field _ _ _ _ _ _ i _ _ _ _ _ _ _ hn _ _ hF _ _ _ _ hf =>
    rw [fld hf]
    obtain ⟨h1, h2, h3⟩ := (hF i).1 (by simp)
    have := hn _ h1
    exact num i (by omega) (by omega) h3

theorem FieldName.noSpace {f : Str} (h : FieldName f) : 32 ∉ f := by
  rcases h with rfl | rfl | rfl | ⟨i, _, _, rfl⟩
  · decide
  · decide
  · decide
  · intro hm
    exact absurd (natStr_digits i 32 hm) (by decide)

/-- The last word of a text is determined. -/
theorem lastWord_unique {a a' w w' : Str} (hw : 32 ∉ w) (hw' : 32 ∉ w') (h : a ++ 32 :: w = a' ++ 32 :: w') : a = a' ∧ w = w' := by
  induction a generalizing a' with
  | nil =>
    cases a' with
    | nil => simpa using h
    | cons c t =>
      injection h with _ h
      exact absurd (by rw [h]; simp) hw
  | cons c t ih =>
    cases a' with
    | nil =>
      injection h with _ h
      exact absurd (by rw [← h]; simp) hw'
    | cons c' t' =>
      injection h with h1 h
      obtain ⟨rfl, rfl⟩ := ih h
      exact ⟨by rw [h1], rfl⟩

/-- **C72**: the text of a `DecodeError` — what `str(e)` returns — determines the message, the field
and the position, whatever the runtimes, specifications and inputs were. -/
theorem decode_text_unique {env env' : PyEnv} {spec spec' : Spec} {s s' : Bytes} {e e' : DecodeError} {a a' : DecodeArg}
    (h : decode env spec s = .error (.decodeError e)) (h' : decode env' spec' s' = .error (.decodeError e'))
    (ht : (e.obj a).args0 = (e'.obj a').args0) :
    (e.obj a).msg = (e'.obj a').msg ∧ (e.obj a).field = (e'.obj a').field ∧ (e.obj a).pos = (e'.obj a').pos := by
  have hf := (decode_error_field h).noSpace
  have hf' := (decode_error_field h').noSpace
  have hi : ∀ n : Nat, intStr (n : Int) = natStr n := fun n => rfl
  have hn : ∀ n : Nat, 32 ∉ intStr (n : Int) := by
    intro n hm
    rw [hi] at hm
    exact absurd (natStr_digits n 32 hm) (by decide)
  unfold DecodeError.obj DecodeErrorObj.init at ht ⊢
  dsimp only at ht ⊢
  have r : ∀ m f p : Str, m ++ py": field " ++ f ++ py" pos " ++ p = (m ++ py": field" ++ 32 :: f ++ py" pos") ++ 32 :: p := by
    intro m f p
    simp
  rw [r, r] at ht
  obtain ⟨h1, h2⟩ := lastWord_unique (hn _) (hn _) ht
  have h1 := List.append_cancel_right h1
  obtain ⟨h3, h4⟩ := lastWord_unique hf hf' h1
  have h3 := List.append_cancel_right h3
  rw [hi, hi] at h2
  exact ⟨h3, h4, by rw [natStr_inj.1 h2]⟩

/-- **C72**: the text of an `EncodeError` determines the message and the field. -/
theorem encode_text_unique {env env' : PyEnv} {spec spec' : Spec} {doc doc' d d' : Doc} {e e' : EncodeError}
    (nd : doc.NoDup) (nd' : doc'.NoDup)
    (h : encode env spec doc = (.error (.encodeError e), d)) (h' : encode env' spec' doc' = (.error (.encodeError e'), d'))
    (ht : e.obj.args0 = e'.obj.args0) : e.obj.msg = e'.obj.msg ∧ e.obj.field = e'.obj.field := by
  have hf := (encode_error_field nd h).1.noSpace
  have hf' := (encode_error_field nd' h').1.noSpace
  unfold EncodeError.obj EncodeErrorObj.init at ht ⊢
  dsimp only at ht ⊢
  have r : ∀ m f : Str, m ++ py": field " ++ f = (m ++ py": field") ++ 32 :: f := by
    intro m f
    simp
  rw [r, r] at ht
  obtain ⟨h1, h2⟩ := lastWord_unique hf hf' ht
  exact ⟨List.append_cancel_right h1, h2⟩

/-- The message cut off inside field 70: whoever logs the same text had the same field and offset. -/
example {env : PyEnv} {spec : Spec} {s : Bytes} {e : DecodeError} (h : decode env spec s = .error (.decodeError e))
    (ht : (e.obj (.bytes s)).args0 = py"Field data is 1 bytes, expecting 3: field 70 pos 56") : e.field = py"70" ∧ e.pos = 56 := by
  have := decode_text_unique (a := .bytes s) (a' := .bytes (demoMsg.take 57)) h demo_decode_cut (by rw [ht]; decide)
  exact ⟨this.2.1, Int.ofNat.inj this.2.2⟩

/-- Field 70 is too long: the same for `encode`. -/
example {env : PyEnv} {spec : Spec} {doc d : Doc} {e : EncodeError} (nd : doc.NoDup)
    (h : encode env spec doc = (.error (.encodeError e), d))
    (ht : e.obj.args0 = py"Field data is 11 bytes, larger than maximum 10: field 70") : e.field = py"70" :=
  (encode_text_unique nd (by unfold Dict.NoDup; decide) h long_encode (by rw [ht]; decide)).2

example : FieldName py"70" := decode_error_field demo_decode_cut

example : FieldName longError.field ∧ ∀ i, longError.field = natStr i → i ≤ 192 :=
  encode_error_field (by unfold Dict.NoDup; decide) long_encode

end Iso8583
