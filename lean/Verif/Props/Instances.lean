import Verif.Props.Patch
import Verif.Props.Json
import Verif.Props.Gateway
import Verif.Props.SourceHeap
import Verif.Props.SourceValues

/-! # Instances on data that the modules of the theorems do not import -/

namespace Iso8583

/-- An instance of `shipped_json`. -/
example : ∃ d, jsonLoads (jsonDumps requestDec) = some d := by
  obtain ⟨d, _, _, _, _, h, _⟩ := shipped_json (.inl rfl) request_decode
  exact ⟨d, h⟩

/-- An instance of `reencode`. -/
example : ∃ s' enc' doc', encode cpython defaultSpec (asDoc requestDec) = (.ok (s', enc'), doc') := by
  obtain ⟨s', enc', doc', _, _, h, _⟩ := reencode cpython_ascii (by decide) (wellFormed_normal default_wellFormed rfl (by decide)) request_decode
  exact ⟨s', enc', doc', h⟩

/-- An instance of `default_to_ascii`. -/
example : ∃ s' enc' d', encode cpython defaultAsciiSpec (asDoc requestDec) = (.ok (s', enc'), d') := by
  obtain ⟨s', enc', d', _, _, _, _, h, _⟩ := default_to_ascii cpython_ascii rfl (by decide) request_decode
  exact ⟨s', enc', d', h⟩

namespace Src

/-- An instance of `pp_heap`. -/
example (st : St (List (Bool × Str))) (hh : st.heap = heapOf heapSpec ++ [.dict dispatchItems, .dict [(.str py"t", .str py"0200")]]) :
    program (recordRt 5) toolsDefs .pp [.ref 6, .ref 4] [] st =
      callS (ppStream cpython ((recordRt 5).write true) [(.str py"t", .str py"0200")] heapSpec (.int 30) none (.int 80)) st :=
  (pp_heap (recordRt_globals 5) st (hh ▸ heapOf_spec (spec := heapSpec) (by decide) _) (by rw [hh]; rfl) (hh ▸ heapSpec_apart (by decide))
    (items := [(.str py"t", .str py"0200")]) (doc := [(.str py"t", .str py"0200")]) (.inr ⟨6, rfl, by rw [hh]; rfl⟩) ⟨rfl, rfl, trivial⟩ (by
      intro p hp
      simp only [List.mem_singleton] at hp
      subst hp
      exact ⟨fun _ => rfl, .inl fun _ => rfl⟩)
    (dwv := .int 30) (sv := .none) (lwv := .int 80) rfl rfl rfl).2.2.2

end Src

end Iso8583
