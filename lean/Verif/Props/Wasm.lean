import Verif.Model.Wasm
import Verif.Props.Outcome
/-!
# C40: the entry point for WebAssembly
-/

namespace Verif

/-- C40. One argument that is accepted: an object with the JSON and nothing
else. -/
theorem C40_accepted (w : World) (sh : Bool) (s : Str) (sch : Schema) (h : Accepts w s sch) :
    wasmCall w sh [s] = some (.object [("json".toList, sch.toJSON sh)]) := by
  have h1 := h.1
  have h2 := h.2
  unfold parse at h1 h2
  simp only [wasmCall, wasmParse, h1, h2]

/-- C40. One argument that is rejected: an object with an empty `json` and the
text of the error. -/
theorem C40_rejected (w : World) (sh : Bool) (s : Str) (h : ¬ ∃ sch, Accepts w s sch) :
    ∃ l t, (parse w s).err = some l ∧ l.text = some t ∧
      wasmCall w sh [s] = some (.object [("error".toList, "parsing failed: ".toList ++ t ++ ['\n']),
        ("json".toList, [])]) := by
  cases he : (parse w s).err with
  | none =>
    obtain ⟨sch, hs⟩ := (C20_result_or_error w s none modeDefault).1 he
    exact absurd ⟨sch, he, hs⟩ h
  | some l =>
    obtain ⟨t, ht⟩ := C20_error_has_text w s modeDefault l he
    unfold parse at he
    exact ⟨l, t, rfl, ht, by simp only [wasmCall, wasmParse, he, ht]; rfl⟩

/-- C40. Another number of arguments: a string. -/
theorem C40_arguments (w : World) (sh : Bool) (args : List Str) (h : args.length ≠ 1) :
    wasmCall w sh args = some (.string "Invalid no of arguments passed".toList) := by
  rcases args with _ | ⟨a, _ | ⟨b, l⟩⟩
  · rfl
  · exact absurd rfl h
  · rfl

/-- C40. The call returns, and the object tells apart the two outcomes: it has
an `error` if and only if the text is rejected, and always a `json`. -/
theorem C40_members (w : World) (sh : Bool) (s : Str) :
    ∃ m, wasmCall w sh [s] = some (.object m) ∧
      ((∃ e, ("error".toList, e) ∈ m) ↔ ¬ ∃ sch, Accepts w s sch) ∧
      (∃ j, ("json".toList, j) ∈ m) := by
  by_cases h : ∃ sch, Accepts w s sch
  · obtain ⟨sch, hs⟩ := h
    refine ⟨_, C40_accepted w sh s sch hs, ?_, ⟨_, List.mem_singleton.2 rfl⟩⟩
    constructor
    · rintro ⟨e, he⟩
      have : "error".toList = "json".toList := congrArg Prod.fst (List.mem_singleton.1 he)
      exact absurd this (by decide)
    · intro hn; exact absurd ⟨sch, hs⟩ hn
  · obtain ⟨l, t, _, _, hr⟩ := C40_rejected w sh s h
    exact ⟨_, hr, ⟨fun _ => h, fun _ => ⟨_, List.mem_cons_self⟩⟩, ⟨_, List.mem_cons_of_mem _ List.mem_cons_self⟩⟩

example : wasmCall Sample.world false [Sample.text] =
    some (.object [("json".toList, Sample.prog.denote.toJSON false)]) :=
  C40_accepted _ _ _ _ Sample.accepts

/-- The empty text is rejected. -/
example (w : World) : ¬ ∃ sch, Accepts w [] sch := by
  rintro ⟨sch, ha⟩
  have hw : ¬ ∃ p, Writes [] p := syntaxTree_none.1 (by decide +kernel)
  have := ha.1
  rw [parse, parseKF_bad hw] at this
  simp [Outcome.err, ErrorList.isErr] at this

end Verif
