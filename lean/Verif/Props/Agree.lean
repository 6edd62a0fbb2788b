import Verif.Props.CliMany
import Verif.Props.Wasm
/-!
# C76: the command and the web version agree

wasm/wasm.go and cmd/root.go call `ParseKF` and `ToJSON` independently of each
other.  A page gets the text of a file as browsers decode it, which is what Go
makes of the bytes (`Decodes`).
-/

namespace Verif

/-- C76. A file is rejected by the command exactly if the web version reports an
error for its text, and both give the same error text. -/
theorem C76_errors (w : World) (sh : Bool) (os : OS) (fs : Files) (argv : List Str) (f : Flags)
    (arg : Str) (data : List UInt8) (s : Str) (h : AsksRun argv f) (hi : GotInput os fs f arg data)
    (hs : Decodes data s) :
    (runMain w sh os fs argv).exit = some 5 ∧
      (∃ t, (runMain w sh os fs argv).out = [t] ∧ wasmCall w sh [s] = some
        (.object [("error".toList, "parsing failed: ".toList ++ t ++ ['\n']), ("json".toList, [])])) ∨
    (runMain w sh os fs argv).exit ≠ some 5 ∧
      ∃ j, wasmCall w sh [s] = some (.object [("json".toList, j)]) := by
  by_cases ha : ∃ sch, Accepts w s sch
  · obtain ⟨sch, ha⟩ := ha
    refine .inr ⟨fun h5 => ?_, _, C40_accepted w sh s sch ha⟩
    obtain ⟨_, _, _, h5', _⟩ := C35_exit_code w sh os fs argv f h
    obtain ⟨arg', data', hi', hn⟩ := h5'.1 h5
    obtain rfl : arg = arg' := by
      have := hi.only.symm.trans hi'.only
      simpa using this
    obtain rfl : data = data' := Option.some.inj (hi.content.symm.trans hi'.content)
    exact hn ⟨sch, s, hs, ha⟩
  · have hb : ¬ ∃ sch, AcceptsBytes w data sch := by
      rintro ⟨sch, s', hs', h'⟩
      obtain rfl : s = s' := ((C47_decoding _ _).1 hs).symm.trans ((C47_decoding _ _).1 hs')
      exact ha ⟨sch, h'⟩
    obtain ⟨h1, _, _, _, l, t, hl, ht, ho⟩ := run_rejected w sh os fs argv f arg data h hi hb
    obtain ⟨l', t', hl', ht', hw⟩ := C40_rejected w sh s ha
    have hd : decode data = s := (C47_decoding _ _).1 hs
    unfold parseKFBytes at hl
    rw [hd] at hl
    obtain rfl : l = l' := Option.some.inj (hl.symm.trans hl')
    obtain rfl : t = t' := Option.some.inj (ht.symm.trans ht')
    exact .inl ⟨h1, t, ho, hw⟩

/-- C76. What the web version gives as JSON is, encoded, what the command writes
into a new output file when no system call fails, and conversely. -/
theorem C76_json (w : World) (sh : Bool) (os : OS) (fs : Files) (argv : List Str) (f : Flags)
    (arg : Str) (data : List UInt8) (s j : Str) (h : AsksRun argv f) (hi : GotInput os fs f arg data)
    (hs : Decodes data s) (p : Str) (hp : p = outputPath f.output arg) (hnew : fs (os.file p) = none)
    (ho : os.openErr p = none) (hw : ∀ d, (os.write p d).2 = none) (hc : os.closeErr p = none) :
    wasmCall w sh [s] = some (.object [("json".toList, j)]) ↔
      (runMain w sh os fs argv).exit = some 0 ∧
      (runMain w sh os fs argv).files (os.file p) = some (encode j) := by
  by_cases ha : ∃ sch, Accepts w s sch
  · obtain ⟨sch, ha⟩ := ha
    obtain ⟨h0, h1, _⟩ := C36_output_partial w sh os fs argv f arg data sch h hi ⟨s, hs, ha⟩ p hp _ rfl ho
      (hw _) hc
    rw [hnew] at h1
    have h1 : (runMain w sh os fs argv).files (os.file p) = some (encode (sch.toJSON sh)) := by
      simpa using h1
    rw [C40_accepted w sh s sch ha, h0, h1]
    constructor
    · intro e
      simp only [Option.some.injEq, JsValue.object.injEq, List.cons.injEq, Prod.mk.injEq, true_and, and_true] at e
      rw [e]
      exact ⟨rfl, rfl⟩
    · rintro ⟨_, e⟩
      have e := Option.some.inj e
      have h2 := (C47_decoding _ _).1 (decodes_encode (sch.toJSON sh))
      have h3 := (C47_decoding _ _).1 (decodes_encode j)
      rw [← h2, ← h3, e]
  · obtain ⟨l, t, _, _, hr⟩ := C40_rejected w sh s ha
    rw [hr]
    constructor
    · intro e
      simp at e
    · rintro ⟨h0, _⟩
      exfalso
      obtain ⟨_, _, _, _, _, _, h0'⟩ := C35_exit_code w sh os fs argv f h
      obtain ⟨arg', data', sch, hi', ⟨s', hs', ha'⟩, _⟩ := h0'.1 h0
      obtain rfl : arg = arg' := by
        have := hi.only.symm.trans hi'.only
        simpa using this
      obtain rfl : data = data' := Option.some.inj (hi.content.symm.trans hi'.content)
      obtain rfl : s = s' := ((C47_decoding _ _).1 hs).symm.trans ((C47_decoding _ _).1 hs')
      exact ha ⟨sch, ha'⟩

/-! The hypotheses can be met. -/

example : wasmCall Sample.world false [Sample.tinyText 'a'] =
      some (.object [("json".toList, (⟨['a'], [], []⟩ : Program).denote.toJSON false)]) ∧
    (runMain Sample.world false Sample.os Sample.tree ["p/x.kf".toList]).files
      (Sample.os.file "build/x.json".toList) =
        some (encode ((⟨['a'], [], []⟩ : Program).denote.toJSON false)) := by
  obtain ⟨ha, hi, ⟨s, hs, hacc⟩, ho, hw, hc, _⟩ := Sample.ready_a
  obtain rfl : Sample.tinyText 'a' = s :=
    ((C47_decoding _ _).1 (decodes_encode _)).symm.trans ((C47_decoding _ _).1 hs)
  have h := C40_accepted Sample.world false _ _ hacc
  exact ⟨h, ((C76_json Sample.world false Sample.os Sample.tree _ _ _ _ _ _ ha hi hs _ rfl
    (by decide +kernel) ho (fun _ => rfl) hc).1 h).2⟩

end Verif
