import Verif.Model.Crash
import Verif.Props.Cli
/-!
# C53: interrupted runs

`fs' ∈ mainMoments w sh os fs argv`: a run of the command on the files `fs` may
be killed at a moment when the files are `fs'`.
-/

namespace Verif

theorem writeMoments_last (os : OS) (fs : Files) (data : List UInt8) (p : Str) :
    (writeMoments os fs data p).getLast? = some (writeToFile os fs data p).1 := by
  unfold writeMoments writeToFile
  cases h : os.openFile fs p with
  | error e => rfl
  | ok fs₁ =>
    have hw : (os.writeFile fs₁ p data).1 = os.writeSome fs₁ p data (os.write p data).1 := rfl
    have : (match os.closeErr p with
        | some e => ((os.writeFile fs₁ p data).1, Wrote.fatal e)
        | none => ((os.writeFile fs₁ p data).1, Wrote.ret none)).1 =
        os.writeSome fs₁ p data (os.write p data).1 := by
      cases os.closeErr p <;> exact hw
    rw [List.getLast?_cons, List.range_succ, List.map_append, List.map_singleton]
    simp only [List.getLast?_append, List.getLast?_singleton, Option.getD_some, Option.some_or]
    exact congrArg some this.symm

/-- The last moment is the end of the run. -/
theorem mainMoments_last (w : World) (sh : Bool) (os : OS) (fs : Files) (argv : List Str) :
    (mainMoments w sh os fs argv).getLast? = some (runMain w sh os fs argv).files := by
  unfold mainMoments runMain
  cases readFlags argv with
  | error m => rfl
  | ok f =>
    simp only
    cases f.help with
    | true => rfl
    | false =>
      simp only [Bool.false_eq_true, if_false]
      unfold runMoments runCmd
      cases f.version with
      | true => rfl
      | false =>
        simp only [Bool.false_eq_true, if_false]
        rcases f.args with _ | ⟨arg, _ | ⟨b, l⟩⟩
        · rfl
        · simp only
          cases os.mkdirErr f.output with
          | some e => rfl
          | none =>
            simp only
            cases os.readFile fs arg with
            | error e => rfl
            | ok data =>
              simp only
              cases (parseKFBytes w data none modeDefault).err with
              | some l => rfl
              | none =>
                simp only
                rw [writeMoments_last]
                cases (writeToFile os fs (toJSONBytes sh (parseKFBytes w data none modeDefault).result)
                  (outputPath f.output arg)).2 with
                | fatal e => rfl
                | ret e => cases e <;> rfl
        · rfl

/-- Moments of a run: nothing has changed, or the run was writing. -/
theorem moments_cases (w : World) (sh : Bool) (os : OS) (fs fs' : Files) (argv : List Str)
    (h : fs' ∈ mainMoments w sh os fs argv) :
    fs' = fs ∨ ∃ f arg data sch k, AsksRun argv f ∧ GotInput os fs f arg data ∧
      AcceptsBytes w data sch ∧ os.openErr (outputPath f.output arg) = none ∧
      k ≤ (encode (sch.toJSON sh)).length ∧
      fs' = os.writeSome fs (outputPath f.output arg) (encode (sch.toJSON sh)) k := by
  have one : ∀ {x : Files}, x ∈ [fs] → x = fs := fun hx => List.mem_singleton.1 hx
  unfold mainMoments at h
  cases hf : readFlags argv with
  | error m => rw [hf] at h; exact .inl (one h)
  | ok f =>
    rw [hf] at h
    simp only at h
    cases hh : f.help with
    | true => rw [hh] at h; exact .inl (one h)
    | false =>
      rw [hh] at h
      simp only [Bool.false_eq_true, if_false] at h
      unfold runMoments at h
      cases hv : f.version with
      | true => rw [hv] at h; exact .inl (one h)
      | false =>
        rw [hv] at h
        simp only [Bool.false_eq_true, if_false] at h
        rcases hargs : f.args with _ | ⟨arg, _ | ⟨b, l⟩⟩
        · rw [hargs] at h; exact .inl (one h)
        · rw [hargs] at h
          simp only at h
          cases hm : os.mkdirErr f.output with
          | some e => rw [hm] at h; exact .inl (one h)
          | none =>
            rw [hm] at h
            simp only at h
            rcases readFile_cases os fs arg with ⟨data, hr, hc, hrd⟩ | ⟨_, e, hrd⟩
            · rw [hrd] at h
              simp only at h
              rcases bytes_cases w data with ⟨sch, ha⟩ | ⟨_, l, t, hl, _⟩
              · obtain ⟨he, hres⟩ := acceptsBytes_iff.1 ha
                rw [he, hres] at h
                simp only at h
                unfold writeMoments OS.openFile at h
                cases ho : os.openErr (outputPath f.output arg) with
                | some e => rw [ho] at h; exact .inl (one h)
                | none =>
                  rw [ho] at h
                  rcases List.mem_cons.1 h with h | h
                  · exact .inl h
                  · right
                    obtain ⟨k, hk, rfl⟩ := List.mem_map.1 h
                    have hle := os.write_le (outputPath f.output arg) (encode (sch.toJSON sh))
                    have hk' := List.mem_range.1 hk
                    refine ⟨f, arg, data, sch, k, ⟨hf, hh, hv⟩, ⟨hargs, hm, hr, hc⟩, ha, ho, ?_, ?_⟩
                    · have : (toJSONBytes sh (some sch)) = encode (sch.toJSON sh) := rfl
                      rw [this] at hk'
                      omega
                    · funext i
                      simp only [OS.writeSome]
                      split
                      · simp only [Option.getD_some]; rfl
                      · rfl
              · rw [hl] at h; exact .inl (one h)
            · rw [hrd] at h; exact .inl (one h)
        · rw [hargs] at h; exact .inl (one h)

/-- C53. At every moment of a run, a file is as before unless it is the output
file of a run whose input was read and accepted; that file then consists of a
beginning of the JSON and, from there on, of what was in it before. -/
theorem C53_any_moment (w : World) (sh : Bool) (os : OS) (fs fs' : Files) (argv : List Str)
    (h : fs' ∈ mainMoments w sh os fs argv) (i : Nat) (hi : fs' i ≠ fs i) :
    ∃ f arg data sch, AsksRun argv f ∧ GotInput os fs f arg data ∧ AcceptsBytes w data sch ∧
      i = os.file (outputPath f.output arg) ∧
      ∃ k, k ≤ (encode (sch.toJSON sh)).length ∧
        fs' i = some ((encode (sch.toJSON sh)).take k ++ ((fs i).getD []).drop k) := by
  rcases moments_cases w sh os fs fs' argv h with rfl | ⟨f, arg, data, sch, k, hA, hg, ha, _, hk, rfl⟩
  · exact absurd rfl hi
  · refine ⟨f, arg, data, sch, hA, hg, ha, ?_, k, hk, ?_⟩
    · simp only [OS.writeSome] at hi
      split at hi
      · assumption
      · exact absurd rfl hi
    · simp only [OS.writeSome] at hi ⊢
      split at hi
      · next hp => rw [if_pos hp]
      · exact absurd rfl hi

/-- C53. Rerunning repairs: if the same command line is run again after an
interruption, and every system call of that run succeeds, then all files are
as if the interrupted run had never been started.  (The output must not be the
input file itself.) -/
theorem C53_rerun (w : World) (sh : Bool) (os os' : OS) (fs fs' : Files) (argv : List Str) (f : Flags)
    (arg : Str) (data : List UInt8) (sch : Schema) (hfile : os'.file = os.file)
    (h : fs' ∈ mainMoments w sh os fs argv) (hA : AsksRun argv f)
    (hi : GotInput os' fs f arg data) (ha : AcceptsBytes w data sch) (p : Str)
    (hp : p = outputPath f.output arg) (hne : os.file p ≠ os.file arg)
    (ho : os'.openErr p = none) (hw : (os'.write p (encode (sch.toJSON sh))).2 = none)
    (hc : os'.closeErr p = none) :
    (runMain w sh os' fs' argv).exit = some 0 ∧
    (runMain w sh os' fs' argv).files = (runMain w sh os' fs argv).files := by
  subst hp
  have hcontent : fs (os.file arg) = some data := by rw [← hfile]; exact hi.content
  -- the state at the interruption
  have hmix : (∀ i, i ≠ os.file (outputPath f.output arg) → fs' i = fs i) ∧
      (((fs' (os.file (outputPath f.output arg))).getD []).drop (encode (sch.toJSON sh)).length =
        ((fs (os.file (outputPath f.output arg))).getD []).drop (encode (sch.toJSON sh)).length) := by
    rcases moments_cases w sh os fs fs' argv h with
      rfl | ⟨f₁, arg₁, data₁, sch₁, k, hA₁, hg₁, ha₁, _, hk, rfl⟩
    · exact ⟨fun _ _ => rfl, rfl⟩
    · have hf : f₁ = f := by
        have := hA₁.flags.symm.trans hA.flags
        cases this; rfl
      subst hf
      have harg : arg₁ = arg := by
        have := hg₁.only.symm.trans hi.only
        cases this; rfl
      subst harg
      have hdata : data₁ = data := by
        have := hg₁.content.symm.trans hcontent
        cases this; rfl
      subst hdata
      have hsch : sch₁ = sch := by
        have := (acceptsBytes_iff.1 ha₁).2.symm.trans (acceptsBytes_iff.1 ha).2
        cases this; rfl
      subst hsch
      constructor
      · intro i hi
        simp only [OS.writeSome, if_neg hi]
      · simp only [OS.writeSome, if_true, Option.getD_some]
        generalize ((fs (os.file (outputPath f₁.output arg₁))).getD []) = old
        rw [List.drop_append, List.drop_eq_nil_of_le (by simp; omega), List.nil_append,
          List.drop_drop, List.length_take, Nat.min_eq_left hk]
        congr 1
        omega
  have hi' : GotInput os' fs' f arg data :=
    ⟨hi.only, hi.mkdir, hi.read, by rw [hfile, hmix.1 _ (Ne.symm hne)]; exact hcontent⟩
  obtain ⟨h1, h2, _, h3⟩ := C36_output_partial w sh os' fs' argv f arg data sch hA hi' ha _ rfl _ rfl ho hw hc
  obtain ⟨_, g2, _, g3⟩ := C36_output_partial w sh os' fs argv f arg data sch hA hi ha _ rfl _ rfl ho hw hc
  refine ⟨h1, ?_⟩
  funext i
  by_cases hk : i = os'.file (outputPath f.output arg)
  · subst hk
    rw [h2, g2, hfile, hmix.2]
  · rw [h3 i hk, g3 i hk]
    rw [hfile] at hk
    exact hmix.1 i hk

/-- C53, the limit: a run that is killed while it writes may leave any beginning
of the JSON in the output file.  (There is no temporary file that would be
renamed.) -/
theorem C53_torn (w : World) (sh : Bool) (os : OS) (fs : Files) (argv : List Str) (f : Flags)
    (arg : Str) (data : List UInt8) (sch : Schema) (hA : AsksRun argv f)
    (hi : GotInput os fs f arg data) (ha : AcceptsBytes w data sch) (p : Str)
    (hp : p = outputPath f.output arg) (ho : os.openErr p = none)
    (hw : (os.write p (encode (sch.toJSON sh))).2 = none) (k : Nat)
    (hk : k ≤ (encode (sch.toJSON sh)).length) :
    ∃ fs' ∈ mainMoments w sh os fs argv, fs' (os.file p) =
      some ((encode (sch.toJSON sh)).take k ++ ((fs (os.file p)).getD []).drop k) := by
  subst hp
  obtain ⟨he, hres⟩ := acceptsBytes_iff.1 ha
  refine ⟨os.writeSome fs (outputPath f.output arg) (encode (sch.toJSON sh)) k, ?_,
    by simp [OS.writeSome]⟩
  have hwn := os.write_ok _ _ hw
  have hm : mainMoments w sh os fs argv =
      writeMoments os fs (encode (sch.toJSON sh)) (outputPath f.output arg) := by
    unfold mainMoments
    rw [hA.flags]
    simp only [hA.help, Bool.false_eq_true, if_false]
    unfold runMoments
    simp only [hA.version, Bool.false_eq_true, if_false, hi.only, hi.mkdir, OS.readFile, hi.read,
      hi.content, he, hres]
    rfl
  rw [hm]
  unfold writeMoments OS.openFile
  rw [ho]
  refine List.mem_cons_of_mem _ (List.mem_map.2 ⟨k, ?_, ?_⟩)
  · rw [List.mem_range, hwn]; omega
  · funext i
    simp only [OS.writeSome]
    split
    · simp only [Option.getD_some]
    · rfl

namespace Sample

/-- C53: a run that is killed after five bytes, and the next one. -/
example : ∃ fs' ∈ mainMoments world false os (files 0) ["--trace".toList, "in.kf".toList],
    fs' (os.file "build/in.json".toList) = some ((encode (prog.denote.toJSON false)).take 5) ∧
    (runMain world false os fs' ["--trace".toList, "in.kf".toList]).exit = some 0 ∧
    (runMain world false os fs' ["--trace".toList, "in.kf".toList]).files (os.file "build/in.json".toList) =
      some (encode (prog.denote.toJSON false)) := by
  have hold : (files 0) (os.file "build/in.json".toList) = some [] := by decide
  have hlen : 5 ≤ (encode (prog.denote.toJSON false)).length := by decide +kernel
  obtain ⟨fs', h1, h2⟩ := C53_torn world false os (files 0) _ _ _ _ _ asks (got 0) accepts_bytes _
    out_path.symm rfl rfl 5 hlen
  refine ⟨fs', h1, ?_, ?_⟩
  · rw [h2, hold]; simp
  · obtain ⟨h3, h4⟩ := C53_rerun world false os os (files 0) fs' _ _ _ _ _ rfl h1 asks (got 0)
      accepts_bytes _ out_path.symm (by decide) rfl rfl rfl
    refine ⟨h3, ?_⟩
    rw [h4]
    refine ((C36_output_partial world false os (files 0) _ _ _ _ _ asks (got 0) accepts_bytes _
      out_path.symm _ rfl rfl rfl rfl).2.2.1).2 ?_
    rw [hold]; simp

end Sample

end Verif
