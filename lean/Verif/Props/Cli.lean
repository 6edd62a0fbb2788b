import Verif.Proof.Path
import Verif.Props.Trace
import Verif.Props.Utf8
/-!
# C35–C39: the command
-/

namespace Verif

/-- What the steps of a run depend on, in the order in which they are taken:
the command line asks for a run on one file, the directory can be made, the
file can be read, and its content is accepted. -/
structure AsksRun (argv : List Str) (f : Flags) : Prop where
  flags : readFlags argv = .ok f
  help : f.help = false
  version : f.version = false

/-- The content of the input file, if the run gets that far. -/
structure GotInput (os : OS) (fs : Files) (f : Flags) (arg : Str) (data : List UInt8) : Prop where
  only : f.args = [arg]
  mkdir : os.mkdirErr f.output = none
  read : os.readErr arg = none
  content : fs (os.file arg) = some data

/-- The content of the input file is accepted. -/
def AcceptsBytes (w : World) (data : List UInt8) (sch : Schema) : Prop :=
  ∃ s, Decodes data s ∧ Accepts w s sch

theorem acceptsBytes_iff {w : World} {data : List UInt8} {sch : Schema} :
    AcceptsBytes w data sch ↔ (parseKFBytes w data none modeDefault).err = none ∧
      (parseKFBytes w data none modeDefault).result = some sch := by
  constructor
  · rintro ⟨s, hd, ha⟩
    rw [(C47_decoding data s).1 hd |>.symm] at ha
    exact ha
  · intro h
    exact ⟨decode data, (C47_decoding _ _).2 rfl, h⟩

theorem bytes_cases (w : World) (data : List UInt8) :
    (∃ sch, AcceptsBytes w data sch) ∨
    ((¬ ∃ sch, AcceptsBytes w data sch) ∧
      ∃ l t, (parseKFBytes w data none modeDefault).err = some l ∧ l.text = some t) := by
  cases he : (parseKFBytes w data none modeDefault).err with
  | none =>
    obtain ⟨sch, hs⟩ := (C20_result_or_error w (decode data) none modeDefault).1 he
    exact .inl ⟨sch, acceptsBytes_iff.2 ⟨he, hs⟩⟩
  | some l =>
    right
    refine ⟨?_, l, ?_⟩
    · rintro ⟨sch, h⟩
      have := (acceptsBytes_iff.1 h).1
      rw [he] at this
      cases this
    · obtain ⟨t, ht⟩ := C20_error_has_text w (decode data) modeDefault l he
      exact ⟨t, rfl, ht⟩

theorem readFile_cases (os : OS) (fs : Files) (p : Str) :
    (∃ data, os.readErr p = none ∧ fs (os.file p) = some data ∧ os.readFile fs p = .ok data) ∨
    ((os.readErr p ≠ none ∨ fs (os.file p) = none) ∧ ∃ e, os.readFile fs p = .error e) := by
  unfold OS.readFile
  cases h1 : os.readErr p with
  | some e => right; simp
  | none =>
    cases h2 : fs (os.file p) with
    | none => right; simp
    | some d => left; exact ⟨d, rfl, rfl, rfl⟩

/-- The file system after the write. -/
def written (os : OS) (fs : Files) (p : Str) (d : List UInt8) : Files := fun i =>
  if i = os.file p then some (d.take (os.write p d).1 ++ ((fs i).getD []).drop (os.write p d).1) else fs i

theorem writeFile_open (os : OS) (fs : Files) (p : Str) (d : List UInt8) :
    (os.writeFile (fun i => if i = os.file p then some ((fs i).getD []) else fs i) p d).1 =
      written os fs p d := by
  funext i
  simp only [OS.writeFile, written]
  split <;> simp

/-- What a run that reached the parser and was accepted leaves. -/
theorem run_accepted (w : World) (sh : Bool) (os : OS) (fs : Files) (argv : List Str) (f : Flags)
    (arg : Str) (data : List UInt8) (sch : Schema) (h : AsksRun argv f)
    (hi : GotInput os fs f arg data) (ha : AcceptsBytes w data sch) :
    let r := runMain w sh os fs argv
    let p := outputPath f.output arg
    let json := encode (sch.toJSON sh)
    r.mode = some modeDefault ∧ r.mkdirs = [f.output] ∧
    (∀ e, os.openErr p = some e → r.exit = some 7 ∧ r.files = fs ∧ r.out = [e]) ∧
    (os.openErr p = none → r.files = written os fs p json ∧
      (∀ e, os.closeErr p = some e → r.exit = some 1 ∧ r.out = [e]) ∧
      (os.closeErr p = none → r.exit = some 0 ∧
        r.out = ["Successfully parsed ".toList ++ arg ++ " to ".toList ++ p])) := by
  obtain ⟨he, hr⟩ := acceptsBytes_iff.1 ha
  intro r p json
  have hrun : r = runCmd w sh os fs false false f.output [arg] := by
    simp only [r, runMain, h.flags, h.help, h.version, hi.only]
    rfl
  rw [hrun]
  simp only [runCmd, hi.mkdir, OS.readFile, hi.read, hi.content, he, Bool.false_eq_true, if_false,
    writeToFile, OS.openFile]
  have hj : toJSONBytes sh (parseKFBytes w data none modeDefault).result = json := by
    rw [hr]; rfl
  rw [hj]
  cases ho : os.openErr p with
  | some e =>
    refine ⟨by trivial, by trivial, ?_, by simp⟩
    intro e' he'
    cases he'
    exact ⟨by trivial, by trivial, by trivial⟩
  | none =>
    cases hc : os.closeErr p with
    | some e =>
      refine ⟨by trivial, by trivial, by simp, fun _ => ⟨writeFile_open .., ?_, by simp⟩⟩
      intro e' he'
      cases he'
      exact ⟨by trivial, by trivial⟩
    | none =>
      exact ⟨by trivial, by trivial, by simp, fun _ => ⟨writeFile_open .., by simp, fun _ => ⟨by trivial, by trivial⟩⟩⟩

/-- What other runs leave. -/
theorem run_rejected (w : World) (sh : Bool) (os : OS) (fs : Files) (argv : List Str) (f : Flags)
    (arg : Str) (data : List UInt8) (h : AsksRun argv f)
    (hi : GotInput os fs f arg data) (ha : ¬ ∃ sch, AcceptsBytes w data sch) :
    let r := runMain w sh os fs argv
    r.exit = some 5 ∧ r.files = fs ∧ r.mkdirs = [f.output] ∧ r.mode = some modeDefault ∧
      ∃ l t, (parseKFBytes w data none modeDefault).err = some l ∧ l.text = some t ∧ r.out = [t] := by
  rcases bytes_cases w data with h' | ⟨_, l, t, hl, ht⟩
  · exact absurd h' ha
  intro r
  have hrun : r = runCmd w sh os fs false false f.output [arg] := by
    simp only [r, runMain, h.flags, h.help, h.version, hi.only]
    rfl
  rw [hrun]
  simp only [runCmd, hi.mkdir, OS.readFile, hi.read, hi.content, hl, Bool.false_eq_true, if_false, ht]
  exact ⟨by trivial, by trivial, by trivial, by trivial, l, t, by trivial, by trivial, by trivial⟩

/-- C35. The exit code tells which stage failed: 2 – not exactly one argument;
3 – the output directory cannot be made; 4 – the file cannot be read; 5 – its
content is rejected; 7 – the output cannot be opened; 1 – it cannot be closed;
0 – none of these.  Code 6 does not occur. -/
theorem C35_exit_code (w : World) (sh : Bool) (os : OS) (fs : Files) (argv : List Str) (f : Flags)
    (h : AsksRun argv f) :
    let code := (runMain w sh os fs argv).exit
    (code = some 2 ↔ f.args.length ≠ 1) ∧
    (code = some 3 ↔ ∃ arg, f.args = [arg] ∧ os.mkdirErr f.output ≠ none) ∧
    (code = some 4 ↔ ∃ arg, f.args = [arg] ∧ os.mkdirErr f.output = none ∧
      (os.readErr arg ≠ none ∨ fs (os.file arg) = none)) ∧
    (code = some 5 ↔ ∃ arg data, GotInput os fs f arg data ∧ ¬ ∃ sch, AcceptsBytes w data sch) ∧
    (code = some 7 ↔ ∃ arg data sch, GotInput os fs f arg data ∧ AcceptsBytes w data sch ∧
      os.openErr (outputPath f.output arg) ≠ none) ∧
    (code = some 1 ↔ ∃ arg data sch, GotInput os fs f arg data ∧ AcceptsBytes w data sch ∧
      os.openErr (outputPath f.output arg) = none ∧ os.closeErr (outputPath f.output arg) ≠ none) ∧
    (code = some 0 ↔ ∃ arg data sch, GotInput os fs f arg data ∧ AcceptsBytes w data sch ∧
      os.openErr (outputPath f.output arg) = none ∧ os.closeErr (outputPath f.output arg) = none) := by
  intro code
  have hcode : code = (runMain w sh os fs argv).exit := rfl
  rcases ha : f.args with _ | ⟨arg, _ | ⟨b, l⟩⟩
  · have : code = some 2 := by
      simp only [hcode, runMain, h.flags, h.help, h.version, ha, runCmd]; rfl
    have hG : ∀ {arg data}, GotInput os fs f arg data → False := by
      intro arg data hg; have := hg.only; rw [ha] at this; cases this
    rw [this]
    simp only [Option.some.injEq, Nat.reduceEqDiff, List.length_nil, ne_eq, Nat.zero_ne_one, not_false_iff,
      true_iff, false_iff, and_assoc]
    refine ⟨trivial, ?_, ?_, ?_, ?_, ?_, ?_⟩
    · rintro ⟨arg, h, _⟩; cases h
    · rintro ⟨arg, h, _⟩; cases h
    · rintro ⟨arg, d, hg, _⟩; exact hG hg
    · rintro ⟨arg, d, s, hg, _⟩; exact hG hg
    · rintro ⟨arg, d, s, hg, _⟩; exact hG hg
    · rintro ⟨arg, d, s, hg, _⟩; exact hG hg
  rotate_left
  · have : code = some 2 := by
      simp only [hcode, runMain, h.flags, h.help, h.version, ha, runCmd]; rfl
    have hG : ∀ {arg data}, GotInput os fs f arg data → False := by
      intro arg data hg; have := hg.only; rw [ha] at this; cases this
    rw [this]
    simp only [Option.some.injEq, Nat.reduceEqDiff, List.length_cons, ne_eq,
      true_iff, false_iff]
    refine ⟨by simp, ?_, ?_, ?_, ?_, ?_, ?_⟩
    · rintro ⟨arg, h, _⟩; cases h
    · rintro ⟨arg, h, _⟩; cases h
    · rintro ⟨arg, d, hg, _⟩; exact hG hg
    · rintro ⟨arg, d, s, hg, _⟩; exact hG hg
    · rintro ⟨arg, d, s, hg, _⟩; exact hG hg
    · rintro ⟨arg, d, s, hg, _⟩; exact hG hg
  -- one argument
  have hA : ∀ {arg'}, [arg] = [arg'] → arg' = arg := by intro a h; cases h; rfl
  cases hm : os.mkdirErr f.output with
  | some e =>
    have : code = some 3 := by
      simp only [hcode, runMain, h.flags, h.help, h.version, ha, runCmd, hm]; rfl
    have hG : ∀ {arg data}, GotInput os fs f arg data → False := by
      intro arg data hg; have := hg.mkdir; rw [hm] at this; cases this
    rw [this]
    simp only [Option.some.injEq, Nat.reduceEqDiff, List.length_cons, List.length_nil, ne_eq,
      true_iff, false_iff]
    refine ⟨by simp, ⟨arg, rfl, by simp⟩, ?_, ?_, ?_, ?_, ?_⟩
    · rintro ⟨arg, _, h, _⟩; cases h
    · rintro ⟨arg, d, hg, _⟩; exact hG hg
    · rintro ⟨arg, d, s, hg, _⟩; exact hG hg
    · rintro ⟨arg, d, s, hg, _⟩; exact hG hg
    · rintro ⟨arg, d, s, hg, _⟩; exact hG hg
  | none =>
    rcases readFile_cases os fs arg with ⟨data, hr, hc, hf⟩ | ⟨hr, e, hf⟩
    · have hg : GotInput os fs f arg data := ⟨ha, hm, hr, hc⟩
      have hG : ∀ {arg' data'}, GotInput os fs f arg' data' → arg' = arg ∧ data' = data := by
        intro arg' data' hg'
        have h1 : arg' = arg := hA (by rw [← ha, ← hg'.only])
        subst h1
        have h2 := hg'.content
        rw [hc] at h2
        cases h2
        exact ⟨rfl, rfl⟩
      have hR : ¬ (os.readErr arg ≠ none ∨ fs (os.file arg) = none) := by
        rw [hr, hc]; simp
      rcases bytes_cases w data with ⟨sch, hs⟩ | ⟨hn, _⟩
      · obtain ⟨_, _, h7, h10⟩ := run_accepted w sh os fs argv f arg data sch h hg hs
        have hk : (code = some 7 ∧ os.openErr (outputPath f.output arg) ≠ none) ∨
            (code = some 1 ∧ os.openErr (outputPath f.output arg) = none ∧
              os.closeErr (outputPath f.output arg) ≠ none) ∨
            (code = some 0 ∧ os.openErr (outputPath f.output arg) = none ∧
              os.closeErr (outputPath f.output arg) = none) := by
          cases ho : os.openErr (outputPath f.output arg) with
          | some e => exact .inl ⟨(h7 e ho).1, by simp⟩
          | none =>
            obtain ⟨_, h1, h0⟩ := h10 ho
            cases hc : os.closeErr (outputPath f.output arg) with
            | some e => exact .inr (.inl ⟨(h1 e hc).1, rfl, by simp⟩)
            | none => exact .inr (.inr ⟨(h0 hc).1, rfl, rfl⟩)
        refine ⟨?_, ?_, ?_, ?_, ?_, ?_, ?_⟩
        · rcases hk with ⟨k, _⟩ | ⟨k, _⟩ | ⟨k, _⟩ <;> simp [k]
        · rcases hk with ⟨k, _⟩ | ⟨k, _⟩ | ⟨k, _⟩ <;> simp [k]
        · have : ¬ ∃ arg', [arg] = [arg'] ∧ none = (none : Option Str) ∧
              (os.readErr arg' ≠ none ∨ fs (os.file arg') = none) := by
            rintro ⟨a, h1, _, h2⟩
            rw [hA h1] at h2
            exact hR h2
          rcases hk with ⟨k, _⟩ | ⟨k, _⟩ | ⟨k, _⟩ <;> exact ⟨fun h => (by rw [k] at h; cases h), fun h => absurd h this⟩
        · have : ¬ ∃ arg data, GotInput os fs f arg data ∧ ¬ ∃ sch, AcceptsBytes w data sch := by
            rintro ⟨a, d, hg', hn⟩
            obtain ⟨rfl, rfl⟩ := hG hg'
            exact hn ⟨sch, hs⟩
          rcases hk with ⟨k, _⟩ | ⟨k, _⟩ | ⟨k, _⟩ <;> exact ⟨fun h => (by rw [k] at h; cases h), fun h => absurd h this⟩
        · constructor
          · intro hc
            rcases hk with ⟨_, k⟩ | ⟨k, _⟩ | ⟨k, _⟩
            · exact ⟨arg, data, sch, hg, hs, k⟩
            · rw [hc] at k; cases k
            · rw [hc] at k; cases k
          · rintro ⟨a, d, s, hg', _, ho⟩
            obtain ⟨rfl, rfl⟩ := hG hg'
            rcases hk with ⟨k, _⟩ | ⟨_, k, _⟩ | ⟨_, k, _⟩
            · exact k
            · exact absurd k ho
            · exact absurd k ho
        · constructor
          · intro hc
            rcases hk with ⟨k, _⟩ | ⟨_, k⟩ | ⟨k, _⟩
            · rw [hc] at k; cases k
            · exact ⟨arg, data, sch, hg, hs, k⟩
            · rw [hc] at k; cases k
          · rintro ⟨a, d, s, hg', _, ho, hcl⟩
            obtain ⟨rfl, rfl⟩ := hG hg'
            rcases hk with ⟨_, k⟩ | ⟨k, _⟩ | ⟨_, _, k⟩
            · exact absurd ho k
            · exact k
            · exact absurd k hcl
        · constructor
          · intro hc
            rcases hk with ⟨k, _⟩ | ⟨k, _⟩ | ⟨_, k⟩
            · rw [hc] at k; cases k
            · rw [hc] at k; cases k
            · exact ⟨arg, data, sch, hg, hs, k⟩
          · rintro ⟨a, d, s, hg', _, ho, hcl⟩
            obtain ⟨rfl, rfl⟩ := hG hg'
            rcases hk with ⟨_, k⟩ | ⟨_, _, k⟩ | ⟨k, _⟩
            · exact absurd ho k
            · exact absurd hcl k
            · exact k
      · have hcd : code = some 5 := (run_rejected w sh os fs argv f arg data h hg hn).1
        have hS : ∀ {arg' data' sch'}, GotInput os fs f arg' data' → AcceptsBytes w data' sch' → False := by
          intro a d s h1 h2
          obtain ⟨rfl, rfl⟩ := hG h1
          exact hn ⟨_, h2⟩
        rw [hcd]
        simp only [Option.some.injEq, Nat.reduceEqDiff, List.length_cons, List.length_nil, ne_eq,
          true_iff, false_iff]
        refine ⟨by simp, ?_, ?_, ⟨arg, data, hg, hn⟩, ?_, ?_, ?_⟩
        · rintro ⟨_, _, h⟩; exact h trivial
        · rintro ⟨a, h1, _, h2⟩; rw [hA h1] at h2; exact hR h2
        · rintro ⟨a, d, s, h1, h2, _⟩; exact hS h1 h2
        · rintro ⟨a, d, s, h1, h2, _⟩; exact hS h1 h2
        · rintro ⟨a, d, s, h1, h2, _⟩; exact hS h1 h2
    · have hcd : code = some 4 := by
        simp only [hcode, runMain, h.flags, h.help, h.version, ha, runCmd, hm, hf]; rfl
      have hG : ∀ {arg' data'}, GotInput os fs f arg' data' → False := by
        intro arg' data' hg'
        have h1 : arg' = arg := hA (by rw [← ha, ← hg'.only])
        subst h1
        rcases hr with h | h
        · exact h hg'.read
        · rw [hg'.content] at h; cases h
      rw [hcd]
      simp only [Option.some.injEq, Nat.reduceEqDiff, List.length_cons, List.length_nil, ne_eq,
        true_iff, false_iff]
      refine ⟨by simp, ?_, ⟨arg, by trivial, by trivial, hr⟩, ?_, ?_, ?_, ?_⟩
      · rintro ⟨_, _, h⟩; exact h trivial
      · rintro ⟨a, d, hg, _⟩; exact hG hg
      · rintro ⟨a, d, s, hg, _⟩; exact hG hg
      · rintro ⟨a, d, s, hg, _⟩; exact hG hg
      · rintro ⟨a, d, s, hg, _⟩; exact hG hg

/-- C35. Other command lines: a wrong flag gives 1; `--help` and `--version`
give 0; nothing is made, read or written. -/
theorem C35_other (w : World) (sh : Bool) (os : OS) (fs : Files) (argv : List Str)
    (h : ¬ ∃ f, AsksRun argv f) :
    let r := runMain w sh os fs argv
    r.files = fs ∧ r.mkdirs = [] ∧
    ((∃ m, readFlags argv = .error m) ∧ r.exit = some 1 ∨
      (∃ f, readFlags argv = .ok f ∧ (f.help = true ∨ f.version = true)) ∧ r.exit = some 0) := by
  intro r
  have hr : r = runMain w sh os fs argv := rfl
  unfold runMain at hr
  cases hf : readFlags argv with
  | error m =>
    rw [hf] at hr
    rw [hr]
    exact ⟨rfl, rfl, .inl ⟨⟨m, rfl⟩, rfl⟩⟩
  | ok f =>
    rw [hf] at hr
    cases hh : f.help with
    | true =>
      simp only [hh, if_true] at hr
      rw [hr]
      exact ⟨rfl, rfl, .inr ⟨⟨f, rfl, .inl hh⟩, rfl⟩⟩
    | false =>
      cases hv : f.version with
      | true =>
        simp only [hh, hv, Bool.false_eq_true, if_false, runCmd, if_true] at hr
        rw [hr]
        exact ⟨rfl, rfl, .inr ⟨⟨f, rfl, .inr hv⟩, rfl⟩⟩
      | false => exact absurd ⟨f, hf, hh, hv⟩ h

/-- C35. A file changes only if the run got as far as writing: one input file
was asked for, the directory was made, the file was read, its content was
accepted and the output was opened.  Then only the file at the output path
changes. -/
theorem C35_untouched (w : World) (sh : Bool) (os : OS) (fs : Files) (argv : List Str) (i : Nat)
    (hi : (runMain w sh os fs argv).files i ≠ fs i) :
    ∃ f arg data sch, AsksRun argv f ∧ GotInput os fs f arg data ∧ AcceptsBytes w data sch ∧
      os.openErr (outputPath f.output arg) = none ∧ i = os.file (outputPath f.output arg) := by
  by_cases hA : ∃ f, AsksRun argv f
  · obtain ⟨f, h⟩ := hA
    -- by the stages
    have hfail : ∀ (c : Nat), (runMain w sh os fs argv).exit = some c → c = 2 ∨ c = 3 ∨ c = 4 →
        (runMain w sh os fs argv).files = fs := by
      intro c hc h234
      have hrun : runMain w sh os fs argv = runCmd w sh os fs false false f.output f.args := by
        simp only [runMain, h.flags, h.help, h.version]; rfl
      obtain ⟨h2, h3, h4, _⟩ := C35_exit_code w sh os fs argv f h
      rcases h234 with rfl | rfl | rfl
      · have := h2.1 hc
        rw [hrun]
        rcases hargs : f.args with _ | ⟨a, _ | ⟨b, l⟩⟩
        · rfl
        · rw [hargs] at this; simp at this
        · rfl
      · obtain ⟨arg, ha, hm⟩ := h3.1 hc
        rw [hrun, ha]
        cases hme : os.mkdirErr f.output with
        | none => exact absurd hme hm
        | some e => simp only [runCmd, hme]; rfl
      · obtain ⟨arg, ha, hm, hr⟩ := h4.1 hc
        rw [hrun, ha]
        rcases readFile_cases os fs arg with ⟨data, hr1, hr2, _⟩ | ⟨_, e, he⟩
        · rw [hr1, hr2] at hr; simp at hr
        · simp only [runCmd, hm, he]; rfl
    rcases hargs : f.args with _ | ⟨arg, _ | ⟨b, l⟩⟩
    · have := (C35_exit_code w sh os fs argv f h).1.2 (by rw [hargs]; simp)
      rw [hfail 2 this (.inl rfl)] at hi
      exact absurd rfl hi
    · cases hm : os.mkdirErr f.output with
      | some e =>
        have := (C35_exit_code w sh os fs argv f h).2.1.2 ⟨arg, hargs, by simp [hm]⟩
        rw [hfail 3 this (.inr (.inl rfl))] at hi
        exact absurd rfl hi
      | none =>
        rcases readFile_cases os fs arg with ⟨data, hr, hc, hf⟩ | ⟨hr, e, hf⟩
        · have hg : GotInput os fs f arg data := ⟨hargs, hm, hr, hc⟩
          by_cases ha : ∃ sch, AcceptsBytes w data sch
          · obtain ⟨sch, ha⟩ := ha
            obtain ⟨_, _, h7, h10⟩ := run_accepted w sh os fs argv f arg data sch h hg ha
            cases ho : os.openErr (outputPath f.output arg) with
            | some e => rw [(h7 e ho).2.1] at hi; exact absurd rfl hi
            | none =>
              refine ⟨f, arg, data, sch, h, hg, ha, ho, ?_⟩
              rw [(h10 ho).1] at hi
              unfold written at hi
              split at hi
              · assumption
              · exact absurd rfl hi
          · rw [(run_rejected w sh os fs argv f arg data h hg ha).2.1] at hi
            exact absurd rfl hi
        · have := (C35_exit_code w sh os fs argv f h).2.2.1.2 ⟨arg, hargs, hm, hr⟩
          rw [hfail 4 this (.inr (.inr rfl))] at hi
          exact absurd rfl hi
    · have := (C35_exit_code w sh os fs argv f h).1.2 (by rw [hargs]; simp)
      rw [hfail 2 this (.inl rfl)] at hi
      exact absurd rfl hi
  · rw [(C35_other w sh os fs argv hA).1] at hi
    exact absurd rfl hi

/-- C35. If the run fails because of the command line, the directory, the input
file or its content, no file has changed. -/
theorem C35_no_output (w : World) (sh : Bool) (os : OS) (fs : Files) (argv : List Str) (c : Nat)
    (hc : (runMain w sh os fs argv).exit = some c) (h : 2 ≤ c ∧ c ≤ 5) :
    (runMain w sh os fs argv).files = fs := by
  funext i
  apply Classical.byContradiction
  intro hi
  obtain ⟨f, arg, data, sch, hA, hg, ha, ho, _⟩ := C35_untouched w sh os fs argv i hi
  obtain ⟨_, _, _, h10⟩ := run_accepted w sh os fs argv f arg data sch hA hg ha
  obtain ⟨_, h1, h0⟩ := h10 ho
  cases hcl : os.closeErr (outputPath f.output arg) with
  | some e => rw [(h1 e hcl).1] at hc; cases hc; omega
  | none => rw [(h0 hcl).1] at hc; cases hc; omega

/-- C35. Every run exits, with a code other than 6. -/
theorem C35_exits (w : World) (sh : Bool) (os : OS) (fs : Files) (argv : List Str) :
    ∃ c, (runMain w sh os fs argv).exit = some c ∧ c ≤ 7 ∧ c ≠ 6 := by
  by_cases hA : ∃ f, AsksRun argv f
  · obtain ⟨f, h⟩ := hA
    obtain ⟨h2, h3, h4, h5, h7, h1, h0⟩ := C35_exit_code w sh os fs argv f h
    rcases hargs : f.args with _ | ⟨arg, _ | ⟨b, l⟩⟩
    · exact ⟨2, h2.2 (by rw [hargs]; simp), by omega, by omega⟩
    · cases hm : os.mkdirErr f.output with
      | some e => exact ⟨3, h3.2 ⟨arg, hargs, by simp [hm]⟩, by omega, by omega⟩
      | none =>
        rcases readFile_cases os fs arg with ⟨data, hr, hc, hf⟩ | ⟨hr, e, hf⟩
        · have hg : GotInput os fs f arg data := ⟨hargs, hm, hr, hc⟩
          by_cases ha : ∃ sch, AcceptsBytes w data sch
          · obtain ⟨sch, ha⟩ := ha
            by_cases ho : os.openErr (outputPath f.output arg) = none
            · by_cases hcl : os.closeErr (outputPath f.output arg) = none
              · exact ⟨0, h0.2 ⟨arg, data, sch, hg, ha, ho, hcl⟩, by omega, by omega⟩
              · exact ⟨1, h1.2 ⟨arg, data, sch, hg, ha, ho, hcl⟩, by omega, by omega⟩
            · exact ⟨7, h7.2 ⟨arg, data, sch, hg, ha, ho⟩, by omega, by omega⟩
          · exact ⟨5, h5.2 ⟨arg, data, hg, ha⟩, by omega, by omega⟩
        · exact ⟨4, h4.2 ⟨arg, hargs, hm, hr⟩, by omega, by omega⟩
    · exact ⟨2, h2.2 (by rw [hargs]; simp), by omega, by omega⟩
  · obtain ⟨_, _, ⟨_, h⟩ | ⟨_, h⟩⟩ := C35_other w sh os fs argv hA
    · exact ⟨1, h, by omega, by omega⟩
    · exact ⟨0, h, by omega, by omega⟩

/-! ## C36, C37: the output file -/

/-- C36 (part). After a successful run in which the write had no error, the
output file is the JSON, followed by what was in the file beyond that length;
it is exactly the JSON if and only if the file was not longer.  All other
files are as before. -/
theorem C36_output_partial (w : World) (sh : Bool) (os : OS) (fs : Files) (argv : List Str) (f : Flags)
    (arg : Str) (data : List UInt8) (sch : Schema) (h : AsksRun argv f)
    (hi : GotInput os fs f arg data) (ha : AcceptsBytes w data sch) (p : Str)
    (hp : p = outputPath f.output arg) (json : List UInt8) (hj : json = encode (sch.toJSON sh))
    (ho : os.openErr p = none) (hw : (os.write p json).2 = none) (hc : os.closeErr p = none) :
    let r := runMain w sh os fs argv
    r.exit = some 0 ∧
    r.files (os.file p) = some (json ++ ((fs (os.file p)).getD []).drop json.length) ∧
    (r.files (os.file p) = some json ↔ ((fs (os.file p)).getD []).length ≤ json.length) ∧
    (∀ i, i ≠ os.file p → r.files i = fs i) := by
  subst hp hj
  obtain ⟨_, _, _, h10⟩ := run_accepted w sh os fs argv f arg data sch h hi ha
  obtain ⟨hfs, _, h0⟩ := h10 ho
  have hl := os.write_ok _ _ hw
  intro r
  have e1 : r.files (os.file (outputPath f.output arg)) =
      some (encode (sch.toJSON sh) ++ ((fs (os.file (outputPath f.output arg))).getD []).drop
        (encode (sch.toJSON sh)).length) := by
    rw [hfs]
    simp only [written, if_true, hl, List.take_length]
  refine ⟨(h0 hc).1, e1, ?_, ?_⟩
  · rw [e1]
    constructor
    · intro h
      have := congrArg (Option.map List.length) h
      simp at this
      omega
    · intro h
      rw [List.drop_eq_nil_of_le h, List.append_nil]
  · intro i hi
    rw [hfs]
    simp only [written, if_neg hi]

/-- C36 is false of the code: whenever the file was longer than the JSON, the
run reports success and the file is not the JSON, without any failing system
call. -/
theorem C36_violated (w : World) (sh : Bool) (os : OS) (fs : Files) (argv : List Str) (f : Flags)
    (arg : Str) (data old : List UInt8) (sch : Schema) (h : AsksRun argv f)
    (hi : GotInput os fs f arg data) (ha : AcceptsBytes w data sch) (p : Str)
    (hp : p = outputPath f.output arg) (json : List UInt8) (hj : json = encode (sch.toJSON sh))
    (ho : os.openErr p = none) (hw : (os.write p json).2 = none) (hc : os.closeErr p = none)
    (hold : fs (os.file p) = some old) (hlong : json.length < old.length) :
    let r := runMain w sh os fs argv
    r.exit = some 0 ∧ r.out = ["Successfully parsed ".toList ++ arg ++ " to ".toList ++ p] ∧
      r.files (os.file p) ≠ some json := by
  obtain ⟨_, _, _, h10⟩ := run_accepted w sh os fs argv f arg data sch h hi ha
  obtain ⟨_, _, h0⟩ := h10 (hp ▸ ho)
  obtain ⟨_, _, hiff, _⟩ := C36_output_partial w sh os fs argv f arg data sch h hi ha p hp json hj ho hw hc
  refine ⟨(h0 (hp ▸ hc)).1, by rw [hp]; exact (h0 (hp ▸ hc)).2, ?_⟩
  intro he
  have := hiff.1 he
  rw [hold] at this
  simp at this
  omega

/-- C37 (part). If opening the output fails, the exit code is 7; if closing it
fails, the exit code is 1.  In both cases only the error is printed. -/
theorem C37_open_close_partial (w : World) (sh : Bool) (os : OS) (fs : Files) (argv : List Str) (f : Flags)
    (arg : Str) (data : List UInt8) (sch : Schema) (h : AsksRun argv f)
    (hi : GotInput os fs f arg data) (ha : AcceptsBytes w data sch) (e : Str) :
    let r := runMain w sh os fs argv
    let p := outputPath f.output arg
    (os.openErr p = some e → r.exit = some 7 ∧ r.out = [e] ∧ r.files = fs) ∧
    (os.openErr p = none → os.closeErr p = some e → r.exit = some 1 ∧ r.out = [e]) := by
  obtain ⟨_, _, h7, h10⟩ := run_accepted w sh os fs argv f arg data sch h hi ha
  exact ⟨fun ho => ⟨(h7 e ho).1, (h7 e ho).2.2, (h7 e ho).2.1⟩, fun ho hc => ((h10 ho).2.1 e hc)⟩

/-- C37 is false of the code: whenever the file can be opened and closed but
writing to it fails, the run exits with 0 and prints the success line, and the
file holds only the bytes that were written, followed by old content. -/
theorem C37_violated (w : World) (sh : Bool) (os : OS) (fs : Files) (argv : List Str) (f : Flags)
    (arg : Str) (data : List UInt8) (sch : Schema) (h : AsksRun argv f)
    (hi : GotInput os fs f arg data) (ha : AcceptsBytes w data sch) (p : Str)
    (hp : p = outputPath f.output arg) (json : List UInt8) (hj : json = encode (sch.toJSON sh))
    (ho : os.openErr p = none) (hc : os.closeErr p = none) (e : Str) (n : Nat)
    (hw : os.write p json = (n, some e)) :
    let r := runMain w sh os fs argv
    r.exit = some 0 ∧ r.out = ["Successfully parsed ".toList ++ arg ++ " to ".toList ++ p] ∧
      r.files (os.file p) = some (json.take n ++ ((fs (os.file p)).getD []).drop n) := by
  subst hp hj
  obtain ⟨_, _, _, h10⟩ := run_accepted w sh os fs argv f arg data sch h hi ha
  obtain ⟨hfs, _, h0⟩ := h10 ho
  refine ⟨(h0 hc).1, (h0 hc).2, ?_⟩
  rw [hfs]
  simp only [written, if_true, hw]

/-! ## C38: the output path -/

/-- C38. For every argument with a last element, the output path leads to the
file `<stem>.json` directly in the directory that the output directory leads
to, from every working directory.  If there are symbolic links, this is so for
output directories without `..`. -/
theorem C38_output_path (D : Dirs) (cwd : D.Node) (dir arg base stem : Str)
    (hb : LastElem arg base) (hs : StemOf base stem) (hD : D.Plain ∨ NoDotDot dir) :
    D.resolve cwd (outputPath dir arg) = D.step (D.resolve cwd dir) (stem ++ ".json".toList) ∧
    '/' ∉ stem ++ ".json".toList := by
  have hns : '/' ∉ stem := by
    intro h
    apply hb.no_slash
    rcases hs with ⟨e, _, rfl⟩ | ⟨_, rfl⟩
    · simp [h]
    · exact h
  have hname : '/' ∉ stem ++ ".json".toList := by
    have : '/' ∉ ".json".toList := by decide
    simp only [List.mem_append, not_or]
    exact ⟨hns, this⟩
  refine ⟨?_, hname⟩
  have hne : stem ++ ".json".toList ≠ [] := by
    have : ".json".toList ≠ [] := by decide
    simp [this]
  have hlen : 5 ≤ (stem ++ ".json".toList).length := by
    have : ".json".toList.length = 5 := by decide
    simp only [List.length_append, this]; omega
  have hout : outputPath dir arg = pathJoin dir (stem ++ ".json".toList) := by
    unfold outputPath
    simp only [pathBase_eq hb, stem_eq hb.no_slash hs]
  rw [hout, resolve_join D cwd dir _ hne]
  · rw [splitSlash_noslash hname]
    simp only [List.foldl_cons, List.foldl_nil]
    refine D.elem_kept _ ⟨hname, hne, ?_⟩
    intro h; rw [h] at hlen; simp at hlen
  · left
    intro h
    exact hname (List.mem_of_head? h)
  · rcases hD with h | h
    · exact .inl h
    · right
      rw [splitSlash_noslash hname]
      intro e he
      rcases List.mem_append.1 he with he | he
      · exact noDotDot_elems h e he
      · have : e = stem ++ ".json".toList := by simpa using he
        subst this
        intro h; rw [h] at hlen; simp at hlen

/-- C38. Every argument that names something other than the root directory or
nothing has a last element with a stem, so that the previous theorem applies,
and there is only one of each. -/
theorem C38_every_argument (arg : Str) (h : ∃ c ∈ arg, c ≠ '/') :
    (∃ base stem, LastElem arg base ∧ StemOf base stem) ∧
    (∀ b b', LastElem arg b → LastElem arg b' → b = b') ∧
    (∀ b s s', '/' ∉ b → StemOf b s → StemOf b s' → s = s') := by
  refine ⟨?_, ?_, ?_⟩
  · obtain ⟨base, hb⟩ := exists_lastElem h
    obtain ⟨stem, hs⟩ := exists_stem base
    exact ⟨base, stem, hb, hs⟩
  · intro b b' hb hb'
    rw [← pathBase_eq hb, pathBase_eq hb']
  · intro b s s' hb hs hs'
    rw [← stem_eq hb hs, stem_eq hb hs']

/-- C38. The remaining arguments, which name a directory: `.json` in the output
directory. -/
theorem C38_no_element (D : Dirs) (cwd : D.Node) (dir arg : Str) (h : ∀ c ∈ arg, c = '/')
    (hdir : dir ≠ []) (hD : D.Plain ∨ NoDotDot dir) :
    D.resolve cwd (outputPath dir arg) = D.step (D.resolve cwd dir) ".json".toList := by
  have hb : outputPath dir arg = pathJoin dir ".json".toList ∨
      outputPath dir arg = pathJoin dir ('/' :: ".json".toList) := by
    cases arg with
    | nil => left; rfl
    | cons c s =>
      right
      have : pathBase (c :: s) = ['/'] := by
        unfold pathBase
        rw [if_neg (by simp)]
        have hd : (c :: s).reverse.dropWhile (fun x => decide (x = '/')) = [] := by
          have hrep : (c :: s).reverse = List.replicate (c :: s).reverse.length '/' :=
            List.eq_replicate_of_mem fun d hd => h d (List.mem_reverse.1 hd)
          rw [hrep]
          have := dropWhile_slashes (c :: s).reverse.length [] (by simp)
          simpa using this
        rw [hd]
        rfl
      unfold outputPath
      rw [this]
      rfl
  have hj : splitSlash ".json".toList = [".json".toList] := by decide
  have hk : ∀ n, D.elem n ".json".toList = D.step n ".json".toList := fun n => by
    rw [Dirs.elem, if_neg (by decide)]
  have hn : plainElems [".json".toList] := by
    intro e he
    have : e = ".json".toList := by simpa using he
    subst this
    decide
  rcases hb with hb | hb <;> rw [hb, resolve_join D cwd dir _ (by decide) (.inr hdir)]
  · rw [hj]; simp only [List.foldl_cons, List.foldl_nil]; exact hk _
  · rcases hD with h | h
    · exact .inl h
    · right
      rw [hj]
      intro e he
      rcases List.mem_append.1 he with he | he
      · exact noDotDot_elems h e he
      · exact hn e he
  · rw [splitSlash_slash, hj]
    simp only [List.foldl_cons, List.foldl_nil]
    rw [show ∀ n, D.elem n [] = n from fun n => by simp [Dirs.elem]]
    exact hk _
  · rcases hD with h | h
    · exact .inl h
    · right
      rw [splitSlash_slash, hj]
      intro e he
      rcases List.mem_append.1 he with he | he
      · exact noDotDot_elems h e he
      · rcases List.mem_cons.1 he with rfl | he
        · simp
        · exact hn e he

/-! ## C39: the trace flag -/

/-- Whatever the command line, if `ParseKF` is called it is called in the
default mode (1), and it prints nothing. -/
theorem run_untraced (w : World) (sh : Bool) (os : OS) (fs : Files) (argv : List Str) :
    ((runMain w sh os fs argv).mode = none ∨ (runMain w sh os fs argv).mode = some 1) ∧
    (runMain w sh os fs argv).parsePrinted = [] := by
  have hq : ∀ data, (parseKFBytes w data none modeDefault).printed = [] := fun data =>
    C24_quiet w (decode data) none 1 rfl
  unfold runMain
  cases readFlags argv with
  | error m => exact ⟨.inl rfl, rfl⟩
  | ok f =>
    simp only
    split
    · exact ⟨.inl rfl, rfl⟩
    unfold runCmd
    split
    · exact ⟨.inl rfl, rfl⟩
    split
    · split
      · exact ⟨.inl rfl, rfl⟩
      · split
        · exact ⟨.inl rfl, rfl⟩
        · simp only [Bool.false_eq_true, if_false]
          split
          · exact ⟨.inr rfl, hq _⟩
          · split <;> exact ⟨.inr rfl, hq _⟩
    · exact ⟨.inl rfl, rfl⟩

/-- C39 is false of the code: on every command line that gives the trace flag
and an input file that is read, a trace of the file would have lines, and none
is printed: the file is parsed in the default mode. -/
theorem C39_violated (w : World) (sh : Bool) (os : OS) (fs : Files) (argv : List Str) (f : Flags)
    (arg : Str) (data : List UInt8) (h : AsksRun argv f) (_ht : f.trace = true)
    (hi : GotInput os fs f arg data) :
    let r := runMain w sh os fs argv
    (parseKFBytes w data none 2).printed ≠ [] ∧ r.parsePrinted = [] ∧ r.mode = some 1 := by
  intro r
  refine ⟨?_, (run_untraced w sh os fs argv).2, ?_⟩
  · obtain ⟨h₁, h₂⟩ := C51_trace w (decode data) none 2 (by decide)
    by_cases hw : ∃ p, Writes (decode data) p
    · obtain ⟨p, hp⟩ := hw
      rw [show parseKFBytes w data none 2 = parseKF w (decode data) none 2 from rfl, h₁ p hp rfl]
      simp
    · rw [show parseKFBytes w data none 2 = parseKF w (decode data) none 2 from rfl, h₂ (.inl hw)]
      simp
  · by_cases ha : ∃ sch, AcceptsBytes w data sch
    · obtain ⟨sch, ha⟩ := ha
      exact (run_accepted w sh os fs argv f arg data sch h hi ha).1
    · exact (run_rejected w sh os fs argv f arg data h hi ha).2.2.2.1

/-- C39 (part). The flag is accepted in its spellings, and it changes nothing:
command lines that differ only in it do the same. -/
theorem C39_trace_partial (w : World) (sh : Bool) (os : OS) (fs : Files) (argv argv' : List Str)
    (f f' : Flags) (h : readFlags argv = .ok f) (h' : readFlags argv' = .ok f')
    (hf : { f with trace := false } = { f' with trace := false }) :
    runMain w sh os fs argv = runMain w sh os fs argv' := by
  unfold runMain
  rw [h, h']
  have h1 := congrArg Flags.help hf
  have h2 := congrArg Flags.version hf
  have h3 := congrArg Flags.output hf
  have h4 := congrArg Flags.args hf
  simp only at h1 h2 h3 h4
  simp only [h1, h2, h3, h4]

/-! ## Concrete cases -/

namespace Sample

/-- An operating system without errors; names stand for files by their length. -/
def os : OS where
  file := List.length
  mkdirErr _ := none
  readErr _ := none
  openErr _ := none
  write _ d := (d.length, none)
  closeErr _ := none
  write_le _ _ := Nat.le_refl _
  write_ok _ _ _ := rfl

/-- One on which nothing can be written. -/
def fullOs : OS := { os with
  write := fun _ _ => (0, some "no space left on device".toList)
  write_le := fun _ _ => Nat.zero_le _
  write_ok := fun _ _ h => by cases h }

/-- The sample text is in the file that the name `in.kf` stands for, and the
file for the output path is long. -/
def files (old : Nat) : Files := fun i =>
  if i = 5 then some (encode text) else if i = 13 then some (List.replicate old 65) else none

theorem argv_flags : readFlags ["--trace".toList, "in.kf".toList] =
    .ok { trace := true, args := ["in.kf".toList] } := by decide

theorem asks : AsksRun ["--trace".toList, "in.kf".toList] { trace := true, args := ["in.kf".toList] } :=
  ⟨argv_flags, rfl, rfl⟩

theorem out_path : outputPath "./build".toList "in.kf".toList = "build/in.json".toList := by
  decide +kernel

theorem got (old : Nat) : GotInput os (files old) { trace := true, args := ["in.kf".toList] }
    "in.kf".toList (encode text) := ⟨rfl, rfl, rfl, rfl⟩

theorem accepts_bytes : AcceptsBytes world (encode text) prog.denote :=
  ⟨text, decodes_encode text, accepts⟩

/-- C35, C36: a run that succeeds on a new output file. -/
example : (runMain world false os (files 0) ["--trace".toList, "in.kf".toList]).exit = some 0 :=
  (C36_output_partial world false os (files 0) _ _ _ _ _ asks (got 0) accepts_bytes _ rfl _ rfl
    rfl rfl rfl).1

/-- C36: one that leaves a wrong file. -/
example (json : List UInt8) (hj : json = encode (prog.denote.toJSON false)) :
    (runMain world false os (files (json.length + 1)) ["--trace".toList, "in.kf".toList]).exit = some 0 ∧
    (runMain world false os (files (json.length + 1)) ["--trace".toList, "in.kf".toList]).files
      (os.file "build/in.json".toList) ≠ some json := by
  have h13 : files (json.length + 1) (os.file "build/in.json".toList) =
      some (List.replicate (json.length + 1) 65) := by
    have h : os.file "build/in.json".toList = 13 := by decide
    rw [h]
    simp [files]
  have := C36_violated world false os _ _ _ _ _ _ _ asks (got (json.length + 1)) accepts_bytes
    "build/in.json".toList out_path.symm json hj rfl rfl rfl h13 (by rw [List.length_replicate]; omega)
  exact ⟨this.1, this.2.2⟩

/-- C37: a failed write that is reported as success. -/
example : (runMain world false fullOs (files 0) ["--trace".toList, "in.kf".toList]).exit = some 0 ∧
    (fullOs.write "build/in.json".toList (encode (prog.denote.toJSON false))).2 ≠ none :=
  ⟨(C37_violated world false fullOs (files 0) _ _ _ _ _ asks ⟨rfl, rfl, rfl, rfl⟩ accepts_bytes _ rfl _ rfl
    rfl rfl _ _ rfl).1, by decide⟩

/-- C35: an input that is rejected. -/
example : (runMain world false os (fun _ => some []) ["in.kf".toList]).exit = some 5 := by
  refine (C35_exit_code world false os _ _ { args := ["in.kf".toList] } ⟨by decide, rfl, rfl⟩).2.2.2.1.2
    ⟨_, [], ⟨rfl, rfl, rfl, rfl⟩, ?_⟩
  rintro ⟨sch, s, hd, ha⟩
  have : s = [] := by
    have := (C47_decoding [] s).1 hd
    rw [← this]; rfl
  subst this
  have hw : ¬ ∃ p, Writes [] p := syntaxTree_none.1 (by decide +kernel)
  have := ha.1
  rw [parse, parseKF_bad hw] at this
  simp [Outcome.err, ErrorList.isErr] at this

/-- C38: names as they are written on command lines. -/
example : outputPath "./build".toList "../a/b.c/my.schema.kf".toList = "build/my.schema.json".toList ∧
    outputPath "/tmp//x/../y/".toList "..".toList = "/tmp/y/..json".toList ∧
    outputPath "".toList "noext".toList = "noext.json".toList ∧
    outputPath "../..".toList ".kf".toList = "../../.json".toList := by decide +kernel

example : LastElem "../a/b.c/my.schema.kf".toList "my.schema.kf".toList ∧
    StemOf "my.schema.kf".toList "my.schema".toList ∧ NoDotDot "./build".toList := by
  refine ⟨⟨by decide, by decide, "../a/b.c/".toList, 0, by decide, .inr ⟨"../a/b.c".toList, by decide⟩⟩,
    .inl ⟨"kf".toList, by decide, by decide⟩, ?_⟩
  intro a b h _ _
  have h : "./build".toList = a ++ ['.', '.'] ++ b := h
  have hlen := congrArg (fun l => l.countP (· = '.')) h
  simp at hlen
  omega

/-- C39: a command line as in C39_violated. -/
example : AsksRun ["-t".toList, "a.kf".toList] { trace := true, args := ["a.kf".toList] } :=
  ⟨by decide, rfl, rfl⟩

/-- C39: spellings of the flag. -/
example : readFlags ["-t".toList, "f".toList] = .ok { trace := true, args := ["f".toList] } ∧
    readFlags ["f".toList, "--trace=1".toList] = .ok { trace := true, args := ["f".toList] } ∧
    readFlags ["-tofoo".toList, "f".toList] =
      .ok { trace := true, output := "foo".toList, args := ["f".toList] } := by decide

end Sample

end Verif
