import Verif.Props.Cli
/-!
# C56: the input file
-/

namespace Verif

/-- Cleaning keeps a last element that is a proper name. -/
theorem clean_last (p e : Str) (he : '/' ∉ e) (h0 : e ≠ []) (h1 : e ≠ ['.']) (h2 : e ≠ ['.', '.'])
    (l : List Str) (hp : splitSlash p = l ++ [e]) : LastElem (pathClean p) e := by
  have hpne : p ≠ [] := by
    rintro rfl
    have : ([[]] : List Str) = l ++ [e] := hp
    cases l with
    | nil => simp at this; exact h0 this
    | cons a l => simp at this
  have step : ∀ r st, cleanStep r st e = e :: st := by
    intro r st
    unfold cleanStep
    rw [if_neg (by simp [h0, h1]), if_neg h2]
  refine ⟨he, h0, ?_⟩
  unfold pathClean
  rw [if_neg hpne, hp]
  simp only [List.foldl_append, List.foldl_cons, List.foldl_nil, step, List.reverse_cons]
  have hb : ∀ (m : List Str) (e : Str), ∃ a, joinSlash (m ++ [e]) = a ++ e ∧ (a = [] ∨ ∃ a', a = a' ++ ['/']) := by
    intro m e
    induction m with
    | nil => exact ⟨[], rfl, .inl rfl⟩
    | cons x m ih =>
      obtain ⟨a, h, h'⟩ := ih
      refine ⟨x ++ '/' :: a, ?_, ?_⟩
      · have : joinSlash (x :: m ++ [e]) = x ++ '/' :: joinSlash (m ++ [e]) := by cases m <;> rfl
        rw [this, h]; simp
      · right
        rcases h' with rfl | ⟨a', rfl⟩
        · exact ⟨x, rfl⟩
        · exact ⟨x ++ '/' :: a', by simp⟩
  obtain ⟨a, h, h'⟩ := hb (List.foldl (cleanStep (decide (p.head? = some '/'))) [] l).reverse e
  split
  · refine ⟨'/' :: a, 0, by rw [h]; simp, ?_⟩
    right
    rcases h' with rfl | ⟨a', rfl⟩
    · exact ⟨[], rfl⟩
    · exact ⟨'/' :: a', by simp⟩
  · rw [if_neg (by simp)]
    exact ⟨a, 0, by rw [h]; simp, h'⟩

/-- The last element of the output path. -/
theorem output_last (dir arg base stem : Str) (hb : LastElem arg base) (hs : StemOf base stem) :
    LastElem (outputPath dir arg) (stem ++ ".json".toList) := by
  have hj : ".json".toList = ['.', 'j', 's', 'o', 'n'] := rfl
  have hns : '/' ∉ stem := by
    intro h
    apply hb.no_slash
    rcases hs with ⟨e, _, rfl⟩ | ⟨_, rfl⟩
    · simp [h]
    · exact h
  have hn : '/' ∉ stem ++ ".json".toList := by rw [hj]; simp [hns]
  have hlen : (stem ++ ".json".toList).length ≥ 5 := by rw [hj]; simp
  have ne : ∀ x : Str, x.length < 5 → stem ++ ".json".toList ≠ x := by
    intro x hx h; rw [h] at hlen; omega
  unfold outputPath
  simp only
  rw [pathBase_eq hb, stem_eq hb.no_slash hs]
  unfold pathJoin
  have key : ∀ l p, splitSlash p = l ++ [stem ++ ".json".toList] → LastElem (pathClean p) (stem ++ ".json".toList) :=
    fun l p => clean_last p _ hn (ne _ (by decide)) (ne _ (by decide)) (ne _ (by decide)) l
  split
  · refine key (splitSlash dir) _ ?_
    rw [show joinSlash [dir, stem ++ ".json".toList] = dir ++ '/' :: (stem ++ ".json".toList) from rfl,
      splitSlash_append, splitSlash_noslash hn]
  · rw [if_pos (ne [] (by decide))]
    exact key [] _ (splitSlash_noslash hn)

/-- C56, what holds: a run changes no file but the one that the output path
stands for; in particular not its input, if names that end in different elements
stand for different files and the input file is not called `….json`. -/
theorem C56_input_kept_partial (w : World) (sh : Bool) (os : OS) (fs : Files) (argv : List Str) (f : Flags)
    (arg base : Str) (h : AsksRun argv f) (ha : f.args = [arg]) (hb : LastElem arg base)
    (hj : ∀ stem, base ≠ stem ++ ".json".toList)
    (hos : ∀ p q b c, LastElem p b → LastElem q c → os.file p = os.file q → b = c) :
    (runMain w sh os fs argv).files (os.file arg) = fs (os.file arg) := by
  apply Classical.byContradiction
  intro hi
  obtain ⟨f', arg', data, sch, h', hg, _, _, hfile⟩ := C35_untouched w sh os fs argv _ hi
  have : f' = f := by
    have := h'.flags.symm.trans h.flags
    injection this
  subst this
  have : arg' = arg := by
    have := hg.only.symm.trans ha
    simpa using this
  subst this
  obtain ⟨stem, hs⟩ := exists_stem base
  exact hj stem (hos _ _ _ _ hb (output_last f'.output arg' base stem hb hs) hfile)

/-- C56 is false of the code: an input file called `….json` whose directory is
the output directory is overwritten, and the run reports success. -/
theorem C56_violated (w : World) (sh : Bool) (os : OS) (fs : Files) (argv : List Str) (f : Flags)
    (stem arg : Str) (data : List UInt8) (sch : Schema) (h : AsksRun argv f) (hf : f.output = ".".toList)
    (hs : '/' ∉ stem) (harg : arg = stem ++ ".json".toList)
    (hi : GotInput os fs f arg data) (ha : AcceptsBytes w data sch) (json : List UInt8)
    (hj : json = encode (sch.toJSON sh)) (ho : os.openErr arg = none)
    (hw : (os.write arg json).2 = none) (hc : os.closeErr arg = none) :
    let r := runMain w sh os fs argv
    r.exit = some 0 ∧ r.files (os.file arg) = some (json ++ data.drop json.length) := by
  have hjs : ".json".toList = ['.', 'j', 's', 'o', 'n'] := rfl
  have hn : '/' ∉ arg := by rw [harg, hjs]; simp [hs]
  have hne : arg ≠ [] := by rw [harg, hjs]; simp
  have hb : LastElem arg arg := ⟨hn, hne, [], 0, by simp, .inl rfl⟩
  have hst : StemOf arg stem := .inl ⟨"json".toList, by decide, by rw [harg]; rfl⟩
  have hp : outputPath f.output arg = arg := by
    unfold outputPath
    simp only
    rw [pathBase_eq hb, stem_eq hb.no_slash hst, hf, ← harg]
    unfold pathJoin
    rw [if_pos (by decide)]
    unfold pathClean
    rw [if_neg (by simp [joinSlash])]
    rw [show splitSlash (joinSlash [".".toList, arg]) = [".".toList, arg] by
      rw [show joinSlash [".".toList, arg] = ".".toList ++ '/' :: arg from rfl,
        splitSlash_append, splitSlash_noslash hn]; rfl]
    have h1 : arg ≠ ['.'] := by
      intro h; have := congrArg List.length h; rw [harg, hjs] at this; simp at this
    have h2 : arg ≠ ['.', '.'] := by
      intro h; have := congrArg List.length h; rw [harg, hjs] at this; simp at this
    have : ∀ r, List.foldl (cleanStep r) [] [".".toList, arg] = [arg] := by
      intro r
      simp only [List.foldl_cons, List.foldl_nil]
      rw [show cleanStep r [] ".".toList = [] from rfl]
      unfold cleanStep
      rw [if_neg (by simp [hne, h1]), if_neg h2]
    simp only [this]
    simp [joinSlash]
  obtain ⟨h1, h2, _⟩ := C36_output_partial w sh os fs argv f arg data sch h hi ha arg hp.symm json hj ho hw hc
  exact ⟨h1, by rw [h2, hi.content]; rfl⟩

namespace Sample

/-- C56: `kuneiform -o . in.json`, where `in.json` holds the sample text. -/
example : ∃ json, json ≠ [] ∧
    (runMain world false os (fun _ => some (encode text)) ["-o".toList, ".".toList, "in.json".toList]).files
      (os.file "in.json".toList) = some (json ++ (encode text).drop json.length) :=
  ⟨encode (prog.denote.toJSON false), by decide +kernel,
    (C56_violated world false os (fun _ => some (encode text)) _
      { output := ".".toList, args := ["in.json".toList] } "in".toList "in.json".toList (encode text)
      prog.denote ⟨by decide, rfl, rfl⟩ rfl (by decide) rfl ⟨rfl, rfl, rfl, rfl⟩ accepts_bytes _ rfl
      rfl rfl rfl).2⟩

/-- C56: a file system in which files are told apart by the last element of
their names. -/
def osByName (code : Str → Nat) : OS := { os with file := fun p => code (pathBase p) }

/-- For every one-to-one numbering of names the sample run keeps its input. -/
example (code : Str → Nat) (hcode : ∀ a b, code a = code b → a = b) (fs : Files) :
    (runMain world false (osByName code) fs ["--trace".toList, "in.kf".toList]).files
      ((osByName code).file "in.kf".toList) = fs ((osByName code).file "in.kf".toList) := by
  refine C56_input_kept_partial world false (osByName code) fs _ _ _ "in.kf".toList asks rfl
    ⟨by decide, by decide, [], 0, by decide, .inl rfl⟩ ?_ ?_
  · intro stem h
    have := congrArg List.getLast? h
    simp only [show ".json".toList = ['.', 'j', 's', 'o', 'n'] from rfl,
      show "in.kf".toList = ['i', 'n', '.', 'k', 'f'] from rfl] at this
    simp at this
  · intro p q b c hp hq h
    have := hcode _ _ h
    rwa [pathBase_eq hp, pathBase_eq hq] at this

end Sample

end Verif
