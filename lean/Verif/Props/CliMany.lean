import Verif.Model.Runs
import Verif.Props.Cli
/-!
# C74: several files, one output directory
-/

namespace Verif

/-- A call of the command on a file with an acceptable content. -/
structure Job where
  argv : List Str
  flags : Flags
  arg : Str
  data : List UInt8
  schema : Schema

/-- Where the output goes. -/
def Job.out (j : Job) : Str := outputPath j.flags.output j.arg

/-- What should be there. -/
def Job.json (sh : Bool) (j : Job) : List UInt8 := encode (j.schema.toJSON sh)

/-- Nothing stands in the way of the call by itself: the file can be read and
is accepted, no system call fails, and the output file is not there or holds
not more than the new output. -/
structure Job.Ready (w : World) (sh : Bool) (os : OS) (fs : Files) (j : Job) : Prop where
  asks : AsksRun j.argv j.flags
  input : GotInput os fs j.flags j.arg j.data
  accepted : AcceptsBytes w j.data j.schema
  opens : os.openErr j.out = none
  writes : (os.write j.out (j.json sh)).2 = none
  closes : os.closeErr j.out = none
  short : ((fs (os.file j.out)).getD []).length ≤ (j.json sh).length

theorem Job.Ready.ran {w : World} {sh : Bool} {os : OS} {fs : Files} {j : Job} (h : j.Ready w sh os fs) :
    (runMain w sh os fs j.argv).exit = some 0 ∧
    (runMain w sh os fs j.argv).files (os.file j.out) = some (j.json sh) ∧
    ∀ i, i ≠ os.file j.out → (runMain w sh os fs j.argv).files i = fs i := by
  obtain ⟨h1, h2, h3, h4⟩ := C36_output_partial w sh os fs j.argv j.flags j.arg j.data j.schema h.asks h.input
    h.accepted j.out rfl (j.json sh) rfl h.opens h.writes h.closes
  exact ⟨h1, h3.2 h.short, h4⟩

/-- C74, as far as it holds. If the output files are different files and none
of them is an input, then any number of calls, each of which could be run by
itself, succeed in a row, and at the end the JSON of every input is in its
output file; all other files are as before.

Missing: calls with the same output file, see `C74_violated`. -/
theorem C74_all_partial (w : World) (sh : Bool) (os : OS) (fs : Files) (jobs : List Job)
    (hr : ∀ j ∈ jobs, j.Ready w sh os fs)
    (hd : (jobs.map fun j => os.file j.out).Nodup)
    (hi : ∀ j ∈ jobs, ∀ k ∈ jobs, os.file j.out ≠ os.file k.arg) :
    let q := runSeq w sh os fs (jobs.map (·.argv))
    (∀ c ∈ q.2, c = some 0) ∧
    (∀ j ∈ jobs, q.1 (os.file j.out) = some (j.json sh)) ∧
    (∀ i, (∀ j ∈ jobs, i ≠ os.file j.out) → q.1 i = fs i) := by
  induction jobs generalizing fs with
  | nil => exact ⟨by simp [runSeq], by simp, fun _ _ => rfl⟩
  | cons j jobs ih =>
    obtain ⟨h0, h1, h2⟩ := (hr j (by simp)).ran
    simp only [List.map_cons, List.nodup_cons, List.mem_map, not_exists, not_and] at hd
    have hr' : ∀ k ∈ jobs, k.Ready w sh os (runMain w sh os fs j.argv).files := by
      intro k hk
      obtain ⟨a, b, c, d, e, f, g⟩ := hr k (List.mem_cons_of_mem _ hk)
      refine ⟨a, ⟨b.only, b.mkdir, b.read, ?_⟩, c, d, e, f, ?_⟩
      · rw [h2 _ (hi j (by simp) k (List.mem_cons_of_mem _ hk)).symm]; exact b.content
      · rw [h2 _ (hd.1 k hk)]; exact g
    obtain ⟨i0, i1, i2⟩ := ih (runMain w sh os fs j.argv).files hr' hd.2
      (fun a ha b hb => hi a (List.mem_cons_of_mem _ ha) b (List.mem_cons_of_mem _ hb))
    simp only [List.map_cons, runSeq]
    refine ⟨?_, ?_, ?_⟩
    · intro c hc
      rcases List.mem_cons.1 hc with rfl | hc
      · exact h0
      · exact i0 c hc
    · intro k hk
      rcases List.mem_cons.1 hk with rfl | hk
      · rw [i2 _ fun m hm e => hd.1 m hm e.symm]; exact h1
      · exact i1 k hk
    · intro i hne
      rw [i2 i fun m hm => hne m (List.mem_cons_of_mem _ hm), h2 i (hne j (by simp))]

/-- The output path depends on the output directory and the stem of the file
name only. -/
theorem C74_same_stem (dir arg arg' base base' stem : Str) (hb : LastElem arg base)
    (hb' : LastElem arg' base') (hs : StemOf base stem) (hs' : StemOf base' stem) :
    outputPath dir arg = outputPath dir arg' := by
  unfold outputPath
  simp only [pathBase_eq hb, pathBase_eq hb', stem_eq hb.no_slash hs, stem_eq hb'.no_slash hs']

/-- C74 is false of the code: files whose names differ only in the directory or
the extension have the same output file.  Two calls in a row exit with 0, and
what is left is not the JSON of the first (unless the second begins it). -/
theorem C74_violated (w : World) (sh : Bool) (os : OS) (fs : Files) (j k : Job)
    (base base' stem : Str) (hb : LastElem j.arg base) (hb' : LastElem k.arg base')
    (hs : StemOf base stem) (hs' : StemOf base' stem) (hdir : j.flags.output = k.flags.output)
    (hj : j.Ready w sh os fs) (hk : k.Ready w sh os fs) (hi : os.file j.out ≠ os.file k.arg)
    (hne : ¬ k.json sh <+: j.json sh) :
    let q := runSeq w sh os fs [j.argv, k.argv]
    q.2 = [some 0, some 0] ∧ j.out = k.out ∧ q.1 (os.file j.out) ≠ some (j.json sh) := by
  have ho : j.out = k.out := by
    unfold Job.out
    rw [hdir]
    exact C74_same_stem _ _ _ _ _ _ hb hb' hs hs'
  obtain ⟨h0, h1, h2⟩ := hj.ran
  have hin : GotInput os (runMain w sh os fs j.argv).files k.flags k.arg k.data :=
    ⟨hk.input.only, hk.input.mkdir, hk.input.read, by rw [h2 _ hi.symm]; exact hk.input.content⟩
  obtain ⟨e0, e1, _⟩ := C36_output_partial w sh os _ k.argv k.flags k.arg k.data k.schema hk.asks hin
    hk.accepted k.out rfl (k.json sh) rfl hk.opens hk.writes hk.closes
  simp only [runSeq, h0, e0]
  refine ⟨trivial, ho, ?_⟩
  rw [ho, e1]
  intro he
  simp only [Option.some.injEq] at he
  exact hne ⟨_, he⟩

/-! The hypotheses can be met. -/

namespace Sample

/-- A short text. -/
def tinyText (c : Char) : Str := "database ".toList ++ [c] ++ ";".toList

theorem tiny_writes (c : Char) (h : c = 'a' ∨ c = 'b') : Writes (tinyText c) ⟨[c], [], []⟩ := by
  rcases h with rfl | rfl <;> exact writes_iff.2 (by decide +kernel)

theorem tiny_accepted (c : Char) (h : c = 'a' ∨ c = 'b') :
    AcceptsBytes world (encode (tinyText c)) (⟨[c], [], []⟩ : Program).denote :=
  ⟨_, decodes_encode _, accepts_iff.2 ⟨_, tiny_writes c h, rfl, rfl,
    (validate_none _ _).1 (by rcases h with rfl | rfl <;> decide +kernel)⟩⟩

/-- The call of the command on a file with this text. -/
def tiny (c : Char) (arg : Str) : Job :=
  ⟨[arg], { args := [arg] }, arg, encode (tinyText c), (⟨[c], [], []⟩ : Program).denote⟩

/-- Two files in two directories, and one with a longer name. -/
def tree : Files := fun i =>
  if i = 6 then some (encode (tinyText 'a')) else if i = 7 then some (encode (tinyText 'b')) else none

theorem tiny_ready (c : Char) (arg : Str) (h : c = 'a' ∨ c = 'b')
    (ha : readFlags [arg] = .ok { args := [arg] })
    (ht : tree arg.length = some (encode (tinyText c)))
    (hn : tree (outputPath "./build".toList arg).length = none) : (tiny c arg).Ready world false os tree :=
  ⟨⟨ha, rfl, rfl⟩, ⟨rfl, rfl, rfl, ht⟩, tiny_accepted c h, rfl, rfl, rfl, by
    show ((tree (outputPath "./build".toList arg).length).getD []).length ≤ _
    rw [hn]; simp⟩

theorem ready_a : (tiny 'a' "p/x.kf".toList).Ready world false os tree :=
  tiny_ready 'a' _ (.inl rfl) (by decide) rfl (by decide +kernel)

theorem ready_b : (tiny 'b' "qq/x.kf".toList).Ready world false os tree :=
  tiny_ready 'b' _ (.inr rfl) (by decide) rfl (by decide +kernel)

theorem ready_c : (tiny 'b' "qq/xy.k".toList).Ready world false os tree :=
  tiny_ready 'b' _ (.inr rfl) (by decide) rfl (by decide +kernel)

end Sample

/-- Two files with different stems. -/
example : (runSeq Sample.world false Sample.os Sample.tree [["p/x.kf".toList], ["qq/xy.k".toList]]).1
      (Sample.os.file "build/x.json".toList) =
    some (encode ((⟨['a'], [], []⟩ : Program).denote.toJSON false)) := by
  have := C74_all_partial Sample.world false Sample.os Sample.tree
    [Sample.tiny 'a' "p/x.kf".toList, Sample.tiny 'b' "qq/xy.k".toList]
    (by
      intro j hj
      simp only [List.mem_cons, List.not_mem_nil, or_false] at hj
      rcases hj with rfl | rfl
      · exact Sample.ready_a
      · exact Sample.ready_c)
    (by decide +kernel) (by decide +kernel)
  exact this.2.1 (Sample.tiny 'a' "p/x.kf".toList) (by simp)

/-- The output of the first is lost. -/
example : (runSeq Sample.world false Sample.os Sample.tree [["p/x.kf".toList], ["qq/x.kf".toList]]).1
      (Sample.os.file "build/x.json".toList) ≠
    some (encode ((⟨['a'], [], []⟩ : Program).denote.toJSON false)) := by
  have := C74_violated Sample.world false Sample.os Sample.tree
    (Sample.tiny 'a' "p/x.kf".toList) (Sample.tiny 'b' "qq/x.kf".toList) "x.kf".toList "x.kf".toList "x".toList
    ⟨by decide, by decide, "p/".toList, 0, by decide, .inr ⟨"p".toList, by decide⟩⟩
    ⟨by decide, by decide, "qq/".toList, 0, by decide, .inr ⟨"qq".toList, by decide⟩⟩
    (.inl ⟨"kf".toList, by decide, by decide⟩) (.inl ⟨"kf".toList, by decide, by decide⟩) rfl
    Sample.ready_a Sample.ready_b (by decide +kernel) (by decide +kernel)
  exact this.2.2

end Verif
