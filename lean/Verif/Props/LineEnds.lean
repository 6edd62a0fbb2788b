import Verif.Proof.LineEndsProgram
import Verif.Props.Samples
/-!
# C73: line ends
-/

namespace Verif

/-- C73, as far as it holds. A file that `Parse` accepts is still accepted when
its line ends become those of Windows, and the schema is the same but for the
line ends inside statements, provided that no line end comes right after a
backslash and that the SQL parsers do not mind the line ends.

Missing: files with a backslash before a line end, see `C73_violated`. -/
theorem C73_crlf_partial (w : World) (hw : w.toEnv.LineEnds) (s : Str) (sch : Schema)
    (h : Accepts w s sch) (hn : ¬ ['\\', '\n'] <:+: s) : Accepts w (crlf s) sch.crlf :=
  accepts_crlf hw h hn

/-- C73. Schemas whose statements are on one line each are not changed at all. -/
theorem C73_one_line_partial (w : World) (hw : w.toEnv.LineEnds) (s : Str) (sch : Schema)
    (h : Accepts w s sch) (hn : ¬ ['\\', '\n'] <:+: s)
    (ho : ∀ a ∈ sch.actions.elems, ∀ x ∈ a.statements.elems, '\n' ∉ x) : Accepts w (crlf s) sch := by
  have : sch.crlf = sch := by
    have hl : ∀ l : List Action, (∀ a ∈ l, a ∈ sch.actions.elems) → l.map Action.crlf = l := by
      intro l hl
      refine (List.map_congr_left (g := id) ?_).trans (List.map_id _)
      intro a ha
      have := ho a (hl a ha)
      obtain ⟨n, an, i, pu, mu, au, st⟩ := a
      cases st with
      | none => rfl
      | some st =>
        have hs : st.map crlf = st :=
          (List.map_congr_left (g := id) fun x hx => crlf_same (this x hx)).trans (List.map_id _)
        simp [Action.crlf, hs]
    obtain ⟨o, n, t, ac, e⟩ := sch
    cases ac with
    | none => rfl
    | some l => simp [Schema.crlf, hl l fun a ha => ha]
  rw [← this]
  exact accepts_crlf hw h hn

namespace Sample

/-- A file with a line end inside a string. -/
def broken : Str := "database d;\nuse e { a: 'x\\\ny' } as b;".toList

/-- A file with a statement on two lines. -/
def lines : Str := "database d;\n// c\naction a() public\n{ select\n1; }".toList

/-- What it says. -/
def brokenProg : Program := ⟨"d".toList,
    [⟨"e".toList, some ⟨⟨"a".toList, .str "'x\\\ny'".toList⟩, []⟩, "b".toList⟩], []⟩

theorem broken_writes : Writes broken brokenProg :=
  writes_lit _ rfl (by decide +kernel)

/-- What the second file says. -/
def linesProg : Program := ⟨"d".toList, [], [.action ⟨[], "a".toList, ⟨none, []⟩, [.pub],
  ⟨.sql "select\n1".toList, []⟩⟩]⟩

theorem lines_writes : Writes lines linesProg := writes_lit _ rfl (by decide +kernel)

end Sample

/-- C73. It fails for line ends after a backslash in a string: with the line
ends of Windows, the file is refused. -/
theorem C73_violated (w : World) :
    (∃ sch, Accepts w Sample.broken sch) ∧ ¬ ∃ sch, Accepts w (crlf Sample.broken) sch := by
  constructor
  · refine ⟨_, accepts_iff.2 ⟨_, Sample.broken_writes, rfl, rfl, ?_⟩⟩
    have : validate w.toEnv Sample.brokenProg.denote = validate Sample.env Sample.brokenProg.denote := rfl
    exact (validate_none _ _).1 (this.trans (by decide +kernel))
  · rintro ⟨sch, h⟩
    obtain ⟨p, hp, _⟩ := accepts_iff.1 h
    have := writes_iff.1 hp
    rw [(by decide +kernel : lexAll (crlf Sample.broken) = none)] at this
    cases this

/-! The hypotheses can be met. -/

/-- Accepts every statement. -/
def Sample.easy : World where
  actParse := fun _ => .ok .dml
  sqlCheck := fun _ => none
  report := fun _ => ((1, 0, "mismatched input".toList), [])
  crash := fun _ => none

/-- A statement on two lines is on two lines still. -/
example : ∃ sch, Accepts Sample.easy (crlf Sample.lines) sch ∧
    sch.actions.elems.map (·.statements.elems) = [["select\r\n1;".toList]] := by
  have h : Accepts Sample.easy Sample.lines Sample.linesProg.denote :=
    accepts_iff.2 ⟨_, Sample.lines_writes, rfl, rfl, (validate_none _ _).1 (by decide +kernel)⟩
  refine ⟨_, C73_crlf_partial Sample.easy (fun _ => ⟨fun _ h => h, fun h => h⟩) _ _ h (by decide +kernel), ?_⟩
  decide +kernel

end Verif
