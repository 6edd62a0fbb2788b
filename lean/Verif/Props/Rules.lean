import Verif.Proof.Rules
import Verif.Proof.ParseKF
import Verif.Props.Samples
/-!
# C58: the first problem is the one that is reported
-/

namespace Verif

/-- C58. Validation fails with the complaint about the first broken rule, in the
reading order of `Spec/Rules.lean`, and with nothing else. -/
theorem C58_first (env : Env) (s : Schema) (f : Fail) :
    validate env s = some f ↔ FirstBroken (s.rules env) f := by
  rw [validate_report, report_some]

/-- C58. Validation succeeds if and only if no rule is broken. -/
theorem C58_accepted (env : Env) (s : Schema) :
    validate env s = none ↔ ∀ r ∈ s.rules env, r.holds := by
  rw [validate_report, report_none]

/-- C58, for `ParseKF`. The error for a text whose declarations can be read is
exactly one, the complaint about the first broken rule of the schema that the
text denotes; if no rule is broken there is no error. -/
theorem C58_parseKF (w : World) (s : Str) (p : Program) (mode : Nat) (h : Writes s p)
    (hf : p.fault = none) :
    (∀ e, FirstBroken (p.denote.rules w.toEnv) (.err e) →
      (parseKF w s none mode).err = some [.real e]) ∧
    (∀ q, FirstBroken (p.denote.rules w.toEnv) (.panic q) →
      (parseKF w s none mode).err = some [.real q.toErr]) ∧
    ((∀ r ∈ p.denote.rules w.toEnv, r.holds) → (parseKF w s none mode).err = none) := by
  rw [h.parseKF]
  simp only [Option.getD_none, hf]
  refine ⟨fun e he => ?_, fun q hq => ?_, fun hr => ?_⟩
  · rw [(C58_first w.toEnv _ _).2 he]; rfl
  · rw [(C58_first w.toEnv _ _).2 hq]; rfl
  · rw [(C58_accepted w.toEnv _).2 hr]; rfl

/-- Two tables, the second of which has a misfitting attribute, an index on an
unknown column and a foreign key to an unknown table. -/
def Sample.manyFaults : Schema :=
  ⟨[], "app".toList, some [Sample.users,
    ⟨"t".toList, some [⟨"id".toList, C.colInt, some [⟨C.attrMaxLength, some "3".toList⟩]⟩],
      some [⟨"i".toList, some ["zz".toList], C.idxBtree⟩],
      some [⟨some ["id".toList], some ["id".toList], "nope".toList, none⟩]⟩],
    none, none⟩

/-- The attribute is reported, although later rules are broken too. -/
example : FirstBroken (Sample.manyFaults.rules Sample.env)
      (.err (Sent.attributeNotAllow.with "int(max_length)".toList)) ∧
    (∃ r ∈ Sample.manyFaults.rules Sample.env, ¬ r.holds ∧
      r.complaint = .err (Sent.tableNotFound.with "nope".toList)) := by
  refine ⟨(C58_first _ _ _).1 (by decide), ?_⟩
  refine ⟨⟨"nope".toList ∈ Sample.manyFaults.tableNames, .err (Sent.tableNotFound.with "nope".toList)⟩,
    ?_, by decide, rfl⟩
  simp only [Schema.rules, List.mem_append, List.mem_flatMap]
  refine .inl (.inr ⟨_, List.mem_cons_of_mem _ (List.mem_cons_self ..), _, List.mem_cons_self .., ?_⟩)
  simp only [ForeignKey.rules, List.mem_append, List.mem_cons]
  exact .inl (.inr (.inl trivial))

end Verif
