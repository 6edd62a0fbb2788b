import Verif.Proof.Express
import Verif.Props.SampleText
/-!
# C43: writing schemas
-/

namespace Verif

/-- A program written with a blank after each token (none after an SQL
statement) is read as that program.  Together with `C43_program_exact` the only
condition is that names, literals and SQL texts have the right form. -/
theorem C43_program (p : Program) (h : ∀ t ∈ p.toks, WellSpelt t) : Writes p.text p :=
  p.writes_text h

/-- The condition is necessary: a program that can be written at all satisfies
it, so every program that can be written can be written in the plain way. -/
theorem C43_program_exact (p : Program) :
    (∃ s, Writes s p) ↔ (∀ t ∈ p.toks, WellSpelt t) := by
  constructor
  · rintro ⟨s, hs⟩; exact hs.wellSpelt
  · intro h; exact ⟨_, p.writes_text h⟩

/-- Every schema that keeps the lexical and the static rules has a canonical
source text, in the plain layout, and `Parse` of it returns exactly that schema. -/
theorem C43_schema (w : World) (sch : Schema) (h : Expressible sch)
    (hv : ValidSchema w.toEnv sch) :
    ∃ p : Program, p.denote = sch ∧ Accepts w p.text sch := by
  obtain ⟨p, hf, hn, hd⟩ := program_of h
  exact ⟨p, hd, accepts_iff.2 ⟨p, p.writes_text hf, hn, hd, hv⟩⟩

/-- No other schema is ever returned: the results of `Parse` are exactly the
schemas that keep the lexical and the static rules. -/
theorem C43_image (w : World) (sch : Schema) :
    (∃ s, Accepts w s sch) ↔ Expressible sch ∧ ValidSchema w.toEnv sch := by
  constructor
  · rintro ⟨s, hs⟩
    obtain ⟨p, hp, hf, rfl, hv⟩ := accepts_iff.1 hs
    exact ⟨program_express hp.wellSpelt hf, hv⟩
  · rintro ⟨h, hv⟩
    obtain ⟨p, _, ha⟩ := C43_schema w sch h hv
    exact ⟨_, ha⟩

/-- Writing an accepted text in the plain way does not change the result. -/
theorem C43_reformat (w : World) (s : Str) (mode : Nat) (p : Program) (hp : Writes s p) :
    (parseKF w p.text none mode).result = (parseKF w s none mode).result ∧
    (parseKF w p.text none mode).err = (parseKF w s none mode).err := by
  have hq := p.writes_text hp.wellSpelt
  rw [hq.parseKF, hp.parseKF]
  exact ⟨rfl, rfl⟩

/-! The hypotheses can be met -/

example : Accepts Sample.world Sample.prog.text Sample.prog.denote ∧
    Sample.prog.text ≠ Sample.text :=
  ⟨by
    have h := C43_reformat Sample.world Sample.text modeDefault Sample.prog Sample.writes
    have a := Sample.accepts
    exact ⟨by rw [parse, h.2]; exact a.1, by rw [parse, h.1]; exact a.2⟩,
   by decide +kernel⟩

example : Expressible Sample.prog.denote ∧ ValidSchema Sample.world.toEnv Sample.prog.denote :=
  (C43_image _ _).1 ⟨_, Sample.accepts⟩

/-- A keyword is not a table name. -/
example : ¬ Expressible { Sample.prog.denote with name := "table".toList } := by
  rintro ⟨_, h, _⟩
  exact h.2 (by decide)

end Verif
