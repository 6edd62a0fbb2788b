import Verif.Proof.ParseKF
import Verif.Proof.Words
/-!
# Accepted texts
-/

namespace Verif

theorem listed_elems {α : Type} (l : List α) : (listed l).elems = l := by
  cases l <;> rfl

theorem listed_none {α : Type} (l : List α) : listed l = none ↔ l = [] := by
  cases l <;> simp [listed]

/-- What acceptance with a fresh listener means, in any mode. -/
theorem accepts_iff {w : World} {s : Str} {mode : Nat} {sch : Schema} :
    ((parseKF w s none mode).err = none ∧ (parseKF w s none mode).result = some sch) ↔
      ∃ p, Writes s p ∧ p.fault = none ∧ p.denote = sch ∧ ValidSchema w.toEnv sch := by
  constructor
  · rintro ⟨h, hr⟩
    by_cases hw : ∃ p, Writes s p
    · obtain ⟨p, hp⟩ := hw
      refine ⟨p, hp, ?_⟩
      rw [hp.parseKF] at h hr
      simp only [Option.getD_none, ErrorList.isErr, List.isEmpty_nil, Bool.not_true,
        Bool.false_eq_true, if_false] at h hr
      cases hf : p.fault with
      | some e => rw [hf] at h; simp [Outcome.err, ErrorList.isErr] at h
      | none =>
        rw [hf] at h hr
        simp only at h hr
        cases hv : validate w.toEnv p.denote with
        | some f => cases f <;> (rw [hv] at h; simp [Outcome.err, ErrorList.isErr] at h)
        | none =>
          rw [hv] at hr
          simp at hr
          subst hr
          exact ⟨rfl, rfl, (validate_none _ _).1 hv⟩
    · rw [parseKF_bad hw] at h
      simp [Outcome.err, ErrorList.isErr] at h
  · rintro ⟨p, hp, hf, rfl, hv⟩
    rw [hp.parseKF, hf, (validate_none _ _).2 hv]
    simp [Outcome.err, ErrorList.isErr]

/-- The program of an accepted text. -/
theorem Accepts.program {w : World} {s : Str} {sch : Schema} (h : Accepts w s sch) {p : Program}
    (hp : Writes s p) : p.fault = none ∧ sch = p.denote ∧ ValidSchema w.toEnv sch := by
  obtain ⟨q, hq, hf, hd, hv⟩ := accepts_iff.1 h
  have := hq.unique hp
  exact ⟨this.2.2.1 ▸ hf, by rw [← hd, this.2.2.2 hf], hv⟩

theorem Accepts.exists_program {w : World} {s : Str} {sch : Schema} (h : Accepts w s sch) :
    ∃ p, Writes s p ∧ p.fault = none ∧ sch = p.denote := by
  obtain ⟨q, hq, hf, hd, hv⟩ := accepts_iff.1 h
  exact ⟨q, hq, hf, hd.symm⟩

theorem Program.denote_exts (p : Program) : p.denote.extensions.elems = p.exts.map ExtDecl.denote :=
  listed_elems _

theorem Program.denote_tables (p : Program) : p.denote.tables.elems = p.tables.map TableDecl.denote :=
  listed_elems _

theorem Program.denote_actions (p : Program) :
    p.denote.actions.elems = p.actions.map ActionDecl.denote ++ p.inits.map initAction :=
  listed_elems _

theorem no_fault {p : Program} (h : p.fault = none) :
    p.inits.length ≤ 1 ∧ ∀ a ∈ p.actions, modifierFault a.modifiers = none := by
  unfold Program.fault at h
  split at h
  · cases h
  · refine ⟨by omega, fun a ha => ?_⟩
    exact List.findSome?_eq_none_iff.1 h a ha

/-- Identifier tokens are names and not reserved. -/
theorem Writes.ident {s : Str} {p : Program} (h : Writes s p) {x : Str} (hx : idTok x ∈ p.toks) :
    IsName x ∧ ¬ Reserved x := lexeme_ident.1 (h.lexemes _ hx)

/-! Modifiers -/

theorem vis_count (ms : List Modifier) :
    ms.count .pub + ms.count .priv = (ms.filter Modifier.isVis).length := by
  induction ms with
  | nil => rfl
  | cons m ms ih =>
    cases m <;> simp [Modifier.isVis, List.filter_cons] <;> omega

theorem modifierFault_none {ms : List Modifier} : modifierFault ms = none ↔
    (ms.filter Modifier.isVis).length ≤ 1 ∧ ms.count .view ≤ 1 ∧ ms.count .owner ≤ 1 := by
  unfold modifierFault
  split
  · next h => simp [h]
  · next h =>
    have h1 : (ms.filter Modifier.isVis).length ≤ 1 := by
      rcases hm : ms.filter Modifier.isVis with _ | ⟨a, _ | ⟨b, l⟩⟩
      · simp
      · simp
      · exact absurd hm (h _ _ _)
    simp only [h1, true_and]
    split
    · simp; omega
    · split
      · simp; omega
      · simp; omega

end Verif
