import Verif.Proof.AtnLang
import Verif.Proof.AtnParser
/-!
# The parser ATN passes the checks
-/

namespace Verif

set_option Elab.async false

/-- What can follow a state of the parser ATN in its rule. -/
def restAt (s : Nat) : List G := (parserAtn.rest 60 1000000 s).getD []

/-- The states from `a` on pass (checked in parts, to keep memory low). -/
def okRange (a n : Nat) : Bool := (List.range' a n).all fun s => parserAtn.okState restAt s

theorem atn_ok0 : okRange 0 29 = true := by decide +kernel
theorem atn_ok1 : okRange 29 29 = true := by decide +kernel
theorem atn_ok2 : okRange 58 29 = true := by decide +kernel
theorem atn_ok3 : okRange 87 29 = true := by decide +kernel
theorem atn_ok4 : okRange 116 29 = true := by decide +kernel
theorem atn_ok5 : okRange 145 29 = true := by decide +kernel
theorem atn_ok6 : okRange 174 29 = true := by decide +kernel
theorem atn_ok7 : okRange 203 29 = true := by decide +kernel
theorem atn_ok8 : okRange 232 29 = true := by decide +kernel
theorem atn_ok9 : okRange 261 29 = true := by decide +kernel
theorem atn_ok10 : okRange 290 29 = true := by decide +kernel
theorem atn_ok11 : okRange 319 29 = true := by decide +kernel
theorem atn_ok12 : okRange 348 29 = true := by decide +kernel
theorem atn_ok13 : okRange 377 29 = true := by decide +kernel
theorem atn_ok14 : okRange 406 29 = true := by decide +kernel
theorem atn_ok15 : okRange 435 21 = true := by decide +kernel

/-- All states pass. -/
theorem atn_ok (s : Nat) (h : s < 456) : parserAtn.okState restAt s = true := by
  have part : ∀ a n, okRange a n = true → a ≤ s → s < a + n → parserAtn.okState restAt s = true := by
    intro a n hr h1 h2
    unfold okRange at hr
    rw [List.all_eq_true] at hr
    exact hr s (List.mem_range'_1.2 ⟨h1, h2⟩)
  by_cases h0 : s < 29
  · exact part _ _ atn_ok0 (by omega) (by omega)
  by_cases h1 : s < 58
  · exact part _ _ atn_ok1 (by omega) (by omega)
  by_cases h2 : s < 87
  · exact part _ _ atn_ok2 (by omega) (by omega)
  by_cases h3 : s < 116
  · exact part _ _ atn_ok3 (by omega) (by omega)
  by_cases h4 : s < 145
  · exact part _ _ atn_ok4 (by omega) (by omega)
  by_cases h5 : s < 174
  · exact part _ _ atn_ok5 (by omega) (by omega)
  by_cases h6 : s < 203
  · exact part _ _ atn_ok6 (by omega) (by omega)
  by_cases h7 : s < 232
  · exact part _ _ atn_ok7 (by omega) (by omega)
  by_cases h8 : s < 261
  · exact part _ _ atn_ok8 (by omega) (by omega)
  by_cases h9 : s < 290
  · exact part _ _ atn_ok9 (by omega) (by omega)
  by_cases h10 : s < 319
  · exact part _ _ atn_ok10 (by omega) (by omega)
  by_cases h11 : s < 348
  · exact part _ _ atn_ok11 (by omega) (by omega)
  by_cases h12 : s < 377
  · exact part _ _ atn_ok12 (by omega) (by omega)
  by_cases h13 : s < 406
  · exact part _ _ atn_ok13 (by omega) (by omega)
  by_cases h14 : s < 435
  · exact part _ _ atn_ok14 (by omega) (by omega)
  by_cases h15 : s < 456
  · exact part _ _ atn_ok15 (by omega) (by omega)
  omega

theorem edges_lt : parserAtn.edges.all (fun e => decide (e.trg < 456)) = true := by
  decide +kernel

theorem shape_at (s : Nat) (h : s < 456) : Shape parserAtn restAt s := by
  exact shape_of_ok (atn_ok s h)

theorem edge_trg_lt {s : Nat} {e : Atn.Edge} (h : e ∈ parserAtn.out s) : e.trg < 456 := by
  have hall := edges_lt
  rw [List.all_eq_true] at hall
  have := hall e (List.mem_filter.1 h).1
  exact of_decide_eq_true this

theorem follow_lt (i : Nat) : parserAtn.follow i < 456 := by
  unfold Atn.T.follow
  cases h : parserAtn.ruleEdge i with
  | none => exact (by decide : 0 < 456)
  | some e => exact edge_trg_lt (ruleEdge_mem h).1

/-- The frames of a stack of invoking states. -/
def frames (stack : List Nat) : List (List G) := framesOf parserAtn restAt stack

/-- Paths through the parser ATN are derivations. -/
theorem path_ders {lead s stack ts} (hs : s < 456) (h : parserAtn.Path lead s stack ts) :
    Ders lead (restAt s) (frames stack) ts :=
  path_ders_of shape_at follow_lt h hs

/-- Derivations are paths through the parser ATN. -/
theorem ders_path {lead s stack ts} (hs : s < 456)
    (h : Ders lead (restAt s) (frames stack) ts) : parserAtn.Path lead s stack ts :=
  ders_path_of shape_at follow_lt hs h

end Verif
