import Verif.Proof.PredictTable
/-!
# The tables predict right
-/

namespace Verif

set_option Elab.async false

open Atn

/-- How many alternatives the decisions have. -/
theorem choices_length : (parserAtn.choices 7).length = 2 ∧ (parserAtn.choices 10).length = 2 ∧
    (parserAtn.choices 24).length = 2 ∧ (parserAtn.choices 30).length = 8 ∧
    (parserAtn.choices 31).length = 2 := by decide +kernel

/-- What alternative `i` of decision `d` leads to passes the test `g`. -/
def sureAlt (g : Guard) (d i : Nat) : Bool :=
  match (parserAtn.choices d)[i - 1]? with
  | some e => sure g (restAt e.trg)
  | none => false

theorem sure7 : sureAlt (G.la1 [.R_BRACE] ++ G.la2 [.COMMA] [.R_BRACE]) 7 2 = true := by decide +kernel
theorem sure24 : sureAlt (G.la1 [.IDENTIFIER]) 24 2 = true := by decide +kernel
theorem sure30 : sureAlt (guardOf 30 8) 30 8 = true := by decide +kernel

attribute [local irreducible] parserAtn restAt leadsTo sure

theorem sureAlt_ok {g : Guard} {d i p : Nat} {ctx : List Nat} {ts : List Tok}
    (h : sureAlt g d i = true) (hv : Viable d p ctx ts i) : Guard.ok p g ts = true := by
  unfold sureAlt at h
  split at h
  · rename_i e he
    have h0 : 0 < i := by obtain ⟨_, h, _⟩ := hv; exact h
    exact sure_ok h ((leadsTo_viable h0 (leadsTo_self he)).1 hv)
  · cases h

theorem la1_ok {p : Nat} {s : List TT} {ts : List Tok} (h : Guard.ok p (G.la1 s) ts = true) :
    la ts ∈ s := by
  cases ts with
  | nil => simp [Guard.ok, G.la1, Look.ok, laOk] at h
  | cons t ts => simpa [Guard.ok, G.la1, Look.ok, laOk, la] using h

theorem la2_iff {p : Nat} {s r : List TT} {ts : List Tok} (hs : .EOF ∉ s) (hr : .EOF ∉ r) :
    Guard.ok p (G.la2 s r) ts = true ↔ la ts ∈ s ∧ la ts.tail ∈ r := by
  cases ts with
  | nil => simp [Guard.ok, G.la2, Look.ok, laOk, la, hs]
  | cons t ts =>
    cases ts with
    | nil => simp [Guard.ok, G.la2, Look.ok, laOk, la, hr]
    | cons u ts => simp [Guard.ok, G.la2, Look.ok, laOk, la]

theorem opLook_iff {p : Nat} {e : Nat × List TT × Nat} {ts : List Tok} (he : .EOF ∉ e.2.1) :
    Look.ok p (opLook e) ts = true ↔ p ≤ e.1 ∧ la ts ∈ e.2.1 := by
  cases ts with
  | nil => simp [Look.ok, opLook, laOk, la, he]
  | cons t ts => simp [Look.ok, opLook, laOk, la]

theorem opTable_level : ∀ t ∈ TT.all, ∀ i ∈ List.range 8, ∀ e ∈ opTable[i]?,
    t ∈ e.2.1 ↔ opLevel t = some (i + 1, e.1) := by decide +kernel

theorem opTable_none : ∀ t ∈ TT.all, ∀ x ∈ opLevel t, ∃ e ∈ opTable, t ∈ e.2.1 ∧ e.1 = x.2 := by
  decide +kernel

theorem opTable_eof : ∀ e ∈ opTable, .EOF ∉ e.2.1 := by decide

/-- The answers are numbers of alternatives. -/
theorem byTwo_le {d : Nat} (hd : d ∈ asked) (p : Nat) (t u : TT) :
    byTwo d p t u ≤ (parserAtn.choices d).length := by
  obtain ⟨h7, h10, h24, h30, h31⟩ := choices_length
  have hl : ∀ t ∈ TT.all, ∀ x ∈ opLevel t, x.1 ≤ 8 := by decide +kernel
  simp only [asked, List.mem_cons, List.not_mem_nil, or_false] at hd
  rcases hd with rfl | rfl | rfl | rfl | rfl
  · rw [h7]; simp only [byTwo]; split <;> try split
    all_goals omega
  · rw [h10]; simp only [byTwo]; split <;> omega
  · rw [h24]; simp only [byTwo]; split <;> try split
    all_goals omega
  · rw [h30]; simp only [byTwo]; split
    · rename_i i k ho
      have := hl t (TT.mem_all' t) (i, k) ho
      split
      · exact this
      · omega
    · omega
  · rw [h31]; simp only [byTwo]; split <;> try split
    all_goals omega

/-- The answer of the modelled runtime. -/
theorem sim_eq {d : Nat} (hd : d ∈ asked) (p : Nat) (ctx : List Nat) (ts : List Tok) :
    simRuntime.predict d p ctx ts = byTwo d p (la ts) (la ts.tail) := by
  simp only [simRuntime, adaptivePredict_eq hd, Option.getD_some]

theorem sim_dead {d : Nat} (hd : d ∈ asked) (p : Nat) (ctx : List Nat) (ts : List Tok) :
    simRuntime.dead d p ctx ts = passed d (la ts) := by
  simp only [simRuntime, adaptivePredict_eq hd, Option.getD_some]

theorem sim_inRange : simRuntime.InRange := by
  intro d hd p ctx ts
  rw [sim_eq hd]
  exact byTwo_le hd _ _ _

/-- A test for the levels of operators. -/
theorem opGuard_iff {p : Nat} {ts : List Tok} :
    Guard.ok p (opTable.map opLook) ts = true ↔ ∃ x ∈ opLevel (la ts), p ≤ x.2 := by
  simp only [Guard.ok, List.any_map, List.any_eq_true, Function.comp]
  constructor
  · rintro ⟨e, he, h⟩
    rw [opLook_iff (opTable_eof e he)] at h
    obtain ⟨i, hi, rfl⟩ := List.mem_iff_getElem.1 he
    have := (opTable_level _ (TT.mem_all' (la ts)) i (List.mem_range.2 hi) _
      (List.getElem?_eq_getElem hi)).1 h.2
    exact ⟨_, this, h.1⟩
  · rintro ⟨x, hx, hp⟩
    obtain ⟨e, he, ht, hk⟩ := opTable_none _ (TT.mem_all' (la ts)) x hx
    exact ⟨e, he, (opLook_iff (opTable_eof e he)).2 ⟨by omega, ht⟩⟩

theorem sim_right : simRuntime.Right := by
  intro d hd p ctx ts j M hj hl hM hlow
  rw [sim_eq hd]
  have hv := (leadsTo_viable hj hl).2 hM
  have hlt := leadsTo_lt hl
  have hg := fun h => viable_guard hd hv h
  obtain ⟨h7, h10, h24, h30, h31⟩ := choices_length
  simp only [asked, List.mem_cons, List.not_mem_nil, or_false] at hd
  rcases hd with rfl | rfl | rfl | rfl | rfl
  · rw [h7] at hlt hg
    by_cases h1 : j = 1
    · subst h1
      have := (la2_iff (by decide) (by decide)).1 (hg (by omega))
      simp only [List.mem_cons, List.not_mem_nil, or_false] at this
      obtain ⟨ht, hu | hu | hu⟩ := this <;> rw [ht, hu] <;> rfl
    · obtain rfl : j = 2 := by omega
      have := sureAlt_ok sure7 hv
      simp only [Guard.ok, List.any_append, Bool.or_eq_true] at this
      rcases this with h | h
      · have := la1_ok (p := p) h
        simp only [List.mem_cons, List.not_mem_nil, or_false] at this
        rw [this]; rfl
      · have := (la2_iff (p := p) (by decide) (by decide)).1 h
        simp only [List.mem_cons, List.not_mem_nil, or_false] at this
        rw [this.1, this.2]; rfl
  · rw [h10] at hlt hg
    by_cases h1 : j = 1
    · subst h1
      have := (la2_iff (by decide) (by decide)).1 (hg (by omega))
      simp only [List.mem_cons, List.not_mem_nil, or_false] at this
      rw [this.1, this.2]; rfl
    · obtain rfl : j = 2 := by omega
      have := hlow 1 (by omega) (by omega)
      have hn : ¬ (la ts ∈ [TT.COMMA] ∧ la ts.tail ∈ [TT.IDENTIFIER]) := fun h => by
        have h := (la2_iff (p := p) (by decide) (by decide)).2 h
        rw [show guardOf 10 1 = G.la2 [.COMMA] [.IDENTIFIER] from rfl, h] at this
        cases this
      simp only [List.mem_cons, List.not_mem_nil, or_false] at hn
      simp only [byTwo, hn, if_false]
  · rw [h24] at hlt hg
    by_cases h1 : j = 1
    · subst h1
      have := (la2_iff (by decide) (by decide)).1 (hg (by omega))
      simp only [List.mem_cons, List.not_mem_nil, or_false] at this
      rw [this.1, this.2]; rfl
    · obtain rfl : j = 2 := by omega
      have := hlow 1 (by omega) (by omega)
      have hi := la1_ok (sureAlt_ok sure24 hv)
      simp only [List.mem_cons, List.not_mem_nil, or_false] at hi
      have hn : la ts.tail ≠ .PERIOD := fun h => by
        have h := (la2_iff (p := p) (s := [.IDENTIFIER]) (r := [.PERIOD]) (ts := ts) (by decide)
          (by decide)).2 (by simp [hi, h])
        rw [show guardOf 24 1 = G.la2 [.IDENTIFIER] [.PERIOD] from rfl, h] at this
        cases this
      simp only [byTwo, hi, hn, if_true, if_false]
  · rw [h30] at hlt hg
    have hok : Guard.ok p (guardOf 30 j) ts = true := by
      by_cases h8 : j = 8
      · subst h8; exact sureAlt_ok sure30 hv
      · exact hg (by omega)
    have hlen : opTable.length = 8 := rfl
    have hge : opTable[j - 1]? = some (opTable[j - 1]'(by omega)) := List.getElem?_eq_getElem _
    rw [show guardOf 30 j = ((opTable[j - 1]?).map opLook).toList from rfl, hge] at hok
    simp only [Option.map_some, Option.toList_some, Guard.ok, List.any_cons, List.any_nil,
      Bool.or_false] at hok
    rw [opLook_iff (opTable_eof _ (List.getElem_mem _))] at hok
    have := (opTable_level _ (TT.mem_all' (la ts)) (j - 1) (List.mem_range.2 (by omega)) _ hge).1 hok.2
    simp only [byTwo, this, hok.1, if_true]
    omega
  · rw [h31] at hlt hg
    by_cases h1 : j = 1
    · subst h1
      obtain ⟨⟨i, k⟩, hx, hp⟩ := opGuard_iff.1 (hg (by omega))
      have hx : opLevel (la ts) = some (i, k) := hx
      simp only [byTwo, hx]
      rw [if_pos hp]
    · obtain rfl : j = 2 := by omega
      have := hlow 1 (by omega) (by omega)
      have hn : ¬ ∃ x ∈ opLevel (la ts), p ≤ x.2 := fun h => by
        have h := opGuard_iff.2 h
        rw [show guardOf 31 1 = opTable.map opLook from rfl, h] at this
        cases this
      simp only [byTwo]
      split
      · rename_i i k ho
        rw [if_neg fun hp => hn ⟨(i, k), ho, hp⟩]
      · rfl

end Verif
