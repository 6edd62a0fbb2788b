import Verif.Model.Threads
/-!
# Steps of a call, alone and among others
-/

namespace Verif

/-- A call by itself: state, content of the listener, what it has printed. -/
abbrev View := PC × ErrorList × List Str

def lstep (w : World) (c : Call) (v : View) : View :=
  let r := tick w c.input c.mode v.2.1 v.1
  (r.1, r.2.1, v.2.2 ++ r.2.2)

def iter (w : World) (c : Call) : Nat → View → View
  | 0, v => v
  | n + 1, v => iter w c n (lstep w c v)

theorem iter_add (w : World) (c : Call) (m n : Nat) (v : View) :
    iter w c (m + n) v = iter w c n (iter w c m v) := by
  induction m generalizing v with
  | zero => simp [iter]
  | succ m ih => rw [Nat.succ_add]; exact ih _

theorem iter_succ (w : World) (c : Call) (n : Nat) (v : View) :
    iter w c (n + 1) v = lstep w c (iter w c n v) := by
  rw [iter_add]; rfl

theorem iter_done (w : World) (c : Call) (n : Nat) (r : Option Schema) (b : Bool) (l : ErrorList)
    (p : List Str) : iter w c n (.done r b, l, p) = (.done r b, l, p) := by
  induction n with
  | zero => rfl
  | succ n ih => rw [iter, show lstep w c (.done r b, l, p) = (.done r b, l, p) by
      simp [lstep, tick]]; exact ih

theorem iter_reading (w : World) (c : Call) (es : List Err) (l : ErrorList) (p : List Str) :
    iter w c es.length (.reading es, l, p) = (.reading [], l ++ es.map .real, p) := by
  induction es generalizing l p with
  | nil => simp [iter]
  | cons e es ih =>
    rw [List.length_cons, iter, show lstep w c (.reading (e :: es), l, p) =
      (.reading es, l ++ [.real e], p) by simp [lstep, tick], ih]
    simp

theorem iter_visiting (w : World) (c : Call) (xs : List Str) (r : Option Schema)
    (e : Option Entry) (l : ErrorList) (p : List Str) :
    iter w c xs.length (.visiting xs r e, l, p) = (.visiting [] r e, l, p ++ xs) := by
  induction xs generalizing p with
  | nil => simp [iter]
  | cons x xs ih =>
    rw [List.length_cons, iter, show lstep w c (.visiting (x :: xs) r e, l, p) =
      (.visiting xs r e, l, p ++ [x]) by simp [lstep, tick], ih]
    simp

/-- The end of a call. -/
def ended (o : Outcome) : View := (.done o.result o.errors.isErr, o.errors, o.printed)

theorem iter_leaving (w : World) (c : Call) (r : Option Schema) (e : Option Entry) (l : ErrorList)
    (p : List Str) : iter w c 3 (.leaving r e, l, p) = ended (finish c.mode r l e p) := by
  simp [iter, lstep, tick, ended, finish]

theorem iter_visit (w : World) (c : Call) (xs : List Str) (r : Option Schema)
    (e : Option Entry) (l : ErrorList) (p : List Str) :
    iter w c (xs.length + (1 + 3)) (.visiting xs r e, l, p) =
      ended (finish c.mode r l e (p ++ xs)) := by
  rw [iter_add, iter_visiting, iter_add, show iter w c 1 (.visiting [] r e, l, p ++ xs) =
    (.leaving r e, l, p ++ xs) by simp [iter, lstep, tick], iter_leaving]

/-- A call by itself comes to its end, with the outcome that `parseKF` says. -/
theorem iter_ends (w : World) (c : Call) (l : Option ErrorList) :
    ∃ n, iter w c n (.reading (syntaxErrors w c.input), l.getD [], []) =
      ended (parseKF w c.input l c.mode) := by
  have key : ∃ n, iter w c n
      (.reading [], l.getD [] ++ (syntaxErrors w c.input).map .real, []) =
      ended (parseKF w c.input l c.mode) := by
    generalize hl : l.getD [] ++ (syntaxErrors w c.input).map Entry.real = l₁
    suffices h : ∃ n, iter w c n (lstep w c (.reading [], l₁, [])) =
        ended (parseKF w c.input l c.mode) by
      obtain ⟨n, hn⟩ := h
      exact ⟨n + 1, hn⟩
    unfold parseKF lstep tick
    simp only [hl, List.nil_append]
    cases syntaxTree c.input with
    | none =>
      cases w.crash c.input with
      | some q => exact ⟨3, iter_leaving ..⟩
      | none => exact ⟨3, iter_leaving ..⟩
    | some tree =>
      by_cases he : l₁.isErr = true
      · simp only [he, if_true]
        exact ⟨3, iter_leaving ..⟩
      · simp only [he]
        cases (tVisitSource (c.mode &&& modeTrace != 0) tree).res with
        | error q => exact ⟨_, iter_visit ..⟩
        | ok s =>
          cases hv : validate w.toEnv s with
          | none => simp only [hv]; exact ⟨_, iter_visit ..⟩
          | some f => cases f <;> simp only [hv] <;> exact ⟨_, iter_visit ..⟩
  obtain ⟨n, hn⟩ := key
  exact ⟨(syntaxErrors w c.input).length + n, by rw [iter_add, iter_reading]; exact hn⟩

/-- What call `i` sees of the system. -/
def Sys.view (s : Sys) (calls : Nat → Call) (i : Nat) : View :=
  (s.pcs i, s.heap ((calls i).cell i), s.printedBy i)

theorem printedBy_append (s : Sys) (j i : Nat) (xs : List Str) (h : Cell → ErrorList)
    (p : Nat → PC) :
    Sys.printedBy ⟨h, p, s.out ++ xs.map fun x => (j, x)⟩ i =
      s.printedBy i ++ if j = i then xs else [] := by
  unfold Sys.printedBy
  simp only [List.filter_append, List.map_append]
  congr 1
  by_cases hji : j = i
  · subst hji
    simp [List.filter_map, Function.comp_def]
  · simp [List.filter_map, Function.comp_def, hji]

theorem view_step_self (w : World) (calls : Nat → Call) (s : Sys) (i : Nat) :
    (s.step w calls i).view calls i = lstep w (calls i) (s.view calls i) := by
  unfold Sys.view Sys.step lstep
  simp only [if_true]
  rw [printedBy_append]
  simp

theorem view_step_other (w : World) (calls : Nat → Call) (s : Sys) (i j : Nat) (h : j ≠ i)
    (hc : (calls j).cell j ≠ (calls i).cell i) :
    (s.step w calls j).view calls i = s.view calls i := by
  unfold Sys.view Sys.step
  simp only [Ne.symm h, if_false, Ne.symm hc]
  rw [printedBy_append]
  simp [h]

/-- A call whose listener is its own runs as if it were alone. -/
theorem view_run (w : World) (calls : Nat → Call) (i : Nat)
    (hc : ∀ j, j ≠ i → (calls j).cell j ≠ (calls i).cell i) (sched : List Nat) (s : Sys) :
    (s.run w calls sched).view calls i = iter w (calls i) (sched.count i) (s.view calls i) := by
  induction sched generalizing s with
  | nil => rfl
  | cons j js ih =>
    show ((s.step w calls j).run w calls js).view calls i = _
    rw [ih]
    by_cases h : j = i
    · subst h
      rw [view_step_self, List.count_cons_self]
      rfl
    · rw [view_step_other w calls s i j h (hc j h), List.count_cons_of_ne (by simpa using h)]

end Verif

namespace Verif

/-- Steps that a call still has to make, at most. -/
def PC.rank (input : Str) (mode : Nat) : PC → Nat
  | .reading es => es.length + 5 +
      (match syntaxTree input with
        | none => 0
        | some tree => (tVisitSource (mode &&& modeTrace != 0) tree).out.length)
  | .visiting xs _ _ => xs.length + 4
  | .leaving _ _ => 3
  | .asking _ => 2
  | .closing _ _ => 1
  | .done _ _ => 0

theorem tick_rank (w : World) (input : Str) (mode : Nat) (l : ErrorList) (pc : PC) :
    (tick w input mode l pc).1.rank input mode ≤ pc.rank input mode - 1 := by
  cases pc with
  | reading es =>
    cases es with
    | cons e es => simp only [tick, PC.rank, List.length_cons]; omega
    | nil =>
      unfold tick
      simp only [PC.rank, List.length_nil]
      cases ht : syntaxTree input with
      | none =>
        cases w.crash input with
        | some q => simp only []; omega
        | none => simp only []; omega
      | some tree =>
        by_cases he : l.isErr = true
        · simp only [he, if_true]; omega
        · simp only [he]
          cases (tVisitSource (mode &&& modeTrace != 0) tree).res with
          | error q => simp; omega
          | ok s =>
            simp only [Bool.false_eq_true, if_false]
            cases validate w.toEnv s with
            | none => simp only []; omega
            | some f => cases f <;> simp only [] <;> omega
  | visiting xs r e => cases xs <;> simp only [tick, PC.rank, List.length_cons, List.length_nil] <;> omega
  | leaving r e => simp [tick, PC.rank]
  | asking r => simp [tick, PC.rank]
  | closing r b => simp [tick, PC.rank]
  | done r b => simp [tick, PC.rank]

theorem rank_run (w : World) (calls : Nat → Call) (i : Nat) (sched : List Nat) (s : Sys) :
    ((s.run w calls sched).pcs i).rank (calls i).input (calls i).mode ≤
      (s.pcs i).rank (calls i).input (calls i).mode - sched.count i := by
  induction sched generalizing s with
  | nil => simp [Sys.run]
  | cons j js ih =>
    show (((s.step w calls j).run w calls js).pcs i).rank _ _ ≤ _
    refine Nat.le_trans (ih _) ?_
    by_cases h : j = i
    · subst h
      have := tick_rank w (calls j).input (calls j).mode (s.heap ((calls j).cell j)) (s.pcs j)
      rw [List.count_cons_self]
      simp only [Sys.step, if_true]
      omega
    · rw [List.count_cons_of_ne (by simpa using h)]
      simp [Sys.step, Ne.symm h]

theorem rank_zero {input : Str} {mode : Nat} {pc : PC} (h : pc.rank input mode = 0) :
    ∃ r b, pc = .done r b := by
  cases pc <;> simp [PC.rank] at h
  exact ⟨_, _, rfl⟩

theorem tick_grows (w : World) (input : Str) (mode : Nat) (l : ErrorList) (pc : PC) :
    l <+: (tick w input mode l pc).2.1 := by
  cases pc with
  | reading es =>
    cases es with
    | cons e es => simp [tick]
    | nil =>
      unfold tick
      cases syntaxTree input with
      | none => cases w.crash input <;> exact List.prefix_refl _
      | some tree =>
        simp only
        split
        · exact List.prefix_refl _
        · split
          · exact List.prefix_refl _
          · split <;> exact List.prefix_refl _
  | visiting xs r e => cases xs <;> simp [tick]
  | leaving r e => simp [tick]
  | asking r => simp [tick]
  | closing r b => simp [tick]
  | done r b => simp [tick]

theorem step_grows (w : World) (calls : Nat → Call) (s : Sys) (j : Nat) (a : Cell) :
    s.heap a <+: (s.step w calls j).heap a := by
  by_cases h : a = (calls j).cell j
  · subst h
    simp only [Sys.step, if_true]
    exact tick_grows ..
  · simp [Sys.step, h]

theorem run_grows (w : World) (calls : Nat → Call) (sched : List Nat) (s : Sys) (a : Cell) :
    s.heap a <+: (s.run w calls sched).heap a := by
  induction sched generalizing s with
  | nil => exact List.prefix_refl _
  | cons j js ih => exact (step_grows w calls s j a).trans (ih _)

/-- What is known about a call at each point, whatever the others do. -/
def Ok (w : World) (c : Call) (l : ErrorList) (pc : PC) : Prop :=
  let good (r : Option Schema) := (parseKF w c.input none c.mode).err = none ∧
    (parseKF w c.input none c.mode).result = r
  (∀ e ∈ syntaxErrors w c.input, .real e ∈ l ∨ ∃ todo, pc = .reading todo ∧ e ∈ todo) ∧
  match pc with
  | .reading _ => True
  | .visiting _ r e => e = none → good r
  | .leaving r e => e = none → good r
  | .asking r => l = [] → good r
  | .closing r b => (b = false → good r) ∧ (b = true → l ≠ [])
  | .done r b => (b = false → good r) ∧ (b = true → l ≠ [])

theorem Ok.grow {w : World} {c : Call} {l l' : ErrorList} {pc : PC} (h : Ok w c l pc)
    (hl : l <+: l') : Ok w c l' pc := by
  have hne : l ≠ [] → l' ≠ [] := by
    intro hl' he
    subst he
    exact hl' (List.prefix_nil.1 hl)
  refine ⟨fun e he => (h.1 e he).imp (fun hm => hl.subset hm) id, ?_⟩
  have h2 := h.2
  cases pc with
  | reading _ => trivial
  | visiting _ r e => exact h2
  | leaving r e => exact h2
  | asking r =>
    intro he
    subst he
    exact h2 (List.prefix_nil.1 hl)
  | closing r b => exact ⟨h2.1, fun hb => hne (h2.2 hb)⟩
  | done r b => exact ⟨h2.1, fun hb => hne (h2.2 hb)⟩

theorem good_of_valid {w : World} {c : Call} {tree : Tree} {s : Schema}
    (ht : syntaxTree c.input = some tree)
    (hv : (tVisitSource (c.mode &&& modeTrace != 0) tree).res = .ok s)
    (hs : validate w.toEnv s = none) :
    (parseKF w c.input none c.mode).err = none ∧
    (parseKF w c.input none c.mode).result = some s := by
  have he : syntaxErrors w c.input = [] := by unfold syntaxErrors; rw [ht]
  unfold parseKF
  simp only [ht, he, Option.getD_none, List.map_nil, List.append_nil, ErrorList.isErr,
    List.isEmpty_nil, Bool.not_true, Bool.false_eq_true, if_false, hv, hs]
  simp [finish, Outcome.err, ErrorList.isErr]

theorem Ok.tick {w : World} {c : Call} {l : ErrorList} {pc : PC} (h : Ok w c l pc) :
    Ok w c (tick w c.input c.mode l pc).2.1 (tick w c.input c.mode l pc).1 := by
  have keep : ∀ {pc'}, (∀ todo, pc ≠ .reading todo) → ∀ e ∈ syntaxErrors w c.input,
      Entry.real e ∈ l ∨ ∃ todo, pc' = PC.reading todo ∧ e ∈ todo := by
    intro pc' hr e he
    rcases h.1 e he with hm | ⟨todo, hp, _⟩
    · exact .inl hm
    · exact absurd hp (hr todo)
  cases pc with
  | reading es =>
    cases es with
    | cons e es =>
      refine ⟨fun x hx => ?_, trivial⟩
      simp only [Verif.tick]
      rcases h.1 x hx with hm | ⟨todo, hp, hm⟩
      · exact .inl (List.mem_append_left _ hm)
      · cases hp
        rcases List.mem_cons.1 hm with rfl | hm
        · exact .inl (List.mem_append_right _ (by simp))
        · exact .inr ⟨_, rfl, hm⟩
    | nil =>
      have hm : ∀ {pc'}, ∀ e ∈ syntaxErrors w c.input,
          Entry.real e ∈ l ∨ ∃ todo, pc' = PC.reading todo ∧ e ∈ todo := by
        intro pc' e he
        rcases h.1 e he with hm | ⟨todo, hp, hm⟩
        · exact .inl hm
        · cases hp
          simp at hm
      unfold Verif.tick
      cases ht : syntaxTree c.input with
      | none =>
        cases w.crash c.input with
        | some q => exact ⟨hm, fun he => by cases he⟩
        | none => exact ⟨hm, fun he => by cases he⟩
      | some tree =>
        simp only
        by_cases hl : l.isErr = true
        · simp only [hl, if_true]
          exact ⟨hm, fun he => by cases he⟩
        · simp only [hl]
          cases hv : (tVisitSource (c.mode &&& modeTrace != 0) tree).res with
          | error q => exact ⟨hm, fun he => by cases he⟩
          | ok s =>
            simp only [Bool.false_eq_true, if_false]
            cases hs : validate w.toEnv s with
            | none => exact ⟨hm, fun _ => good_of_valid ht hv hs⟩
            | some f => cases f <;> exact ⟨hm, fun he => by cases he⟩
  | visiting xs r e =>
    cases xs with
    | cons x xs => exact ⟨keep (by simp), h.2⟩
    | nil => exact ⟨keep (by simp), h.2⟩
  | leaving r e =>
    refine ⟨fun x hx => ?_, ?_⟩
    · exact (keep (pc' := .asking r) (by simp) x hx).imp (List.mem_append_left _) id
    · simp only [Verif.tick]
      intro hl
      have := List.append_eq_nil_iff.1 hl
      cases e with
      | none => exact h.2 rfl
      | some e => simp at this
  | asking r =>
    refine ⟨keep (by simp), ?_⟩
    simp only [Verif.tick]
    refine ⟨fun hb => h.2 ?_, fun hb => ?_⟩
    · simpa [ErrorList.isErr] using hb
    · intro hl
      subst hl
      simp [ErrorList.isErr] at hb
  | closing r b => exact ⟨keep (by simp), h.2⟩
  | done r b => exact h

theorem ok_run (w : World) (calls : Nat → Call) (i : Nat) (sched : List Nat) (s : Sys)
    (h : Ok w (calls i) (s.heap ((calls i).cell i)) (s.pcs i)) :
    Ok w (calls i) ((s.run w calls sched).heap ((calls i).cell i)) ((s.run w calls sched).pcs i) := by
  induction sched generalizing s with
  | nil => exact h
  | cons j js ih =>
    refine ih (s.step w calls j) ?_
    by_cases hj : j = i
    · subst hj
      have := h.tick
      simpa only [Sys.step, if_true] using this
    · have hp : (s.step w calls j).pcs i = s.pcs i := by simp [Sys.step, Ne.symm hj]
      rw [hp]
      exact h.grow (step_grows ..)

end Verif
