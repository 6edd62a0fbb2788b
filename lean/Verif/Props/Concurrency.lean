import Verif.Proof.Threads
import Verif.Props.Samples
/-!
# C52: calls at the same time

`(Sys.start w calls clients).run w calls sched` is the state of the program
after any number of calls of `ParseKF` have been started and have made the
steps of the schedule `sched`, in this order; `pcs i` tells how far call
number `i` is.
-/

namespace Verif

/-- No other call uses the listener of call `i`.  (This is so if the call has a
nil listener.) -/
def Unshared (calls : Nat → Call) (i : Nat) : Prop :=
  ∀ j, j ≠ i → ∀ k, (calls i).listener = some k → (calls j).listener ≠ some k

theorem Unshared.cells {calls : Nat → Call} {i : Nat} (h : Unshared calls i) :
    ∀ j, j ≠ i → (calls j).cell j ≠ (calls i).cell i := by
  intro j hj hc
  unfold Call.cell at hc
  cases hi : (calls i).listener with
  | none =>
    rw [hi] at hc
    cases hl : (calls j).listener with
    | none => rw [hl] at hc; cases hc; exact hj rfl
    | some k => rw [hl] at hc; cases hc
  | some k =>
    rw [hi] at hc
    cases hl : (calls j).listener with
    | none => rw [hl] at hc; cases hc
    | some k' => rw [hl] at hc; cases hc; exact h j hj k hi hl

/-- C52. Whatever the other calls are, and in whatever order the steps are made:
a call that does not share its listener ends with the outcome it has by itself
(result, error, content of the listener, and lines printed), and what it left
in the listener never changes afterwards. -/
theorem C52_no_interference (w : World) (calls : Nat → Call) (clients : Nat → ErrorList) (i : Nat)
    (hi : Unshared calls i) (sched : List Nat) (r : Option Schema) (failed : Bool)
    (hd : ((Sys.start w calls clients).run w calls sched).pcs i = .done r failed) :
    let o := parseKF w (calls i).input ((calls i).listener.map clients) (calls i).mode
    let s := (Sys.start w calls clients).run w calls sched
    r = o.result ∧ (failed = true ↔ o.err ≠ none) ∧ s.heap ((calls i).cell i) = o.errors ∧
    s.printedBy i = o.printed := by
  intro o s
  have hv := view_run w calls i hi.cells sched (Sys.start w calls clients)
  have hs : (Sys.start w calls clients).view calls i =
      (.reading (syntaxErrors w (calls i).input), ((calls i).listener.map clients).getD [], []) := by
    unfold Sys.view Sys.start Call.cell Sys.printedBy
    cases (calls i).listener <;> simp
  rw [hs] at hv
  obtain ⟨n, hn⟩ := iter_ends w (calls i) ((calls i).listener.map clients)
  have hview : s.view calls i = (.done r failed, s.heap ((calls i).cell i), s.printedBy i) := by
    unfold Sys.view; rw [hd]
  -- both ends are ends
  have h1 := congrArg (iter w (calls i) n) hv
  rw [← iter_add, Nat.add_comm, iter_add, hn] at h1
  unfold ended at h1
  rw [iter_done] at h1
  rw [show (Sys.run w calls (Sys.start w calls clients) sched).view calls i = s.view calls i from rfl,
    hview, iter_done] at h1
  simp only [Prod.mk.injEq, PC.done.injEq] at h1
  obtain ⟨⟨h1, h2⟩, h3, h4⟩ := h1
  refine ⟨h1, ?_, h3, h4⟩
  rw [h2]
  show o.errors.isErr = true ↔ (if o.errors.isErr then some o.errors else none) ≠ none
  cases o.errors.isErr <;> simp

/-- C52: no call waits for another one.  There is a number of steps, fixed by
the text and the mode, after which a call has returned, whatever the others do
and whether they share its listener or not. -/
theorem C52_progress (w : World) (c : Call) : ∃ n, ∀ (calls : Nat → Call)
    (clients : Nat → ErrorList) (i : Nat) (sched : List Nat), calls i = c → n ≤ sched.count i →
    ∃ r failed, ((Sys.start w calls clients).run w calls sched).pcs i = .done r failed := by
  refine ⟨(PC.reading (syntaxErrors w c.input)).rank c.input c.mode, ?_⟩
  rintro calls clients i sched rfl hn
  have := rank_run w calls i sched (Sys.start w calls clients)
  refine rank_zero (input := (calls i).input) (mode := (calls i).mode) (Nat.le_zero.1 ?_)
  refine Nat.le_trans this ?_
  have : (Sys.start w calls clients).pcs i = .reading (syntaxErrors w (calls i).input) := rfl
  rw [this]
  omega

/-- C52, for calls that share a listener (with appends as single steps): a nil
error is right, that is, the text by itself is accepted, with the same result;
no reported error is lost; an error stays in the list; and if an error is
returned, its list is not empty.  What does not hold: a text that is accepted
by itself may be rejected because of the errors of another call (see the
example below). -/
theorem C52_shared (w : World) (calls : Nat → Call) (clients : Nat → ErrorList) (i : Nat)
    (sched more : List Nat) (r : Option Schema) (failed : Bool)
    (hd : ((Sys.start w calls clients).run w calls sched).pcs i = .done r failed) :
    let alone := parseKF w (calls i).input none (calls i).mode
    let s := (Sys.start w calls clients).run w calls sched
    let later := s.run w calls more
    (failed = false → alone.err = none ∧ alone.result = r) ∧
    (failed = true → s.heap ((calls i).cell i) ≠ []) ∧
    (∀ e ∈ syntaxErrors w (calls i).input, .real e ∈ s.heap ((calls i).cell i)) ∧
    (∀ a, s.heap a <+: later.heap a) := by
  intro alone s later
  have h0 : Ok w (calls i) ((Sys.start w calls clients).heap ((calls i).cell i))
      ((Sys.start w calls clients).pcs i) :=
    ⟨fun e he => .inr ⟨_, rfl, he⟩, trivial⟩
  have h := ok_run w calls i sched _ h0
  rw [hd] at h
  refine ⟨h.2.1, h.2.2, ?_, fun a => run_grows ..⟩
  intro e he
  rcases h.1 e he with hm | ⟨todo, hp, _⟩
  · exact hm
  · cases hp

/-- Two texts, read at the same time, step by step in turn: each call ends as it
would alone. -/
example :
    let calls : Nat → Call := fun i =>
      if i = 0 then ⟨"database d;table t{a int}".toList, none, 1⟩ else ⟨"database".toList, none, 1⟩
    let s := (Sys.start Sample.world calls fun _ => []).run Sample.world calls
      [0, 1, 0, 1, 1, 0, 1, 0, 1, 0, 1]
    s.pcs 0 = .done (some ⟨[], ['d'], some [⟨['t'], some [⟨['a'], "int".toList, none⟩], none, none⟩],
      none, none⟩) false ∧ s.pcs 1 = .done none true := by
  decide +kernel

/-- The same with one listener for both: the correct text is rejected. -/
example :
    let calls : Nat → Call := fun i =>
      if i = 0 then ⟨"database d;table t{a int}".toList, some 0, 1⟩ else ⟨"database".toList, some 0, 1⟩
    let s := (Sys.start Sample.world calls fun _ => []).run Sample.world calls
      [1, 1, 0, 1, 0, 1, 0, 1, 0, 0]
    s.pcs 0 = .done none true := by
  decide +kernel

end Verif
