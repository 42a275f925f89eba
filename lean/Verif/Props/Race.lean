import Verif.Proof.Race
import Verif.Props.PoolCases
/-! C79: no two goroutines touch a connection without synchronisation. -/
namespace Verif.Props
open Verif.Model.Pool Verif.Spec.Pool Verif.Spec.Race Verif.Proof.Pool Verif.Proof.Race

variable {n i j : Nat} {l : List Ev} {s : State}

/-- **C79** Whatever calls of `Send` and `Close` are made at once, any two events that touch the same connection (its set-up, the
start and the end of each `Send`, its closing) are ordered by the rules of Go's memory model: the program order within a
goroutine, and the k-th send on the channel before the k-th receive. -/
theorem C79_race_free (h : Run (init n) l s) : RaceFree l := (Proof.Race.run h).1.race

/-- The order is one: it agrees with the execution, so no event happens before itself. -/
theorem C79_order (h : Run (init n) l s) (hb : Before l i j) : i < j := before_lt h hb

/-- Who has a connection in its hands sees everything done with it before: each earlier event that touches it is one of the call's own,
or happens before one of them. -/
theorem C79_sees (h : Run (init n) l s) {e : Ev} {c t : Nat} (he : l[i]? = some e) (hc : touches e = some c)
    (ht : holds (s.pc t) = some c) : ∃ (j : Nat) (f : Ev), l[j]? = some f ∧ Spec.Race.own f = true ∧ f.thread = t ∧ (i = j ∨ Before l i j) :=
  (Proof.Race.run h).1.held he hc ht

/-- Without receives nothing orders the events of two goroutines. -/
theorem before_thread (h : takes l = []) (hb : Before l i j) :
    ∃ e f, l[i]? = some e ∧ l[j]? = some f ∧ e.thread = f.thread := by
  induction hb with
  | program _ h1 h2 _ _ h3 => exact ⟨_, _, h1, h2, h3⟩
  | @channel i j t t' c c' _ h2 _ =>
    have hm : Ev.take t' c' ∈ l := List.mem_of_getElem? h2
    have hx : c' ∈ takes l := List.mem_filterMap.mpr ⟨_, hm, rfl⟩
    rw [h] at hx; cases hx
  | trans _ _ ih1 ih2 =>
    obtain ⟨e, f, h1, h2, h3⟩ := ih1
    obtain ⟨f', g, h4, h5, h6⟩ := ih2
    rw [h2] at h4; cases h4
    exact ⟨e, g, h1, h5, h3.trans h6⟩

/-- Races would be seen: a connection that one call made and another one uses, without the channel in between. -/
example : ¬RaceFree [.callSend 0, .callSend 1, .miss 0, .opened 0 0, .begin 1 0] := by
  intro h
  obtain ⟨e, f, h1, h2, h3⟩ := before_thread (by decide) (h 3 4 _ _ 0 (by decide) rfl rfl rfl rfl)
  cases h1; cases h2; cases h3

/-- A connection goes through three goroutines: two `Send`s and the `Close` that closes it. -/
def handOn : List Ev := [.callSend 0, .miss 0, .opened 0 0, .begin 0 0, .finish 0 0 true, .put 0 0, .ret 0 .ok,
  .callSend 1, .take 1 0, .begin 1 0, .finish 1 0 true, .put 1 0, .ret 1 .ok, .callClose 2, .take 2 0, .close 2 0]

theorem handOn_outcome : outcome 1 (almost 0 ++ [.go 0, .go 0] ++ almost 1 ++ [.go 1] ++ [.close 2, .go 2, .go 2]) =
    some (handOn, [], false) := by decide +kernel

example : Before handOn 2 15 := by
  obtain ⟨s, -, hr, -, -⟩ := outcome_run handOn_outcome
  exact C79_race_free hr 2 15 (.opened 0 0) (.close 2 0) 0 (by decide) rfl rfl rfl rfl

end Verif.Props
