import Verif.Props.PoolResults
/-! Cases that meet the hypotheses of C40 - C46, C56, C57, and executions that show what is false of C43, C44, C45. -/
namespace Verif.Props
open Verif.Model.Pool Verif.Spec.Pool Verif.Proof.Pool

variable {n : Nat} {l l' l1 l2 : List Ev} {s s' : State} {t t' c : Nat}

/-! ### cases and counterexamples -/

/-- A run, as far as it can be compared: the events, what the pool holds, whether it is closed. -/
def outcome (n : Nat) (ds : List Do) : Option (List Ev × List Nat × Bool) := (play (init n) ds).map fun x => (x.1, x.2.queue, x.2.closed)

theorem outcome_run {ds : List Do} {q : List Nat} {b : Bool} (h : outcome n ds = some (l, q, b)) :
    ∃ s, play (init n) ds = some (l, s) ∧ Run (init n) l s ∧ s.queue = q ∧ s.closed = b := by
  simp only [outcome, Option.map_eq_some_iff] at h
  obtain ⟨⟨l', s⟩, h1, h2⟩ := h
  simp at h2
  obtain ⟨rfl, rfl, rfl⟩ := h2
  exact ⟨s, h1, play_run h1, rfl, rfl⟩

/-- Two `Send`s at once, a pool of one: two connections; the second one put back does not fit and is closed.  A third
`Send` reuses the first connection, and fails. -/
example : outcome 1 ([.send 0, .send 1] ++ [.go 0, .go 1, .go 0, .go 1, .go 0, .go 1, .go 1, .go 0, .go 1, .go 0, .go 0, .go 1, .go 0] ++
      [.send 2, .go 2, .go 2, .fail 2, .go 2, .go 2]) =
    some ([.callSend 0, .callSend 1, .miss 0, .miss 1, .opened 0 0, .opened 1 1, .begin 0 0, .begin 1 1, .finish 1 1 true, .finish 0 0 true,
      .put 1 1, .tau 0, .close 0 0, .ret 1 .ok, .ret 0 .ok,
      .callSend 2, .take 2 1, .begin 2 1, .finish 2 1 false, .close 2 1, .ret 2 .send], [], false) := by decide +kernel

/-- A `Send` up to the moment before it puts its connection back. -/
def almost (t : Nat) : List Do := [.send t, .go t, .go t, .go t, .go t]

/-- For C43, C44, C45: a `Send`, then `Close`, then a `Send`. -/
example : outcome 1 (almost 0 ++ [.go 0, .go 0] ++ [.close 1, .go 1, .go 1, .go 1, .go 1, .go 1] ++ [.send 2, .go 2, .go 2]) =
    some ([.callSend 0, .miss 0, .opened 0 0, .begin 0 0, .finish 0 0 true, .put 0 0, .ret 0 .ok,
      .callClose 1, .take 1 0, .close 1 0, .tau 1, .shut 1, .ret 1 .ok, .callSend 2, .tau 2, .ret 2 .poolClosed], [], true) := by decide +kernel

/-- A connection put back after `Close` found the pool empty, before it closes the channel. -/
def leftover : List Do := almost 0 ++ [.close 1, .go 1] ++ [.go 0] ++ [.go 1, .go 1] ++ [.go 0]

def leftoverEvs : List Ev := [.callSend 0, .miss 0, .opened 0 0, .begin 0 0, .finish 0 0 true, .callClose 1, .tau 1, .put 0 0, .shut 1, .ret 1 .ok, .ret 0 .ok]

theorem leftover_outcome : outcome 1 leftover = some (leftoverEvs, [0], true) := by decide +kernel

/-- Each call is over. -/
theorem leftover_quiet : ∃ s, Run (init 1) leftoverEvs s ∧ s.queue = [0] ∧ s.closed = true ∧ ∀ t, ¬running (s.pc t) := by
  obtain ⟨s, -, hr, hq, hc⟩ := outcome_run leftover_outcome
  refine ⟨s, hr, hq, hc, fun t => ?_⟩
  by_cases h0 : t = 0
  · subst h0
    rw [ret_done hr (r := .ok) (by simp [leftoverEvs])]
    simp [running]
  · by_cases h1 : t = 1
    · subst h1
      rw [ret_done hr (r := .ok) (by simp [leftoverEvs])]
      simp [running]
    · rw [pc_run hr (t := t) (by simp [leftoverEvs, Ev.thread]; omega)]
      simp [running, init]

/-- **C43** is false: a connection put back while `Close` is returning stays open, in a pool that nobody can empty. -/
theorem C43_wrong : ¬C43_full := by
  intro h
  obtain ⟨s, hr, hq, hc, hn⟩ := leftover_quiet
  have := (h _ _ _ hr).2 1 (by simp [leftoverEvs]) (by simp [leftoverEvs]) hn 0 (by decide)
  revert this
  decide +kernel

/-- **C43** is false also because a `Send` that finishes after `Close` panics and loses its connection: it is neither in
the pool, nor in the hands of a running call, nor closed. -/
theorem C43_panic_wrong : ∃ l s, Run (init 1) l s ∧ 0 < made l ∧ 0 ∉ s.queue ∧ (∀ t, running (s.pc t) → holds (s.pc t) ≠ some 0) ∧ stage 0 l = some .idle := by
  have ho : outcome 1 (almost 0 ++ [.close 1, .go 1, .go 1, .go 1, .go 0]) =
    some ([.callSend 0, .miss 0, .opened 0 0, .begin 0 0, .finish 0 0 true, .callClose 1, .tau 1, .shut 1, .ret 1 .ok, .panic 0], [], true) := by decide +kernel
  obtain ⟨s, hs, hr, hq, -⟩ := outcome_run ho
  refine ⟨_, s, hr, by decide, by simp [hq], fun t ht hh => ?_, by decide +kernel⟩
  rcases C43_places_partial hr (c := 0) (by decide) with ⟨a, -, -⟩ | ⟨-, t', ⟨a, a'⟩, b⟩ | ⟨-, a, -⟩
  · simp [hq] at a
  · have hp : ((play (init 1) (almost 0 ++ [.close 1, .go 1, .go 1, .go 1, .go 0])).map fun x => x.2.pc 0) = some (.panicked (some 0)) := by decide +kernel
    rw [hs] at hp
    simp at hp
    have h0 := b 0 (by rw [hp]; rfl)
    have h1 := b t hh
    subst h1
    rw [← h0, hp] at ht
    exact ht
  · exact a t hh

/-- **C44** is false: that connection is handed to a `Send` called later. -/
theorem C44_wrong : ¬C44_full := by
  intro h
  have ho : outcome 1 (leftover ++ [.send 2, .go 2, .go 2]) = some (leftoverEvs ++ [.callSend 2, .take 2 0, .begin 2 0], [], true) := by decide +kernel
  obtain ⟨s', -, hr, -, -⟩ := outcome_run ho
  obtain ⟨s, a, b⟩ := run_cut hr leftoverEvs [.callSend 2, .take 2 0, .begin 2 0] rfl
  exact (h 1 _ s _ s' 1 2 a (by simp [leftoverEvs]) (by simp [leftoverEvs]) b (by simp)).2.2.1 0 (by simp)

/-- **C45** is false: calling `Close` twice panics. -/
theorem C45_wrong : ¬C45_full := by
  intro h
  have ho : outcome 1 [.close 0, .go 0, .go 0, .go 0, .close 1, .go 1, .go 1] =
      some ([.callClose 0, .tau 0, .shut 0, .ret 0 .ok, .callClose 1, .tau 1, .panic 1], [], true) := by decide +kernel
  obtain ⟨s, -, hr, -, -⟩ := outcome_run ho
  exact h _ _ _ hr 1 (by simp)

/-- **C45** is false: a `Send` that is running when `Close` finishes panics. -/
theorem C45_send_wrong : ∃ l s, Run (init 1) l s ∧ Ev.callSend 0 ∈ l ∧ Ev.panic 0 ∈ l := by
  have ho : outcome 1 (almost 0 ++ [.close 1, .go 1, .go 1, .go 1, .go 0]) =
    some ([.callSend 0, .miss 0, .opened 0 0, .begin 0 0, .finish 0 0 true, .callClose 1, .tau 1, .shut 1, .ret 1 .ok, .panic 0], [], true) := by decide +kernel
  obtain ⟨s, -, hr, -, -⟩ := outcome_run ho
  exact ⟨_, s, hr, by simp, by simp⟩

/-- **C45** is false: a `Close` whose context is cancelled leaves connections open in the closed pool. -/
theorem C45_cancelled_wrong : ∃ l s, Run (init 1) l s ∧ Ev.ret 1 .ctx ∈ l ∧ s.closed = true ∧ s.queue = [0] ∧ stage 0 l = some .idle := by
  have ho : outcome 1 (almost 0 ++ [.go 0, .go 0, .close 1, .cancel 1, .ctx 1, .go 1, .go 1]) =
    some ([.callSend 0, .miss 0, .opened 0 0, .begin 0 0, .finish 0 0 true, .put 0 0, .ret 0 .ok, .callClose 1, .cancel 1, .tau 1, .shut 1, .ret 1 .ctx], [0], true) := by
    decide +kernel
  obtain ⟨s, -, hr, hq, hc⟩ := outcome_run ho
  exact ⟨_, s, hr, by simp, hc, hq, by decide +kernel⟩

/-- Three calls of `Send`, one whose context is done, one whose connection fails, one that succeeds; then a `Close`, and a
`Send` after it. -/
example : (outcome 1 ([.send 0, .cancel 0, .ctx 0, .go 0] ++ [.send 1, .go 1, .go 1, .go 1, .fail 1, .go 1, .go 1] ++ almost 2 ++ [.go 2, .go 2] ++
      [.close 3, .go 3, .go 3, .go 3, .go 3, .go 3] ++ [.send 4, .go 4, .go 4])).map (fun x => (deeds 0 x.1, deeds 1 x.1, deeds 2 x.1, deeds 3 x.1, deeds 4 x.1)) =
    some ([], [.miss 1, .opened 1 0, .begin 1 0, .finish 1 0 false, .close 1 0], [.miss 2, .opened 2 1, .begin 2 1, .finish 2 1 true, .put 2 1],
      closeDeeds 3 [1], []) := by decide +kernel

/-- For C58: a pool of size 1 with one connection in it and two in use, by the two calls that have not returned. -/
example : (outcome 1 (almost 0 ++ almost 1 ++ almost 2 ++ [.go 0, .go 0])).map (fun x => (unfinished x.1, [0, 1, 2].map (stage · x.1))) =
    some ([1, 2], [some .idle, some .idle, some .idle]) := by decide +kernel

end Verif.Props
