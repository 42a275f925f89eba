import Verif.Props.PoolCases
/-! C43, C44, C45: what becomes of calls and connections after `Close`, in all executions. -/
namespace Verif.Props
open Verif.Model.Pool Verif.Spec.Pool Verif.Proof.Pool

variable {n : Nat} {l l' l1 l2 : List Ev} {s s' : State} {t t' t0 c : Nat}

theorem shut_once (h : Run (init n) l s) (h1 : Ev.shut t ∈ l) (h2 : Ev.shut t' ∈ l) : t = t' := by
  generalize hi : init n = s0 at h
  induction h with
  | nil => simp at h1
  | @snoc s' s'' l e hr hs ih =>
    subst hi
    simp only [List.mem_append, List.mem_singleton] at h1 h2
    rcases h1 with h1 | h1 <;> rcases h2 with h2 | h2
    · exact ih h1 h2
    · subst h2; have := shut_closed hr (.inl ⟨t, h1⟩); cases hs; simp_all
    · subst h1; have := shut_closed hr (.inl ⟨t', h2⟩); cases hs; simp_all
    · rw [← h1] at h2; cases h2; rfl

/-- **C45**, how often it goes wrong: of all the calls of `Close` at most one returns, whatever it returns; every other
one that comes to an end panics. -/
theorem C45_one_close (h : Run (init n) l s) (hc : Ev.callClose t ∈ l) (hc' : Ev.callClose t' ∈ l) {r r' : Res} (hr : Ev.ret t r ∈ l)
    (hr' : Ev.ret t' r' ∈ l) : t = t' :=
  shut_once h (close_shut h hc (.inr (ret_done h hr))) (close_shut h hc' (.inr (ret_done h hr')))

theorem put_stuck (h : Run s l s') (hc : s.closed = true) (hp : s.pc t = .put c ∨ s.pc t = .panicked (some c)) :
    s'.pc t = .put c ∨ s'.pc t = .panicked (some c) := by
  induction h with
  | nil => exact hp
  | @snoc s' s'' l e hr hs ih =>
    have hcl := shut_closed hr (.inr hc)
    by_cases hte : t = e.thread
    · rcases ih with ih | ih
      · cases hs <;> simp [State.goto, Ev.thread] at * <;> subst hte <;> simp_all
      · cases hs <;> simp [State.goto, Ev.thread] at * <;> subst hte <;> simp_all
    · rw [pc_other hs hte]; exact ih

/-- **C45**, **C43**: every `Send` whose command is done only after `Close` has closed the channel never returns, although
the command was carried out: it panics if it comes to an end.  Its connection stays open for ever. -/
theorem C45_late_send (h : Run (init n) (l1 ++ .shut t0 :: l2) s) (hf : Ev.finish t c true ∈ l2) :
    (∀ r, Ev.ret t r ∉ l1 ++ .shut t0 :: l2) ∧ isOpen c (l1 ++ .shut t0 :: l2) ∧ (¬running (s.pc t) → Ev.panic t ∈ l1 ++ .shut t0 :: l2) := by
  obtain ⟨m1, m2, rfl⟩ := List.append_of_mem hf
  obtain ⟨s1, a, b⟩ := run_cut h (l1 ++ .shut t0 :: (m1 ++ [.finish t c true])) m2 (by simp)
  have hput : s1.pc t = .put c := by
    obtain ⟨s0, -, a2⟩ := run_cut a (l1 ++ .shut t0 :: m1) [.finish t c true] (by simp)
    cases step_of_run a2 rfl
    simp [State.goto]
  have hend := put_stuck b (shut_closed a (.inl ⟨t0, by simp⟩)) (.inl hput)
  refine ⟨fun r hr => ?_, ?_, fun hrun => ?_⟩
  · have := ret_done h hr
    rcases hend with e | e <;> rw [this] at e <;> cases e
  · obtain ⟨st, e, w⟩ := stage_some h c
    have hh : holds (s.pc t) = some c := by rcases hend with e | e <;> rw [e] <;> rfl
    have := (where_held w hh).1
    refine ⟨st, e, ?_⟩
    rcases hend with e | e <;> rw [e] at this <;> simp [heldStage] at this <;> simp [this]
  · rcases hend with e | e
    · rw [e] at hrun; exact absurd trivial hrun
    · exact panicked_ev h e

theorem closer (h : Run (init n) l s) (hp : s.pc t = .drain ∨ ∃ c, s.pc t = .drop c) : Ev.callClose t ∈ l := by
  generalize hi : init n = s0 at h
  induction h with
  | nil => subst hi; simp [init] at hp
  | @snoc s' s'' l e hr hs ih =>
    subst hi
    rw [List.mem_append, List.mem_singleton]
    by_cases hte : t = e.thread
    · cases hs <;> simp [State.goto, Ev.thread] at * <;> subst hte <;> simp_all
    · rw [pc_other hs hte] at hp; exact .inl (ih hp)

/-- **C43**, the connections left in the pool by a `Close`: nothing closes them but another `Close` (which panics), or a
later `Send` that takes the connection and fails. -/
theorem C43_left (h : Run (init n) l s) (hs : Ev.shut t0 ∈ l) (hq : c ∈ s.queue) (h' : Run s l' s') (hc : Ev.close t c ∈ l') :
    Ev.finish t c false ∈ l' ∨ Ev.callClose t ∈ l ++ l' := by
  have hcl := shut_closed h (.inl ⟨t0, hs⟩)
  have hfree : ∀ t, holds (s.pc t) ≠ some c := by
    obtain ⟨st, -, w⟩ := stage_some h c
    cases w with
    | absent _ a _ => exact absurd hq a
    | queued _ _ a => exact a
    | closed _ a _ => exact absurd hq a
    | held _ a => exact absurd hq a
  have key : ∀ {l' : List Ev} {s' : State}, Run s l' s' → (∀ t, s'.pc t ≠ .full c ∧ (s'.pc t = .bad c → Ev.finish t c false ∈ l')) ∧
      ∀ t, Ev.close t c ∈ l' → Ev.finish t c false ∈ l' ∨ Ev.callClose t ∈ l ++ l' := by
    intro l' s' h'
    induction h' with
    | nil => exact ⟨fun t => ⟨fun e => hfree t (by rw [e]; rfl), fun e => absurd (by rw [e]; rfl) (hfree t)⟩, by simp⟩
    | @snoc s' s'' l' e hr hst ih =>
      have hcl' := shut_closed hr (.inr hcl)
      obtain ⟨i1, i2⟩ := ih
      refine ⟨fun t => ?_, fun t hm => ?_⟩
      · rw [List.mem_append, List.mem_singleton]
        by_cases hte : t = e.thread
        · have := i1 t
          cases hst <;> simp [State.goto, Ev.thread] at * <;> subst hte <;> simp_all
        · rw [pc_other hst hte]
          exact ⟨(i1 t).1, fun e => .inl ((i1 t).2 e)⟩
      · rw [← List.append_assoc]
        simp only [List.mem_append, List.mem_singleton] at hm ⊢
        rcases hm with hm | hm
        · rcases i2 t hm with x | x
          · exact .inl (.inl x)
          · exact .inr (.inl (List.mem_append.mp x))
        · subst hm
          cases hst with
          | closeBad hp => exact .inl (.inl ((i1 t).2 hp))
          | closeFull hp => exact absurd hp (i1 t).1
          | closeDrop hp => exact .inr (.inl (List.mem_append.mp (closer (run_append h hr) (.inr ⟨c, hp⟩))))
  exact (key h').2 t hc

theorem untouched (h : Run s l s') (ht : ∀ e ∈ l, e.thread ≠ t) : s'.pc t = s.pc t := by
  induction h with
  | nil => rfl
  | snoc hr hs ih =>
    rw [pc_other hs (Ne.symm (ht _ (by simp))), ih fun e he => ht e (by simp [he])]

/-- There is always another call to make. -/
theorem fresh_call (l : List Ev) : ∃ t, ∀ e ∈ l, e.thread ≠ t := by
  have : ∃ k, ∀ e ∈ l, e.thread < k := by
    induction l with
    | nil => exact ⟨0, by simp⟩
    | cons a l ih =>
      obtain ⟨k, hk⟩ := ih
      refine ⟨max k (a.thread + 1), fun e he => ?_⟩
      rcases List.mem_cons.mp he with rfl | he
      · omega
      · have := hk e he; omega
  obtain ⟨k, hk⟩ := this
  exact ⟨k, fun e he => by have := hk e he; omega⟩

/-- **C44**, exactly: after a `Close` has returned, every `Send` called later returns `ErrPoolClosed` or its context's error and opens and
uses no connection, whatever else goes on, if and only if no connection was left in the pool. -/
theorem C44_exact (h : Run (init n) l s) (hc : Ev.callClose t ∈ l) {r0 : Res} (hr : Ev.ret t r0 ∈ l) :
    (∀ l' s' t', Run s l' s' → Ev.callSend t' ∈ l' →
      (∀ r, Ev.ret t' r ∈ l' → r = .poolClosed ∨ r = .ctx) ∧ (∀ c, Ev.opened t' c ∉ l') ∧ (∀ c, Ev.begin t' c ∉ l') ∧ Ev.panic t' ∉ l') ↔
    puts l = takes l := by
  refine ⟨fun hall => ?_, fun hq l' s' t' h' ht' => C44_partial h hc hr hq h' ht'⟩
  have hf := (inv_run (inv_init n) h).fifo
  rw [List.nil_append] at hf
  cases hq : s.queue with
  | nil => rw [← hf, hq, List.append_nil]
  | cons c q =>
    exfalso
    obtain ⟨t', ht'⟩ := fresh_call l
    have hi : s.pc t' = .idle := untouched h ht'
    have r1 := Run.snoc (.nil s) (.callSend hi)
    have r2 := Run.snoc r1 (.take (t := t') (c := c) (q := q) (by simp [State.goto]) hq)
    have r3 := Run.snoc r2 (.begin (t := t') (c := c) (by simp [State.goto]))
    exact (hall _ _ t' r3 (by simp)).2.2.1 c (by simp)

/-- **C43**, exactly: when no call is running, all connections ever made are closed if and only if none was left in the pool and none was
in the hands of a call that panicked. -/
theorem C43_exact (h : Run (init n) l s) (hq : ∀ t, ¬running (s.pc t)) :
    (∀ c, c < made l → stage c l = some .closed) ↔ puts l = takes l ∧ ∀ t c, s.pc t ≠ .panicked (some c) := by
  have hf := (inv_run (inv_init n) h).fifo
  rw [List.nil_append] at hf
  have hw : ∀ c, ∃ st, stage c l = some st ∧ Where s c st := by simpa using (inv_run (inv_init n) h).where
  have hm := made_run h
  constructor
  · intro hall
    have hcl : ∀ c, c < s.next → c ∉ s.queue ∧ ∀ t, holds (s.pc t) ≠ some c := by
      intro c hc
      obtain ⟨st, a, b⟩ := hw c
      rw [hall c (hm ▸ hc)] at a
      cases a
      cases b with
      | closed _ h1 h2 => exact ⟨h1, h2⟩
      | held _ _ _ _ hst => unfold heldStage at hst; split at hst <;> cases hst
    refine ⟨?_, fun t c hp => ?_⟩
    · cases hq : s.queue with
      | nil => rw [← hf, hq, List.append_nil]
      | cons c q =>
        have hc : c ∈ s.queue := by rw [hq]; exact List.mem_cons_self ..
        obtain ⟨st, _, b⟩ := hw c
        cases b with
        | absent _ h1 _ => exact absurd hc h1
        | queued h1 _ _ => exact absurd hc (hcl c h1).1
        | held _ h1 => exact absurd hc h1
        | closed _ h1 _ => exact absurd hc h1
    · have hh : holds (s.pc t) = some c := by rw [hp]; rfl
      obtain ⟨st, _, b⟩ := hw c
      exact (hcl c (where_held b hh).2).2 t hh
  · rintro ⟨h1, h2⟩ c hc
    have hqe : s.queue = [] := by
      rw [h1] at hf
      simpa using hf
    obtain ⟨st, a, b⟩ := hw c
    cases b with
    | absent h3 => omega
    | queued _ h3 _ => rw [hqe] at h3; cases h3
    | closed => exact a
    | @held _ _ t _ ht _ _ =>
      exfalso
      have hr := hq t
      cases hp : s.pc t with
      | panicked o =>
        rw [hp] at ht
        exact h2 t c (by rw [hp]; exact congrArg _ ht)
      | _ => rw [hp] at hr ht; first | exact hr trivial | cases ht

/-! ### cases -/

/-- For `C45_one_close`: a `Close` that returns, and another that panics. -/
example : outcome 1 ([.close 0, .go 0, .go 0, .go 0] ++ [.close 1, .go 1, .go 1]) =
    some ([.callClose 0, .tau 0, .shut 0, .ret 0 .ok, .callClose 1, .tau 1, .panic 1], [], true) := by decide +kernel

/-- For `C45_late_send`: the command is done after `Close` has returned. -/
example : outcome 1 ([.send 0, .go 0, .go 0, .go 0] ++ [.close 1, .go 1, .go 1, .go 1] ++ [.go 0, .go 0]) =
    some ([.callSend 0, .miss 0, .opened 0 0, .begin 0 0, .callClose 1, .tau 1] ++ .shut 1 :: [.ret 1 .ok, .finish 0 0 true, .panic 0], [], true) := by
  decide +kernel

/-- For `C43_left`: the connection left in the pool is taken by a `Send`, which fails and closes it. -/
example : outcome 1 (leftover ++ [.send 2, .go 2, .go 2, .fail 2, .go 2]) =
    some (leftoverEvs ++ [.callSend 2, .take 2 0, .begin 2 0, .finish 2 0 false, .close 2 0], [], true) := by decide +kernel

/-- The same, by another `Close`. -/
example : outcome 1 (leftover ++ [.close 2, .go 2, .go 2, .go 2, .go 2]) =
    some (leftoverEvs ++ [.callClose 2, .take 2 0, .close 2 0, .tau 2, .panic 2], [], true) := by decide +kernel

/-- For `C44_exact` and `C43_exact`: after `leftover` a connection is left, and no call is running (`leftover_quiet`). -/
example : puts leftoverEvs ≠ takes leftoverEvs := by decide

/-- After a `Close` that nobody disturbs none is. -/
example : ∃ l, outcome 1 [.send 0, .go 0, .go 0, .go 0, .go 0, .go 0, .go 0, .close 1, .go 1, .go 1, .go 1, .go 1, .go 1] = some (l, [], true) ∧
    Ev.put 0 0 ∈ l ∧ Ev.ret 1 .ok ∈ l ∧ puts l = takes l ∧ stage 0 l = some .closed := ⟨_, rfl, by decide, by decide, by decide, by decide⟩

end Verif.Props
