import Verif.Proof.Pool
/-! C40 - C46, C56: the connection pool.  Cases and counterexamples are in PoolCases. -/
namespace Verif.Props
open Verif.Model.Pool Verif.Spec.Pool Verif.Proof.Pool

variable {n : Nat} {l l' l1 l2 : List Ev} {s s' : State} {t t' c : Nat}

/-! ### auxiliary -/

def stageFrom (c : Nat) (st : Option Stage) (l : List Ev) : Option Stage := l.foldl (fun st e => st.bind (advance c · e)) st

theorem stageFrom_none (c : Nat) (l : List Ev) : stageFrom c none l = none := by
  induction l with
  | nil => rfl
  | cons e l ih => exact ih

theorem stageFrom_cons (c : Nat) (st : Stage) (e : Ev) (l : List Ev) : stageFrom c (some st) (e :: l) = stageFrom c (advance c st e) l := rfl

theorem stage_append (c : Nat) (l1 l2 : List Ev) : stage c (l1 ++ l2) = stageFrom c (stage c l1) l2 := by simp [stage, stageFrom]

theorem stage_some (h : Run (init n) l s) (c : Nat) : ∃ st, stage c l = some st ∧ Where s c st := by
  have := (inv_run (inv_init n) h).where c
  simpa using this

theorem closed_stays {st : Stage} (h : stageFrom c (some .closed) l = some st) :
    st = .closed ∧ ∀ t, Ev.begin t c ∉ l ∧ Ev.close t c ∉ l ∧ ∀ ok, Ev.finish t c ok ∉ l := by
  induction l with
  | nil => simp [stageFrom] at h; exact ⟨h.symm, by simp⟩
  | cons e l ih =>
    rw [stageFrom_cons] at h
    cases ha : advance c .closed e with
    | none => rw [ha, stageFrom_none] at h; cases h
    | some st' =>
      have hst : st' = .closed ∧ ∀ t, e ≠ .begin t c ∧ e ≠ .close t c ∧ ∀ ok, e ≠ .finish t c ok := by
        cases e <;> simp [advance] at ha <;> simp_all
        all_goals first | (rintro rfl; simp at ha) | skip
      rw [ha, hst.1] at h
      obtain ⟨a, b⟩ := ih h
      refine ⟨a, fun t => ?_⟩
      have := hst.2 t
      have := b t
      simp only [List.mem_cons, not_or]
      refine ⟨⟨Ne.symm (hst.2 t).1, (b t).1⟩, ⟨Ne.symm (hst.2 t).2.1, (b t).2.1⟩, fun ok => ⟨Ne.symm ((hst.2 t).2.2 ok), (b t).2.2 ok⟩⟩

theorem broken_stays {st : Stage} (h : stageFrom c (some (.broken t)) l = some st) :
    (st = .broken t ∨ st = .closed) ∧ ∀ t, Ev.begin t c ∉ l := by
  induction l with
  | nil => simp [stageFrom] at h; exact ⟨.inl h.symm, by simp⟩
  | cons e l ih =>
    rw [stageFrom_cons] at h
    cases ha : advance c (.broken t) e with
    | none => rw [ha, stageFrom_none] at h; cases h
    | some st' =>
      have hst : (st' = .broken t ∨ st' = .closed) ∧ ∀ t, e ≠ .begin t c := by
        cases e <;> simp [advance] at ha <;> simp_all
        case close t1 c1 =>
          split at ha
          · split at ha <;> simp at ha
            exact .inr ha.symm
          · simp at ha; exact .inl ha.symm
        all_goals first | (rintro rfl; simp at ha) | skip
      rw [ha] at h
      rcases hst with ⟨rfl | rfl, h2⟩
      · obtain ⟨a, b⟩ := ih h
        exact ⟨a, fun t => by simp only [List.mem_cons, not_or]; exact ⟨Ne.symm (h2 t), b t⟩⟩
      · obtain ⟨a, b⟩ := closed_stays h
        exact ⟨.inr a, fun t => by simp only [List.mem_cons, not_or]; exact ⟨Ne.symm (h2 t), (b t).1⟩⟩

theorem busy_stays {st : Stage} (hf : ∀ ok, Ev.finish t c ok ∉ l) (h : stageFrom c (some (.busy t)) l = some st) :
    st = .busy t ∧ ∀ t', Ev.begin t' c ∉ l ∧ Ev.close t' c ∉ l := by
  induction l with
  | nil => simp [stageFrom] at h; exact ⟨h.symm, by simp⟩
  | cons e l ih =>
    rw [stageFrom_cons] at h
    simp only [List.mem_cons, not_or] at hf
    cases ha : advance c (.busy t) e with
    | none => rw [ha, stageFrom_none] at h; cases h
    | some st' =>
      have hst : st' = .busy t ∧ ∀ t', e ≠ .begin t' c ∧ e ≠ .close t' c := by
        cases e <;> simp [advance] at ha <;> simp_all
        case finish t1 c1 ok =>
          by_cases e : c1 = c
          · simp [e] at ha
            obtain ⟨rfl, _⟩ := ha
            cases ok
            · exact absurd (hf.1.1 rfl e.symm) (by simp)
            · exact absurd (hf.2.1 rfl e.symm) (by simp)
          · simp [e] at ha; exact ha.symm
        all_goals first | (rintro rfl; simp at ha) | skip
      rw [ha, hst.1] at h
      obtain ⟨a, b⟩ := ih (fun ok => (hf ok).2) h
      refine ⟨a, fun t' => ?_⟩
      simp only [List.mem_cons, not_or]
      exact ⟨⟨Ne.symm (hst.2 t').1, (b t').1⟩, ⟨Ne.symm (hst.2 t').2, (b t').2⟩⟩

theorem begin_stage (h : Run (init n) (l1 ++ .begin t c :: l2) s) : ∃ st, stageFrom c (some (.busy t)) l2 = some st := by
  obtain ⟨st, a, -⟩ := stage_some h c
  rw [stage_append] at a
  cases hs : stage c l1 with
  | none => rw [hs, stageFrom_none] at a; cases a
  | some st1 =>
    rw [hs, stageFrom_cons] at a
    by_cases e : st1 = .idle
    · simp [advance, e] at a; exact ⟨st, a⟩
    · simp [advance, e, stageFrom_none] at a

theorem close_stage (h : Run (init n) (l1 ++ .close t c :: l2) s) : ∃ st, stageFrom c (some .closed) l2 = some st := by
  obtain ⟨st, a, -⟩ := stage_some h c
  rw [stage_append] at a
  cases hs : stage c l1 with
  | none => rw [hs, stageFrom_none] at a; cases a
  | some st1 =>
    rw [hs, stageFrom_cons] at a
    by_cases e : st1 = .idle ∨ st1 = .broken t
    · simp [advance, e] at a; exact ⟨st, a⟩
    · simp [advance, e, stageFrom_none] at a

theorem finish_stage (h : Run (init n) (l1 ++ .finish t c false :: l2) s) : ∃ st, stageFrom c (some (.broken t)) l2 = some st ∧ Where s c st := by
  obtain ⟨st, a, w⟩ := stage_some h c
  rw [stage_append] at a
  cases hs : stage c l1 with
  | none => rw [hs, stageFrom_none] at a; cases a
  | some st1 =>
    rw [hs, stageFrom_cons] at a
    by_cases e : st1 = .busy t
    · simp [advance, e] at a; exact ⟨st, a, w⟩
    · simp [advance, e, stageFrom_none] at a

/-! ### C40 -/

/-- **C40.** In every execution no connection is misused: it is used only after it was opened, by one call at a time, not
after a failed `Send` and not after it was closed; it is not closed while in use, and not twice (see `advance`). -/
theorem C40_well_used (h : Run (init n) l s) (c : Nat) : stage c l ≠ none := by
  obtain ⟨st, a, -⟩ := stage_some h c
  rw [a]
  simp

/-- **C40**, spelled out: from the moment a call uses the connection until its `Send` on it returns, no call starts to use
it and none closes it. -/
theorem C40_exclusive (h : Run (init n) (l1 ++ .begin t c :: l2) s) (hf : ∀ ok, Ev.finish t c ok ∉ l2) (t' : Nat) :
    Ev.begin t' c ∉ l2 ∧ Ev.close t' c ∉ l2 :=
  have ⟨_, a⟩ := begin_stage h
  (busy_stays hf a).2 t'

/-- **C40**, about the states: one call at a time, and what is in use is not in the pool. -/
theorem C40_state (h : Run (init n) l s) (hb : s.pc t = .busy c) : c ∉ s.queue ∧ ∀ t', s.pc t' = .busy c → t' = t := by
  obtain ⟨st, -, w⟩ := stage_some h c
  have hh : holds (s.pc t) = some c := by rw [hb]; rfl
  cases w with
  | absent _ _ h3 => exact absurd hh (h3 t)
  | queued _ _ h3 => exact absurd hh (h3 t)
  | closed _ _ h3 => exact absurd hh (h3 t)
  | held _ h2 h3 h4 => exact ⟨h2, fun t' hb' => (h4 t' (by rw [hb']; rfl)).trans (h4 t hh).symm⟩

/-! ### C41 -/

theorem cap_run (h : Run s l s') : s'.cap = s.cap := by
  induction h with
  | nil => rfl
  | snoc _ hs ih => rw [← ih]; cases hs <;> rfl

/-- **C41.** The pool never holds more connections than the size given to `New`: what was put and not taken again. -/
theorem C41_bounded (h : Run (init n) l s) : s.queue.length ≤ n ∧ (puts l).length ≤ (takes l).length + n := by
  have i := inv_run (inv_init n) h
  have hc : s.cap = n := by rw [cap_run h]; rfl
  have h1 := i.cap
  have h2 := congrArg List.length i.fifo
  simp at h2
  omega

/-! ### C42 -/

/-- **C42**, failed connections: after `Send` failed on a connection no call uses it, and when the call in which it failed
is over, it has been closed. -/
theorem C42_failed (h : Run (init n) (l1 ++ .finish t c false :: l2) s) :
    (∀ t', Ev.begin t' c ∉ l2) ∧ (¬running (s.pc t) → ∃ t', Ev.close t' c ∈ l2) := by
  obtain ⟨st, a, w⟩ := finish_stage h
  obtain ⟨b1, b2⟩ := broken_stays a
  refine ⟨b2, fun hr => ?_⟩
  refine Classical.byContradiction fun hno => ?_
  replace hno : ∀ t', Ev.close t' c ∉ l2 := fun t' ht => hno ⟨t', ht⟩
  have : st = .broken t := by
    clear w h b1 b2 hr
    induction l2 with
    | nil => simp [stageFrom] at a; exact a.symm
    | cons e l2 ih =>
      rw [stageFrom_cons] at a
      cases ha : advance c (.broken t) e with
      | none => rw [ha, stageFrom_none] at a; cases a
      | some st' =>
        have : st' = .broken t := by
          cases e <;> simp [advance] at ha <;> simp_all
          case close t1 c1 =>
            by_cases e : c1 = c
            · exact absurd e.symm ((hno t1).1 rfl)
            · simp [e] at ha; exact ha.symm
        rw [ha, this] at a
        exact ih a (fun t' ht => hno t' (.tail _ ht))
  subst this
  cases w with
  | @held _ _ t0 _ h3 h4 h5 =>
    cases hp : s.pc t0 <;> rw [hp] at h5 <;> simp [heldStage] at h5
    subst h5
    exact hr (by rw [hp]; trivial)

/-- **C42**, closed connections: after it was closed a connection is neither used nor closed again. -/
theorem C42_closed (h : Run (init n) (l1 ++ .close t c :: l2) s) (t' : Nat) : Ev.begin t' c ∉ l2 ∧ Ev.close t' c ∉ l2 := by
  obtain ⟨st, a⟩ := close_stage h
  exact ⟨((closed_stays a).2 t').1, ((closed_stays a).2 t').2.1⟩

/-! ### C43 -/

theorem pc_other {e : Ev} (hs : Step s e s') (h : t ≠ e.thread) : s'.pc t = s.pc t := by
  cases hs <;> simp [State.goto, Ev.thread] at * <;> exact fun e => absurd e h

theorem made_run (h : Run (init n) l s) : s.next = made l := by
  generalize hi : init n = s0 at h
  induction h with
  | nil => subst hi; rfl
  | snoc _ hs ih =>
    have ih := ih
    cases hs <;> simp [State.goto, made] at * <;> exact ih

theorem pc_run (h : Run s l s') (ht : ∀ e ∈ l, e.thread ≠ t) : s'.pc t = s.pc t := by
  induction h with
  | nil => rfl
  | snoc _ hs ih =>
    rw [pc_other hs (Ne.symm (ht _ (by simp))), ih (fun e he => ht e (by simp [he]))]

theorem panicked_ev (h : Run (init n) l s) {x : Option Nat} (hp : s.pc t = .panicked x) : Ev.panic t ∈ l := by
  generalize hi : init n = s0 at h
  induction h with
  | nil => subst hi; simp [init] at hp
  | @snoc s' s'' l e _ hs ih =>
    by_cases ht : t = e.thread
    · cases hs <;> simp [State.goto, Ev.thread] at * <;> simp_all
    · rw [pc_other hs ht] at hp
      exact List.mem_append_left _ (ih hp)

/-- **C43**, what it asks for: every connection made is in the pool, in the hands of exactly one running call, or closed;
and when `Close` has returned nil and no call is running all are closed. -/
def C43_full : Prop :=
  ∀ n l s, Run (init n) l s →
    (∀ c < made l, c ∈ s.queue ∨ (∃ t, (running (s.pc t) ∧ holds (s.pc t) = some c) ∧ ∀ t', holds (s.pc t') = some c → t' = t) ∨ stage c l = some .closed) ∧
    ∀ t, Ev.callClose t ∈ l → Ev.ret t .ok ∈ l → (∀ t', ¬running (s.pc t')) → ∀ c < made l, stage c l = some .closed

/-- **C43**: every connection made is in exactly one place: idle in the pool, in the hands of exactly one call which is
running or has panicked, or closed.  Missing: a call that panics loses its connection (`C43_panic_wrong`), and connections
may remain in the pool after `Close` (`C43_wrong`); see `C43_no_panic_partial` and `C43_close_partial`. -/
theorem C43_places_partial (h : Run (init n) l s) {c : Nat} (hc : c < made l) :
    (c ∈ s.queue ∧ (∀ t, holds (s.pc t) ≠ some c) ∧ stage c l = some .idle) ∨
    (c ∉ s.queue ∧ ∃ t, ((running (s.pc t) ∨ Ev.panic t ∈ l) ∧ holds (s.pc t) = some c) ∧ ∀ t', holds (s.pc t') = some c → t' = t) ∨
    (c ∉ s.queue ∧ (∀ t, holds (s.pc t) ≠ some c) ∧ stage c l = some .closed) := by
  obtain ⟨st, a, w⟩ := stage_some h c
  rw [← made_run h] at hc
  cases w with
  | absent h1 h2 h3 => omega
  | queued h1 h2 h3 => exact .inl ⟨h2, h3, a⟩
  | closed h1 h2 h3 => exact .inr (.inr ⟨h2, h3, a⟩)
  | @held h1 h2 t _ h3 h4 h5 =>
    refine .inr (.inl ⟨h2, t, ⟨?_, h3⟩, h4⟩)
    cases hp : s.pc t <;> rw [hp] at h3 <;> simp [holds] at h3
    all_goals first | exact .inl trivial | exact .inr (panicked_ev h hp)

/-- **C43**, when no call has panicked: every connection made is in the pool, in use, or closed; so when no call is
running those that are not in the pool are closed. -/
theorem C43_no_panic_partial (h : Run (init n) l s) (hp : ∀ t, Ev.panic t ∉ l) {c : Nat} (hc : c < made l) :
    (c ∈ s.queue ∨ (∃ t, (running (s.pc t) ∧ holds (s.pc t) = some c) ∧ ∀ t', holds (s.pc t') = some c → t' = t) ∨ stage c l = some .closed) ∧
    ((∀ t, ¬running (s.pc t)) → c ∈ s.queue ∨ stage c l = some .closed) := by
  rcases C43_places_partial h hc with ⟨a, -, -⟩ | ⟨-, t, ⟨a | a, b⟩, d⟩ | ⟨-, -, a⟩
  · exact ⟨.inl a, fun _ => .inl a⟩
  · exact ⟨.inr (.inl ⟨t, ⟨a, b⟩, d⟩), fun hr => absurd a (hr t)⟩
  · exact absurd a (hp t)
  · exact ⟨.inr (.inr a), fun _ => .inr a⟩

/-- `Close` in call `t` has got as far as its state says, having found the pool empty if it is to return nil. -/
def Closing (s : State) (t : Nat) : Prop :=
  match s.pc t with
  | .drain | .drop _ | .panicked none => True
  | .leave r | .ret r | .done r => r = .ok → s.queue = []
  | _ => False

theorem closing_run (h : Run s l s') (ht : ∀ e ∈ l, e.thread = t) (hc : Ev.callClose t ∈ l) : Closing s' t := by
  induction h with
  | nil => simp at hc
  | @snoc s' s'' l e _ hs ih =>
    have he : e.thread = t := ht e (by simp)
    simp only [List.mem_append, List.mem_singleton] at hc
    by_cases hcl : Ev.callClose t ∈ l
    · have i := ih (fun e he => ht e (by simp [he])) hcl
      unfold Closing at i ⊢
      cases hs <;> simp [State.goto, Ev.thread] at * <;> subst he <;> simp_all
    · rcases hc with hc | hc
      · exact absurd hc hcl
      · subst hc
        cases hs
        simp [Closing, State.goto]

theorem ret_done (h : Run s l s') {r : Res} (hr : Ev.ret t r ∈ l) : s'.pc t = .done r := by
  induction h with
  | nil => simp at hr
  | @snoc s' s'' l e _ hs ih =>
    simp only [List.mem_append, List.mem_singleton] at hr
    by_cases hm : Ev.ret t r ∈ l
    · have i := ih hm
      by_cases ht : t = e.thread
      · cases hs <;> simp [State.goto, Ev.thread] at * <;> subst ht <;> simp_all
      · rw [pc_other hs ht]; exact i
    · rcases hr with hr | hr
      · exact absurd hr hm
      · subst hr
        cases hs
        simp [State.goto]

/-- **C43**, for a `Close` that no other call overlaps: if no call is running and none has panicked, and then `Close` is
called and returns nil before any other call is made, all connections ever made are closed. -/
theorem C43_close_partial (h : Run (init n) l s) (hp : ∀ t, Ev.panic t ∉ l) (hq : ∀ t, ¬running (s.pc t)) (h' : Run s l' s')
    (ht : ∀ e ∈ l', e.thread = t) (hc : Ev.callClose t ∈ l') (hr : Ev.ret t .ok ∈ l') {c : Nat} (hm : c < made (l ++ l')) :
    stage c (l ++ l') = some .closed := by
  have hd := ret_done h' hr
  have hcl := closing_run h' ht hc
  have hqe : s'.queue = [] := by simpa [Closing, hd] using hcl
  have hrun := run_append h h'
  rcases C43_places_partial hrun hm with ⟨a, -, -⟩ | ⟨-, t', ⟨-, b⟩, -⟩ | ⟨-, -, a⟩
  · rw [hqe] at a; cases a
  · by_cases e : t' = t
    · subst e; rw [hd] at b; cases b
    · have : s'.pc t' = s.pc t' := pc_run h' (fun e he => by rw [ht e he]; exact Ne.symm (by assumption))
      rw [this] at b
      have := hq t'
      cases hpc : s.pc t' with
      | panicked x => exact absurd (panicked_ev h hpc) (hp t')
      | _ => rw [hpc] at b this; simp [holds, running] at b this
  · exact a

/-! ### C44 -/

theorem called_not_idle (h : Run s l s') (hc : Ev.callSend t ∈ l ∨ Ev.callClose t ∈ l) : s'.pc t ≠ .idle := by
  induction h with
  | nil => simp at hc
  | @snoc s' s'' l e _ hs ih =>
    simp only [List.mem_append, List.mem_singleton] at hc
    by_cases hte : t = e.thread
    · cases hs <;> simp [State.goto, Ev.thread] at * <;> subst hte <;> simp_all
    · rw [pc_other hs hte]
      refine ih ?_
      rcases hc with (hc | hc) | (hc | hc)
      · exact .inl hc
      · exact absurd (by rw [← hc]; rfl) hte
      · exact .inr hc
      · exact absurd (by rw [← hc]; rfl) hte

/-- One call is either a `Send` or a `Close`. -/
theorem call_once (h : Run s l s') (h1 : Ev.callSend t ∈ l) (h2 : Ev.callClose t ∈ l) : False := by
  induction h with
  | nil => simp at h1
  | @snoc s' s'' l e hr hs ih =>
    simp only [List.mem_append, List.mem_singleton] at h1 h2
    rcases h1 with h1 | h1 <;> rcases h2 with h2 | h2
    · exact ih h1 h2
    · subst h2; cases hs; exact called_not_idle hr (.inl h1) (by assumption)
    · subst h1; cases hs; exact called_not_idle hr (.inr h2) (by assumption)
    · rw [← h1] at h2; cases h2

/-- **C44**, what it asks for. -/
def C44_full : Prop :=
  ∀ n l s l' s' t t', Run (init n) l s → Ev.callClose t ∈ l → Ev.ret t .ok ∈ l → Run s l' s' → Ev.callSend t' ∈ l' →
    (∀ r, Ev.ret t' r ∈ l' → r = .poolClosed ∨ r = .ctx) ∧ (∀ c, Ev.opened t' c ∉ l') ∧ (∀ c, Ev.begin t' c ∉ l') ∧ Ev.panic t' ∉ l'

theorem shut_closed (h : Run s l s') (hs : (∃ t, Ev.shut t ∈ l) ∨ s.closed = true) : s'.closed = true := by
  induction h with
  | nil => simpa using hs
  | @snoc s' s'' l e hr hst ih =>
    have mono : s'.closed = true → s''.closed = true := by cases hst <;> simp [State.goto]
    rcases hs with ⟨t, ht⟩ | hs
    · simp only [List.mem_append, List.mem_singleton] at ht
      rcases ht with ht | ht
      · exact mono (ih (.inl ⟨t, ht⟩))
      · subst ht; cases hst; rfl
    · exact mono (ih (.inr hs))

/-- A `Close` that is about to return, or has returned, has closed the channel. -/
theorem close_shut (h : Run (init n) l s) (hc : Ev.callClose t ∈ l) {r : Res} (hr : s.pc t = .ret r ∨ s.pc t = .done r) : Ev.shut t ∈ l := by
  have key : ∀ {l : List Ev} {s : State}, Run (init n) l s → Ev.callClose t ∈ l →
      (match s.pc t with | .drain | .drop _ | .leave _ | .panicked none => True | .ret _ | .done _ => Ev.shut t ∈ l | _ => False) := by
    intro l s h
    induction h with
    | nil => simp
    | @snoc s' s'' l e hr hs ih =>
      intro hc
      simp only [List.mem_append, List.mem_singleton] at hc
      by_cases hte : t = e.thread
      · rcases hc with hc | hc
        · have ih := ih hc
          cases hs <;> simp [State.goto, Ev.thread] at * <;> subst hte <;> simp_all
        · subst hc
          cases hs
          simp [State.goto]
      · rw [pc_other hs hte]
        rcases hc with hc | hc
        · have ih := ih hc
          generalize s'.pc t = p at ih ⊢
          cases p with
          | panicked x => cases x <;> simp_all
          | _ => simp_all
        · exact absurd (by rw [← hc]; rfl) hte
  have := key h hc
  rcases hr with hr | hr <;> rw [hr] at this <;> exact this

/-- **C44**, if no connection was left in the pool, i.e. every one that was put had been taken: every `Send` called after a
`Close` has returned (nil or not) returns `ErrPoolClosed` or its context's error, opens and uses no connection, and does
not panic.  Missing: connections put while `Close` was returning, or left by a cancelled `Close` (`C44_wrong`). -/
theorem C44_partial (h : Run (init n) l s) (hc : Ev.callClose t ∈ l) {r0 : Res} (hr : Ev.ret t r0 ∈ l) (hq : puts l = takes l)
    (h' : Run s l' s') {t' : Nat} (ht' : Ev.callSend t' ∈ l') :
    (∀ r, Ev.ret t' r ∈ l' → r = .poolClosed ∨ r = .ctx) ∧ (∀ c, Ev.opened t' c ∉ l') ∧ (∀ c, Ev.begin t' c ∉ l') ∧ Ev.panic t' ∉ l' := by
  have hcl : s.closed = true := shut_closed h (.inl ⟨t, close_shut h hc (.inr (ret_done h hr))⟩)
  have hqe : s.queue = [] := by
    have := (inv_run (inv_init n) h).fifo
    simp only [List.nil_append] at this
    rw [hq] at this
    simpa using this
  have key : ∀ {l' : List Ev} {s' : State}, Run s l' s' → (s'.closed = true ∧ s'.queue = []) ∧
      ((s'.pc t' ≠ .idle ∧ Ev.callSend t' ∉ l') ∨
       ((match s'.pc t' with | .idle | .look => True | .ret r | .done r => r = .poolClosed ∨ r = .ctx | _ => False) ∧
        (∀ r, Ev.ret t' r ∈ l' → r = .poolClosed ∨ r = .ctx) ∧ (∀ c, Ev.opened t' c ∉ l') ∧ (∀ c, Ev.begin t' c ∉ l') ∧ Ev.panic t' ∉ l')) := by
    intro l' s' h'
    induction h' with
    | nil =>
      refine ⟨⟨hcl, hqe⟩, ?_⟩
      by_cases hi : s.pc t' = .idle
      · exact .inr (by simp [hi])
      · exact .inl ⟨hi, by simp⟩
    | @snoc s' s'' l e hr hs ih =>
      obtain ⟨⟨ih1, ih2⟩, ih3⟩ := ih
      refine ⟨by cases hs <;> simp [State.goto] at * <;> simp_all, ?_⟩
      by_cases hte : t' = e.thread
      · rcases ih3 with ⟨i1, i2⟩ | ⟨i1, i2⟩
        · left
          cases hs <;> simp [State.goto, Ev.thread] at * <;> subst hte <;> simp_all
        · cases hs
          case callClose hi =>
            left
            simp [State.goto, Ev.thread] at *
            subst hte
            exact ⟨by simp, fun hm => called_not_idle hr (.inl hm) hi⟩
          case ret hp =>
            right
            simp [State.goto, Ev.thread] at *
            subst hte
            simp_all
            rintro r (hr | rfl)
            · exact i2.1 r hr
            · exact i1
          all_goals right; simp [State.goto, Ev.thread] at *; subst hte; simp_all
      · rw [pc_other hs hte]
        have hne : ∀ {e'}, e'.thread = t' → e' ≠ e := fun h1 h2 => hte (by rw [← h2, h1])
        simp only [List.mem_append, List.mem_singleton]
        rcases ih3 with ⟨i1, i2⟩ | ⟨i1, i2, i3, i4, i5⟩
        · exact .inl ⟨i1, by simp [i2, hne (e' := .callSend t') rfl]⟩
        · exact .inr ⟨i1, fun r hr => i2 r (hr.resolve_right (hne rfl)), fun c hc => i3 c (hc.resolve_right (hne rfl)),
            fun c hc => i4 c (hc.resolve_right (hne rfl)), fun hc => i5 (hc.resolve_right (hne rfl))⟩
  rcases (key h').2 with ⟨-, k⟩ | ⟨-, k⟩
  · exact absurd ht' k
  · exact k

/-! ### C45 -/

theorem run_nil (h : Run s l s') (hl : l = []) : s' = s := by
  cases h with
  | nil => rfl
  | snoc _ _ => simp at hl

theorem step_of_run {e : Ev} (h : Run s l s') (hl : l = [e]) : Step s e s' := by
  cases h with
  | nil => cases hl
  | @snoc s3 _ l e' h3 hs =>
    cases l with
    | nil => simp at hl; subst hl; rw [← run_nil h3 rfl]; exact hs
    | cons x l => simp at hl

/-- **C45**, what it asks for (that no connection is lost is C43). -/
def C45_full : Prop := ∀ n l s, Run (init n) l s → ∀ t, Ev.panic t ∉ l

theorem closed_shut (h : Run (init n) l s) (hc : s.closed = true) : ∃ t, Ev.shut t ∈ l := by
  generalize hi : init n = s0 at h
  induction h with
  | nil => subst hi; simp [init] at hc
  | @snoc s' s'' l e _ hs ih =>
    by_cases hc' : s'.closed = true
    · obtain ⟨t, ht⟩ := ih hc'
      exact ⟨t, by simp [ht]⟩
    · cases hs <;> simp [State.goto] at * <;> simp_all

/-- **C45**: a call panics only if some `Close` had closed the channel before; so there are no panics until a `Close`
finishes, whatever is going on, and none during it if it is the first.  Missing: a second `Close`, and `Send`s that have a
connection when `Close` finishes, panic (`C45_wrong`, `C45_send_wrong`). -/
theorem C45_partial (h : Run (init n) (l1 ++ .panic t :: l2) s) : ∃ t', Ev.shut t' ∈ l1 := by
  obtain ⟨s1, a, b⟩ := run_cut h (l1 ++ [.panic t]) l2 (by simp)
  obtain ⟨s2, a1, a2⟩ := run_cut a l1 [.panic t] rfl
  refine closed_shut a1 ?_
  cases step_of_run a2 rfl <;> assumption

/-- **C45**, the first `Close`, called when no `Send` is running, does not panic, whatever happens to its context. -/
theorem C45_first_close_partial (h : Run (init n) l s) (h0 : ∀ t, Ev.shut t ∉ l) (h' : Run s l' s') (ht : ∀ e ∈ l', e.thread = t) :
    ∀ t', Ev.panic t' ∉ l ++ l' := by
  intro t' hm
  have hrun := run_append h h'
  rcases List.mem_append.mp hm with hm | hm
  · obtain ⟨l1, l2, rfl⟩ := List.append_of_mem hm
    obtain ⟨s1, a, -⟩ := run_cut h (l1 ++ .panic t' :: l2) [] (by simp)
    obtain ⟨t'', h2⟩ := C45_partial a
    exact h0 t'' (List.mem_append_left _ h2)
  · obtain ⟨l1, l2, rfl⟩ := List.append_of_mem hm
    have : t' = t := ht _ hm
    subst this
    rw [← List.append_assoc] at hrun
    obtain ⟨t'', h2⟩ := C45_partial hrun
    rcases List.mem_append.mp h2 with h2 | h2
    · exact h0 _ h2
    · have : t'' = t' := ht (.shut t'') (List.mem_append_left _ h2)
      subst this
      obtain ⟨s1, a, b⟩ := run_cut h' l1 (.panic t'' :: l2) rfl
      have key : ∀ {l : List Ev} {s1 : State}, Run s l s1 → Ev.shut t'' ∈ l → ∃ r, s1.pc t'' = .ret r ∨ s1.pc t'' = .done r := by
        intro l s1 h
        induction h with
        | nil => simp
        | @snoc s' s'' l e _ hs ih =>
          intro hm
          simp only [List.mem_append, List.mem_singleton] at hm
          rcases hm with hm | hm
          · obtain ⟨r, hr⟩ := ih hm
            by_cases hte : t'' = e.thread
            · cases hs <;> simp [State.goto, Ev.thread] at * <;> subst hte <;> simp_all
            · rw [pc_other hs hte]; exact ⟨r, hr⟩
          · subst hm
            cases hs
            rename_i r _ _
            exact ⟨r, .inl (by simp [State.goto])⟩
      obtain ⟨r, hr⟩ := key a h2
      obtain ⟨s2, b1, -⟩ := run_cut b [.panic t''] l2 rfl
      cases step_of_run b1 rfl <;> simp_all

/-! ### C46 -/

/-- **C46**, first in, first out: the connections taken from the pool are, in the same order, the first ones of those put
into it; the others are what it holds. -/
theorem C46_fifo (h : Run (init n) l s) : takes l ++ s.queue = puts l := by simpa using (inv_run (inv_init n) h).fifo

/-- **C46**: a `Send` opens a connection only after it looked when the pool was empty: everything put had been taken. -/
theorem C46_empty (h : Run (init n) (l1 ++ .opened t c :: l2) s) :
    ∃ l3 l4, l1 = l3 ++ .miss t :: l4 ∧ takes l3 = puts l3 ∧ ∀ e ∈ l4, e.thread = t → e = .cancel t := by
  obtain ⟨s1, a, b⟩ := run_cut h l1 _ rfl
  obtain ⟨s2, b1, -⟩ := run_cut b [.opened t c] l2 rfl
  have hd : s1.pc t = .dial := by cases step_of_run b1 rfl; assumption
  clear b b1 h
  generalize hi : init n = s0 at a
  induction a with
  | nil => subst hi; simp [init] at hd
  | @snoc s' s'' l e hr hs ih =>
    subst hi
    by_cases hte : t = e.thread
    · cases hs
      case miss _ hp _ _ =>
        simp [Ev.thread] at hte
        subst hte
        have := C46_fifo hr
        rw [hp] at this
        exact ⟨l, [], rfl, by simpa using this, by simp⟩
      case cancel =>
        simp [Ev.thread] at hte
        subst hte
        obtain ⟨l3, l4, e1, e2, e3⟩ := ih hd
        refine ⟨l3, l4 ++ [.cancel t], by simp [e1], e2, fun e he => ?_⟩
        rcases List.mem_append.mp he with he | he
        · exact e3 e he
        · simp at he; exact fun _ => he
      all_goals simp [State.goto, Ev.thread] at * <;> subst hte <;> simp_all
    · rw [pc_other hs hte] at hd
      obtain ⟨l3, l4, e1, e2, e3⟩ := ih hd
      refine ⟨l3, l4 ++ [e], by simp [e1], e2, fun e' he => ?_⟩
      rcases List.mem_append.mp he with he | he
      · exact e3 e' he
      · simp at he; subst he; exact fun h => absurd h.symm hte

/-! ### C56 -/

/-- **C56**: the pool never makes a call wait for another: a running call can always go on by itself (given that
`connector.New` and the calls on the connection return). -/
theorem C56_progress (s : State) (t : Nat) (h : running (s.pc t)) : ∃ e s', Step s e s' ∧ e.thread = t := by
  cases hp : s.pc t <;> rw [hp] at h <;> simp [running] at h
  case look =>
    cases hq : s.queue with
    | cons c q => exact ⟨_, _, .take hp hq, rfl⟩
    | nil =>
      cases hc : s.closed with
      | true => exact ⟨_, _, .lookClosed hp hq hc, rfl⟩
      | false =>
        cases hx : s.ctx t with
        | true => exact ⟨_, _, .lookCtx hp hx, rfl⟩
        | false => exact ⟨_, _, .miss hp hq hc hx, rfl⟩
  case dial => exact ⟨_, _, .opened hp, rfl⟩
  case got => exact ⟨_, _, .begin hp, rfl⟩
  case busy => exact ⟨_, _, .sent hp, rfl⟩
  case bad => exact ⟨_, _, .closeBad hp, rfl⟩
  case put =>
    cases hc : s.closed with
    | true => exact ⟨_, _, .putClosed hp hc, rfl⟩
    | false =>
      by_cases hl : s.queue.length < s.cap
      · exact ⟨_, _, .put hp hc hl, rfl⟩
      · exact ⟨_, _, .putFull hp hc (by omega), rfl⟩
  case full => exact ⟨_, _, .closeFull hp, rfl⟩
  case drain =>
    cases hq : s.queue with
    | cons c q => exact ⟨_, _, .drainTake hp hq, rfl⟩
    | nil =>
      cases hc : s.closed with
      | true => exact ⟨_, _, .drainClosed hp hq hc, rfl⟩
      | false =>
        cases hx : s.ctx t with
        | true => exact ⟨_, _, .drainCtx hp hx, rfl⟩
        | false => exact ⟨_, _, .drainEmpty hp hq hc hx, rfl⟩
  case drop => exact ⟨_, _, .closeDrop hp, rfl⟩
  case leave =>
    cases hc : s.closed with
    | true => exact ⟨_, _, .shutClosed hp hc, rfl⟩
    | false => exact ⟨_, _, .shut hp hc, rfl⟩
  case ret => exact ⟨_, _, .ret hp, rfl⟩

/-- The events of a call, not counting what happens to its context. -/
def own (t : Nat) (l : List Ev) : List Ev := l.filter fun e => e.thread = t ∧ e ≠ .cancel t

/-- How many events are still to come, at most. -/
def rank : Pc → Nat
  | .look => 7
  | .dial => 6
  | .got _ => 5
  | .busy _ => 4
  | .put _ => 3
  | .bad _ | .full _ => 2
  | .ret _ => 1
  | _ => 0

/-- **C56**: a `Send` is over after at most eight events of its own, so it never retries or spins. -/
theorem C56_bounded (h : Run (init n) l s) (hc : Ev.callSend t ∈ l) : (own t l).length ≤ 8 := by
  have key : (s.pc t = .idle ∧ own t l = []) ∨ Ev.callClose t ∈ l ∨
      ((match s.pc t with | .idle | .drain | .drop _ | .leave _ => False | _ => True) ∧ (own t l).length + rank (s.pc t) ≤ 8) := by
    clear hc
    generalize hi : init n = s0 at h
    induction h with
    | nil => subst hi; exact .inl ⟨rfl, rfl⟩
    | @snoc s' s'' l e hr hs ih =>
      by_cases hte : t = e.thread
      · rcases ih with ⟨i1, i2⟩ | i | ⟨i1, i2⟩
        · cases hs <;> simp [State.goto, Ev.thread, own, rank] at * <;> subst hte <;> simp_all
        · exact .inr (.inl (List.mem_append_left _ i))
        · cases hs <;> simp [State.goto, Ev.thread, own, rank] at * <;> subst hte <;> simp_all <;> omega
      · rw [pc_other hs hte]
        have : own t (l ++ [e]) = own t l := by simp [own, Ne.symm hte]
        rw [this]
        rcases ih with i | i | i
        · exact .inl i
        · exact .inr (.inl (List.mem_append_left _ i))
        · exact .inr (.inr i)
  rcases key with ⟨a, -⟩ | a | ⟨-, a⟩
  · exact absurd a (called_not_idle h (.inl hc))
  · exact (call_once h hc a).elim
  · omega

end Verif.Props
