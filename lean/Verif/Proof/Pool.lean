import Verif.Spec.Pool
/-! The invariant of the pool. -/
namespace Verif.Proof.Pool
open Verif.Model.Pool Verif.Spec.Pool

/-- The stage of the connection held. -/
def heldStage (t : Nat) : Pc → Stage
  | .busy _ => .busy t
  | .bad _ => .broken t
  | _ => .idle

/-- Where a connection is. -/
inductive Where (s : State) (c : Nat) : Stage → Prop where
  | absent (h : s.next ≤ c) (hq : c ∉ s.queue) (hh : ∀ t, holds (s.pc t) ≠ some c) : Where s c .absent
  | queued (h : c < s.next) (hq : c ∈ s.queue) (hh : ∀ t, holds (s.pc t) ≠ some c) : Where s c .idle
  | held (h : c < s.next) (hq : c ∉ s.queue) {t : Nat} {st : Stage} (ht : holds (s.pc t) = some c) (hh : ∀ t', holds (s.pc t') = some c → t' = t)
      (hst : st = heldStage t (s.pc t)) : Where s c st
  | closed (h : c < s.next) (hq : c ∉ s.queue) (hh : ∀ t, holds (s.pc t) ≠ some c) : Where s c .closed

structure Inv (s : State) (l : List Ev) : Prop where
  nodup : s.queue.Nodup
  cap : s.queue.length ≤ s.cap
  fifo : takes l ++ s.queue = puts l
  «where» : ∀ c, ∃ st, stage c l = some st ∧ Where s c st

theorem stage_snoc (c : Nat) (l : List Ev) (e : Ev) : stage c (l ++ [e]) = (stage c l).bind (advance c · e) := by
  simp [stage]

variable {s s' : State} {t c c0 : Nat} {p : Pc} {st : Stage}

/-- The calls after call `t` went to `p`. -/
def Moved (s s' : State) (t : Nat) (p : Pc) : Prop := ∀ t', s'.pc t' = if t' = t then p else s.pc t'

theorem moved_goto (s : State) (t : Nat) (p : Pc) : Moved s (s.goto t p) t p := fun _ => rfl

theorem where_same (hm : Moved s s' t p) (hq : s'.queue = s.queue) (hn : s'.next = s.next) (hp : holds p = holds (s.pc t))
    (h : Where s c st) : Where s' c (if holds p = some c then heldStage t p else st) := by
  have hh : ∀ t', holds (s'.pc t') = holds (s.pc t') := by
    intro t'
    rw [hm t']
    split
    · rename_i e; rw [e, hp]
    · rfl
  cases h with
  | absent h h2 h3 => rw [if_neg (by rw [hp]; exact h3 t)]; exact .absent (hn ▸ h) (hq ▸ h2) (fun t' => by rw [hh]; exact h3 t')
  | queued h h2 h3 => rw [if_neg (by rw [hp]; exact h3 t)]; exact .queued (hn ▸ h) (hq ▸ h2) (fun t' => by rw [hh]; exact h3 t')
  | closed h h2 h3 => rw [if_neg (by rw [hp]; exact h3 t)]; exact .closed (hn ▸ h) (hq ▸ h2) (fun t' => by rw [hh]; exact h3 t')
  | @held h h2 t0 st h3 h4 h5 =>
    refine .held (t := t0) (hn ▸ h) (hq ▸ h2) (by rw [hh]; exact h3) (fun t' ht => h4 t' (by rw [← hh]; exact ht)) ?_
    by_cases e : t0 = t
    · subst e
      rw [if_pos (by rw [hp]; exact h3), hm t0, if_pos rfl]
    · rw [if_neg (fun hc => e (h4 t (by rw [← hp]; exact hc)).symm), hm t0, if_neg e, h5]

theorem where_take {q : List Nat} (hm : Moved s s' t p) (hnd : s.queue.Nodup) (hq : s.queue = c0 :: q) (hq' : s'.queue = q) (hn : s'.next = s.next)
    (h0 : holds (s.pc t) = none) (hp : holds p = some c0) (hst : heldStage t p = .idle) (h : Where s c st) : Where s' c st := by
  rw [hq] at hnd
  have hc0 : c0 ∉ q := (List.nodup_cons.mp hnd).1
  have hh : ∀ t', holds (s'.pc t') = if t' = t then some c0 else holds (s.pc t') := by
    intro t'
    rw [hm t']
    split
    · exact hp
    · rfl
  by_cases e : c = c0
  · subst e
    cases h with
    | absent h h2 h3 => exact absurd (by simp [hq]) h2
    | closed h h2 h3 => exact absurd (by simp [hq]) h2
    | held h h2 h3 => exact absurd (by simp [hq]) h2
    | queued h h2 h3 =>
      refine .held (t := t) (hn ▸ h) (hq' ▸ hc0) (by rw [hh, if_pos rfl]) (fun t' ht => ?_) (by rw [hm t, if_pos rfl, hst])
      rw [hh] at ht
      split at ht
      · assumption
      · exact absurd ht (h3 t')
  · have hn3 : ∀ t', holds (s'.pc t') = some c → holds (s.pc t') = some c := by
      intro t' ht
      rw [hh] at ht
      split at ht
      · simp at ht; exact absurd ht.symm e
      · exact ht
    cases h with
    | absent h h2 h3 => exact .absent (hn ▸ h) (fun hc => h2 (by rw [hq]; exact .tail _ (hq' ▸ hc))) (fun t' ht => h3 t' (hn3 t' ht))
    | closed h h2 h3 => exact .closed (hn ▸ h) (fun hc => h2 (by rw [hq]; exact .tail _ (hq' ▸ hc))) (fun t' ht => h3 t' (hn3 t' ht))
    | queued h h2 h3 =>
      refine .queued (hn ▸ h) ?_ (fun t' ht => h3 t' (hn3 t' ht))
      rw [hq] at h2
      rw [hq']
      exact (List.mem_cons.mp h2).resolve_left e
    | @held h h2 t0 st h3 h4 h5 =>
      have : t0 ≠ t := by rintro rfl; rw [h0] at h3; cases h3
      exact .held (t := t0) (hn ▸ h) (fun hc => h2 (by rw [hq]; exact .tail _ (hq' ▸ hc))) (by rw [hh, if_neg this]; exact h3)
        (fun t' ht => h4 t' (hn3 t' ht)) (by rw [hm t0, if_neg this]; exact h5)

theorem where_put (hm : Moved s s' t p) (hq' : s'.queue = s.queue ++ [c0]) (hn : s'.next = s.next)
    (h0 : holds (s.pc t) = some c0) (hp : holds p = none) (hst : heldStage t (s.pc t) = .idle) (h : Where s c st) : Where s' c st := by
  have hh : ∀ t', holds (s'.pc t') = if t' = t then none else holds (s.pc t') := by
    intro t'
    rw [hm t']
    split
    · exact hp
    · rfl
  have hn3 : ∀ t', holds (s'.pc t') = some c → t' ≠ t ∧ holds (s.pc t') = some c := by
    intro t' ht
    rw [hh] at ht
    split at ht
    · cases ht
    · exact ⟨by assumption, ht⟩
  by_cases e : c = c0
  · subst e
    cases h with
    | absent h h2 h3 => exact absurd h0 (h3 t)
    | closed h h2 h3 => exact absurd h0 (h3 t)
    | queued h h2 h3 => exact absurd h0 (h3 t)
    | @held h h2 t0 st h3 h4 h5 =>
      have : t = t0 := h4 t h0
      subst this
      rw [h5, hst]
      exact .queued (hn ▸ h) (by simp [hq']) (fun t' ht => (hn3 t' ht).1 (h4 t' (hn3 t' ht).2))
  · have hmem : c ∈ s'.queue ↔ c ∈ s.queue := by simp [hq', e]
    cases h with
    | absent h h2 h3 => exact .absent (hn ▸ h) (by rw [hmem]; exact h2) (fun t' ht => h3 t' (hn3 t' ht).2)
    | closed h h2 h3 => exact .closed (hn ▸ h) (by rw [hmem]; exact h2) (fun t' ht => h3 t' (hn3 t' ht).2)
    | queued h h2 h3 => exact .queued (hn ▸ h) (by rw [hmem]; exact h2) (fun t' ht => h3 t' (hn3 t' ht).2)
    | @held h h2 t0 st h3 h4 h5 =>
      have : t0 ≠ t := by rintro rfl; rw [h0] at h3; simp at h3; exact e h3.symm
      exact .held (t := t0) (hn ▸ h) (by rw [hmem]; exact h2) (by rw [hh, if_neg this]; exact h3)
        (fun t' ht => h4 t' (hn3 t' ht).2) (by rw [hm t0, if_neg this]; exact h5)

theorem where_close (hm : Moved s s' t p) (hq : s'.queue = s.queue) (hn : s'.next = s.next)
    (h0 : holds (s.pc t) = some c0) (hp : holds p = none) (h : Where s c st) : Where s' c (if c = c0 then .closed else st) := by
  have hn3 : ∀ t', holds (s'.pc t') = some c → t' ≠ t ∧ holds (s.pc t') = some c := by
    intro t' ht
    rw [hm t'] at ht
    split at ht
    · rw [hp] at ht; cases ht
    · exact ⟨by assumption, ht⟩
  by_cases e : c = c0
  · subst e
    rw [if_pos rfl]
    cases h with
    | absent h h2 h3 => exact absurd h0 (h3 t)
    | closed h h2 h3 => exact absurd h0 (h3 t)
    | queued h h2 h3 => exact absurd h0 (h3 t)
    | @held h h2 t0 st h3 h4 h5 =>
      have : t = t0 := h4 t h0
      subst this
      exact .closed (hn ▸ h) (hq ▸ h2) (fun t' ht => (hn3 t' ht).1 (h4 t' (hn3 t' ht).2))
  · rw [if_neg e]
    cases h with
    | absent h h2 h3 => exact .absent (hn ▸ h) (hq ▸ h2) (fun t' ht => h3 t' (hn3 t' ht).2)
    | closed h h2 h3 => exact .closed (hn ▸ h) (hq ▸ h2) (fun t' ht => h3 t' (hn3 t' ht).2)
    | queued h h2 h3 => exact .queued (hn ▸ h) (hq ▸ h2) (fun t' ht => h3 t' (hn3 t' ht).2)
    | @held h h2 t0 st h3 h4 h5 =>
      have : t0 ≠ t := by rintro rfl; rw [h0] at h3; simp at h3; exact e h3.symm
      exact .held (t := t0) (hn ▸ h) (hq ▸ h2) (by rw [hm t0, if_neg this]; exact h3)
        (fun t' ht => h4 t' (hn3 t' ht).2) (by rw [hm t0, if_neg this]; exact h5)

theorem where_opened (hm : Moved s s' t p) (hq : s'.queue = s.queue) (hn : s'.next = s.next + 1)
    (h0 : holds (s.pc t) = none) (hp : holds p = some s.next) (hst : heldStage t p = .idle) (h : Where s c st) :
    Where s' c (if c = s.next then .idle else st) := by
  have hh : ∀ t', holds (s'.pc t') = if t' = t then some s.next else holds (s.pc t') := by
    intro t'
    rw [hm t']
    split
    · exact hp
    · rfl
  by_cases e : c = s.next
  · subst e
    rw [if_pos rfl]
    cases h with
    | closed h h2 h3 => omega
    | queued h h2 h3 => omega
    | held h h2 h3 => omega
    | absent h h2 h3 =>
      refine .held (t := t) (by omega) (hq ▸ h2) (by rw [hh, if_pos rfl]) (fun t' ht => ?_) (by rw [hm t, if_pos rfl, hst])
      rw [hh] at ht
      split at ht
      · assumption
      · exact absurd ht (h3 t')
  · rw [if_neg e]
    have hn3 : ∀ t', holds (s'.pc t') = some c → holds (s.pc t') = some c := by
      intro t' ht
      rw [hh] at ht
      split at ht
      · simp at ht; exact absurd ht.symm e
      · exact ht
    cases h with
    | absent h h2 h3 => exact .absent (by omega) (hq ▸ h2) (fun t' ht => h3 t' (hn3 t' ht))
    | closed h h2 h3 => exact .closed (by omega) (hq ▸ h2) (fun t' ht => h3 t' (hn3 t' ht))
    | queued h h2 h3 => exact .queued (by omega) (hq ▸ h2) (fun t' ht => h3 t' (hn3 t' ht))
    | @held h h2 t0 st h3 h4 h5 =>
      have : t0 ≠ t := by rintro rfl; rw [h0] at h3; cases h3
      exact .held (t := t0) (by omega) (hq ▸ h2) (by rw [hh, if_neg this]; exact h3)
        (fun t' ht => h4 t' (hn3 t' ht)) (by rw [hm t0, if_neg this]; exact h5)

/-- The stage of a connection that is held. -/
theorem where_held (h : Where s c st) (ht : holds (s.pc t) = some c) : st = heldStage t (s.pc t) ∧ c < s.next := by
  cases h with
  | absent _ _ h3 => exact absurd ht (h3 t)
  | closed _ _ h3 => exact absurd ht (h3 t)
  | queued _ _ h3 => exact absurd ht (h3 t)
  | @held h h2 t0 st h3 h4 h5 =>
    have : t = t0 := h4 t ht
    subst this
    exact ⟨h5, h⟩

/-- A step that neither moves a connection nor concerns one. -/
theorem inv_quiet {l : List Ev} {e : Ev} (h : Inv s l) (hm : Moved s s' t p) (hq : s'.queue = s.queue) (hn : s'.next = s.next) (hc : s'.cap = s.cap)
    (hp : holds p = holds (s.pc t)) (hst : heldStage t p = heldStage t (s.pc t))
    (hadv : ∀ c st, advance c st e = some st) (htk : takes (l ++ [e]) = takes l) (hpt : puts (l ++ [e]) = puts l) : Inv s' (l ++ [e]) := by
  refine ⟨hq ▸ h.nodup, by rw [hq, hc]; exact h.cap, by rw [htk, hpt, hq]; exact h.fifo, fun c => ?_⟩
  obtain ⟨st, a, b⟩ := h.where c
  refine ⟨st, by rw [stage_snoc, a]; exact hadv c st, ?_⟩
  have := where_same hm hq hn hp b
  by_cases e : holds p = some c
  · rw [if_pos e, hst, ← (where_held b (hp ▸ e)).1] at this
    exact this
  · rwa [if_neg e] at this

theorem inv_step {l : List Ev} {e : Ev} (h : Inv s l) (hs : Step s e s') : Inv s' (l ++ [e]) := by
  cases hs with
  | callSend h1 => exact inv_quiet h (moved_goto _ _ _) rfl rfl rfl (by rw [h1]; rfl) (by rw [h1]; rfl) (fun _ _ => rfl) (by simp [takes]) (by simp [puts])
  | callClose h1 => exact inv_quiet h (moved_goto _ _ _) rfl rfl rfl (by rw [h1]; rfl) (by rw [h1]; rfl) (fun _ _ => rfl) (by simp [takes]) (by simp [puts])
  | lookClosed h1 hq hc => exact inv_quiet h (moved_goto _ _ _) rfl rfl rfl (by rw [h1]; rfl) (by rw [h1]; rfl) (fun _ _ => rfl) (by simp [takes]) (by simp [puts])
  | lookCtx h1 hc => exact inv_quiet h (moved_goto _ _ _) rfl rfl rfl (by rw [h1]; rfl) (by rw [h1]; rfl) (fun _ _ => rfl) (by simp [takes]) (by simp [puts])
  | miss h1 hq hc hx => exact inv_quiet h (moved_goto _ _ _) rfl rfl rfl (by rw [h1]; rfl) (by rw [h1]; rfl) (fun _ _ => rfl) (by simp [takes]) (by simp [puts])
  | notOpened h1 => exact inv_quiet h (moved_goto _ _ _) rfl rfl rfl (by rw [h1]; rfl) (by rw [h1]; rfl) (fun _ _ => rfl) (by simp [takes]) (by simp [puts])
  | putClosed h1 hc => exact inv_quiet h (moved_goto _ _ _) rfl rfl rfl (by rw [h1]; rfl) (by rw [h1]; rfl) (fun _ _ => rfl) (by simp [takes]) (by simp [puts])
  | putFull h1 hc hl => exact inv_quiet h (moved_goto _ _ _) rfl rfl rfl (by rw [h1]; rfl) (by rw [h1]; rfl) (fun _ _ => rfl) (by simp [takes]) (by simp [puts])
  | drainClosed h1 hq hc => exact inv_quiet h (moved_goto _ _ _) rfl rfl rfl (by rw [h1]; rfl) (by rw [h1]; rfl) (fun _ _ => rfl) (by simp [takes]) (by simp [puts])
  | drainCtx h1 hc => exact inv_quiet h (moved_goto _ _ _) rfl rfl rfl (by rw [h1]; rfl) (by rw [h1]; rfl) (fun _ _ => rfl) (by simp [takes]) (by simp [puts])
  | drainEmpty h1 hq hc hx => exact inv_quiet h (moved_goto _ _ _) rfl rfl rfl (by rw [h1]; rfl) (by rw [h1]; rfl) (fun _ _ => rfl) (by simp [takes]) (by simp [puts])
  | shut h1 hc => exact inv_quiet h (moved_goto _ _ _) rfl rfl rfl (by rw [h1]; rfl) (by rw [h1]; rfl) (fun _ _ => rfl) (by simp [takes]) (by simp [puts])
  | shutClosed h1 hc => exact inv_quiet h (moved_goto _ _ _) rfl rfl rfl (by rw [h1]; rfl) (by rw [h1]; rfl) (fun _ _ => rfl) (by simp [takes]) (by simp [puts])
  | ret h1 => exact inv_quiet h (moved_goto _ _ _) rfl rfl rfl (by rw [h1]; rfl) (by rw [h1]; rfl) (fun _ _ => rfl) (by simp [takes]) (by simp [puts])
  | @cancel t =>
    exact inv_quiet (t := t) (p := s.pc t) h (fun t' => by dsimp only; split <;> simp_all) rfl rfl rfl rfl rfl (fun _ _ => rfl) (by simp [takes]) (by simp [puts])
  | @take t c0 q h1 hq =>
    refine ⟨(List.nodup_cons.mp (hq ▸ h.nodup)).2, ?_, ?_, fun c => ?_⟩
    · have := h.cap; rw [hq] at this; simp [State.goto] at *; omega
    · have := h.fifo; rw [hq] at this; simp [takes, puts, State.goto] at *; exact this
    · obtain ⟨st, a, b⟩ := h.where c
      exact ⟨st, by rw [stage_snoc, a]; rfl, where_take (s := s) (t := t) (fun _ => rfl) h.nodup hq rfl rfl (by rw [h1]; rfl) rfl rfl b⟩
  | @drainTake t c0 q h1 hq =>
    refine ⟨(List.nodup_cons.mp (hq ▸ h.nodup)).2, ?_, ?_, fun c => ?_⟩
    · have := h.cap; rw [hq] at this; simp [State.goto] at *; omega
    · have := h.fifo; rw [hq] at this; simp [takes, puts, State.goto] at *; exact this
    · obtain ⟨st, a, b⟩ := h.where c
      exact ⟨st, by rw [stage_snoc, a]; rfl, where_take (s := s) (t := t) (fun _ => rfl) h.nodup hq rfl rfl (by rw [h1]; rfl) rfl rfl b⟩
  | @put t c0 h1 hc hl =>
    refine ⟨?_, ?_, ?_, fun c => ?_⟩
    · obtain ⟨st, a, b⟩ := h.where c0
      have : c0 ∉ s.queue := by
        cases b with
        | absent h h2 h3 => exact h2
        | closed h h2 h3 => exact h2
        | held h h2 h3 => exact h2
        | queued h h2 h3 => exact absurd (by rw [h1]; rfl) (h3 t)
      simp only [State.goto]
      rw [List.nodup_append]
      exact ⟨h.nodup, by simp, fun a ha b hb => by simp at hb; subst hb; rintro rfl; exact this ha⟩
    · simp [State.goto]; omega
    · have := h.fifo; simp [takes, puts, State.goto] at *; rw [← this]; simp
    · obtain ⟨st, a, b⟩ := h.where c
      exact ⟨st, by rw [stage_snoc, a]; rfl, where_put (s := s) (t := t) (c0 := c0) (fun _ => rfl) rfl rfl (by rw [h1]; rfl) rfl (by rw [h1]; rfl) b⟩
  | @opened t h1 =>
    refine ⟨h.nodup, h.cap, by have := h.fifo; simp [takes, puts, State.goto] at *; exact this, fun c => ?_⟩
    obtain ⟨st, a, b⟩ := h.where c
    refine ⟨_, ?_, where_opened (s := s) (t := t) (fun _ => rfl) rfl rfl (by rw [h1]; rfl) rfl rfl b⟩
    rw [stage_snoc, a]
    simp only [Option.bind_some, advance]
    by_cases e : c = s.next
    · subst e
      cases b with
      | absent h h2 h3 => simp
      | closed h h2 h3 => omega
      | queued h h2 h3 => omega
      | held h h2 h3 => omega
    · rw [if_neg e, if_neg (Ne.symm e)]
  | @begin t c0 h1 =>
    refine ⟨h.nodup, h.cap, by have := h.fifo; simp [takes, puts, State.goto] at *; exact this, fun c => ?_⟩
    obtain ⟨st, a, b⟩ := h.where c
    refine ⟨_, ?_, where_same (moved_goto s t (.busy c0)) rfl rfl (by rw [h1]; rfl) b⟩
    rw [stage_snoc, a]
    simp only [Option.bind_some, advance, holds, Option.some.injEq, heldStage]
    by_cases e : c0 = c
    · subst e
      have := (where_held b (t := t) (by rw [h1]; rfl)).1
      simp [this, h1, heldStage]
    · simp [e]
  | @sent t c0 h1 =>
    refine ⟨h.nodup, h.cap, by have := h.fifo; simp [takes, puts, State.goto] at *; exact this, fun c => ?_⟩
    obtain ⟨st, a, b⟩ := h.where c
    refine ⟨_, ?_, where_same (moved_goto s t (.put c0)) rfl rfl (by rw [h1]; rfl) b⟩
    rw [stage_snoc, a]
    simp only [Option.bind_some, advance, holds, Option.some.injEq, heldStage]
    by_cases e : c0 = c
    · subst e
      have := (where_held b (t := t) (by rw [h1]; rfl)).1
      simp [this, h1, heldStage]
    · simp [e]
  | @failed t c0 h1 =>
    refine ⟨h.nodup, h.cap, by have := h.fifo; simp [takes, puts, State.goto] at *; exact this, fun c => ?_⟩
    obtain ⟨st, a, b⟩ := h.where c
    refine ⟨_, ?_, where_same (moved_goto s t (.bad c0)) rfl rfl (by rw [h1]; rfl) b⟩
    rw [stage_snoc, a]
    simp only [Option.bind_some, advance, holds, Option.some.injEq, heldStage]
    by_cases e : c0 = c
    · subst e
      have := (where_held b (t := t) (by rw [h1]; rfl)).1
      simp [this, h1, heldStage]
    · simp [e]
  | @closeBad t c0 h1 =>
    refine ⟨h.nodup, h.cap, by have := h.fifo; simp [takes, puts, State.goto] at *; exact this, fun c => ?_⟩
    obtain ⟨st, a, b⟩ := h.where c
    refine ⟨_, ?_, where_close (c0 := c0) (moved_goto _ _ _) rfl rfl (by rw [h1]; rfl) rfl b⟩
    rw [stage_snoc, a]
    simp only [Option.bind_some, advance]
    by_cases e : c = c0
    · subst e
      have := (where_held b (t := t) (by rw [h1]; rfl)).1
      simp [this, h1, heldStage]
    · simp [e, Ne.symm e]
  | @closeFull t c0 h1 =>
    refine ⟨h.nodup, h.cap, by have := h.fifo; simp [takes, puts, State.goto] at *; exact this, fun c => ?_⟩
    obtain ⟨st, a, b⟩ := h.where c
    refine ⟨_, ?_, where_close (c0 := c0) (moved_goto _ _ _) rfl rfl (by rw [h1]; rfl) rfl b⟩
    rw [stage_snoc, a]
    simp only [Option.bind_some, advance]
    by_cases e : c = c0
    · subst e
      have := (where_held b (t := t) (by rw [h1]; rfl)).1
      simp [this, h1, heldStage]
    · simp [e, Ne.symm e]
  | @closeDrop t c0 h1 =>
    refine ⟨h.nodup, h.cap, by have := h.fifo; simp [takes, puts, State.goto] at *; exact this, fun c => ?_⟩
    obtain ⟨st, a, b⟩ := h.where c
    refine ⟨_, ?_, where_close (c0 := c0) (moved_goto _ _ _) rfl rfl (by rw [h1]; rfl) rfl b⟩
    rw [stage_snoc, a]
    simp only [Option.bind_some, advance]
    by_cases e : c = c0
    · subst e
      have := (where_held b (t := t) (by rw [h1]; rfl)).1
      simp [this, h1, heldStage]
    · simp [e, Ne.symm e]

theorem inv_init (size : Nat) : Inv (init size) [] :=
  ⟨by simp [init], by simp [init], by simp [init, takes, puts], fun c => ⟨.absent, rfl, .absent (by simp [init]) (by simp [init]) (by simp [init, holds])⟩⟩

theorem inv_run {l l' : List Ev} (h : Inv s l) (hr : Run s l' s') : Inv s' (l ++ l') := by
  induction hr with
  | nil => simpa using h
  | snoc _ hs ih => rw [← List.append_assoc]; exact inv_step ih hs

theorem run_append {s1 s2 s3 : State} {l l' : List Ev} (h : Run s1 l s2) (h' : Run s2 l' s3) : Run s1 (l ++ l') s3 := by
  induction h' with
  | nil => simpa using h
  | snoc _ hs ih => rw [← List.append_assoc]; exact .snoc ih hs

/-- An execution, cut anywhere. -/
theorem run_cut {s1 s3 : State} {l : List Ev} (h : Run s1 l s3) : ∀ l1 l2, l = l1 ++ l2 → ∃ s2, Run s1 l1 s2 ∧ Run s2 l2 s3 := by
  induction h with
  | nil => intro l1 l2 e; simp at e; obtain ⟨rfl, rfl⟩ := e; exact ⟨_, .nil _, .nil _⟩
  | @snoc s' s'' l e h hs ih =>
    intro l1 l2 he
    rcases List.eq_nil_or_concat l2 with rfl | ⟨l2', x, rfl⟩
    · simp at he
      subst he
      exact ⟨_, .snoc h hs, .nil _⟩
    · rw [List.concat_eq_append, ← List.append_assoc] at he
      obtain ⟨a, b⟩ := List.append_inj' he rfl
      cases b
      obtain ⟨s2, p, q⟩ := ih _ _ a
      exact ⟨s2, p, by rw [List.concat_eq_append]; exact .snoc q hs⟩

/-! ### running schedules -/

/-- What to do next: make a call, cancel its context, let it go on, let it take the case of its context, let the external
call it is in fail. -/
inductive Do where
  | send (t : Nat)
  | close (t : Nat)
  | cancel (t : Nat)
  | go (t : Nat)
  | ctx (t : Nat)
  | fail (t : Nat)

def act (s : State) : Do → Option (Ev × State)
  | .send t => if s.pc t = .idle then some (.callSend t, s.goto t .look) else none
  | .close t => if s.pc t = .idle then some (.callClose t, s.goto t .drain) else none
  | .cancel t => some (.cancel t, { s with ctx := fun t' => if t' = t then true else s.ctx t' })
  | .ctx t =>
    match s.pc t with
    | .look => if s.ctx t = true then some (.tau t, s.goto t (.ret .ctx)) else none
    | .drain => if s.ctx t = true then some (.tau t, s.goto t (.leave .ctx)) else none
    | _ => none
  | .fail t =>
    match s.pc t with
    | .dial => some (.tau t, s.goto t (.ret .connector))
    | .busy c => some (.finish t c false, s.goto t (.bad c))
    | _ => none
  | .go t =>
    match s.pc t with
    | .look =>
      match s.queue with
      | c :: q => some (.take t c, { s with queue := q }.goto t (.got c))
      | [] => if s.closed = true then some (.tau t, s.goto t (.ret .poolClosed)) else if s.ctx t = false then some (.miss t, s.goto t .dial) else none
    | .dial => some (.opened t s.next, { s with next := s.next + 1 }.goto t (.got s.next))
    | .got c => some (.begin t c, s.goto t (.busy c))
    | .busy c => some (.finish t c true, s.goto t (.put c))
    | .bad c => some (.close t c, s.goto t (.ret .send))
    | .put c =>
      if s.closed = true then some (.panic t, s.goto t (.panicked (some c)))
      else if s.queue.length < s.cap then some (.put t c, { s with queue := s.queue ++ [c] }.goto t (.ret .ok))
      else some (.tau t, s.goto t (.full c))
    | .full c => some (.close t c, s.goto t (.ret .ok))
    | .drain =>
      match s.queue with
      | c :: q => some (.take t c, { s with queue := q }.goto t (.drop c))
      | [] => if s.closed = true then some (.tau t, s.goto t (.leave .ok)) else if s.ctx t = false then some (.tau t, s.goto t (.leave .ok)) else none
    | .drop c => some (.close t c, s.goto t .drain)
    | .leave r =>
      if s.closed = true then some (.panic t, s.goto t (.panicked none)) else some (.shut t, { s with closed := true }.goto t (.ret r))
    | .ret r => some (.ret t r, s.goto t (.done r))
    | _ => none

theorem act_step {d : Do} {e : Ev} (h : act s d = some (e, s')) : Step s e s' := by
  cases d with
  | send t => simp [act] at h; obtain ⟨h1, rfl, rfl⟩ := h; exact .callSend h1
  | close t => simp [act] at h; obtain ⟨h1, rfl, rfl⟩ := h; exact .callClose h1
  | cancel t => cases h; exact .cancel
  | ctx t =>
    simp only [act] at h
    split at h <;> simp at h
    · obtain ⟨h1, rfl, rfl⟩ := h; exact .lookCtx (by assumption) h1
    · obtain ⟨h1, rfl, rfl⟩ := h; exact .drainCtx (by assumption) h1
  | fail t =>
    simp only [act] at h
    split at h <;> simp at h
    · obtain ⟨rfl, rfl⟩ := h; exact .notOpened (by assumption)
    · obtain ⟨rfl, rfl⟩ := h; exact .failed (by assumption)
  | go t =>
    simp only [act] at h
    split at h
    · split at h
      · simp at h; obtain ⟨rfl, rfl⟩ := h; exact .take (by assumption) (by assumption)
      · split at h
        · simp at h; obtain ⟨rfl, rfl⟩ := h; exact .lookClosed (by assumption) (by assumption) (by assumption)
        · split at h
          · simp at h; obtain ⟨rfl, rfl⟩ := h; exact .miss (by assumption) (by assumption) (by simp_all) (by assumption)
          · cases h
    · simp at h; obtain ⟨rfl, rfl⟩ := h; exact .opened (by assumption)
    · simp at h; obtain ⟨rfl, rfl⟩ := h; exact .begin (by assumption)
    · simp at h; obtain ⟨rfl, rfl⟩ := h; exact .sent (by assumption)
    · simp at h; obtain ⟨rfl, rfl⟩ := h; exact .closeBad (by assumption)
    · split at h
      · simp at h; obtain ⟨rfl, rfl⟩ := h; exact .putClosed (by assumption) (by assumption)
      · split at h
        · simp at h; obtain ⟨rfl, rfl⟩ := h; exact .put (by assumption) (by simp_all) (by assumption)
        · simp at h; obtain ⟨rfl, rfl⟩ := h; exact .putFull (by assumption) (by simp_all) (by omega)
    · simp at h; obtain ⟨rfl, rfl⟩ := h; exact .closeFull (by assumption)
    · split at h
      · simp at h; obtain ⟨rfl, rfl⟩ := h; exact .drainTake (by assumption) (by assumption)
      · split at h
        · simp at h; obtain ⟨rfl, rfl⟩ := h; exact .drainClosed (by assumption) (by assumption) (by assumption)
        · split at h
          · simp at h; obtain ⟨rfl, rfl⟩ := h; exact .drainEmpty (by assumption) (by assumption) (by simp_all) (by assumption)
          · cases h
    · simp at h; obtain ⟨rfl, rfl⟩ := h; exact .closeDrop (by assumption)
    · split at h
      · simp at h; obtain ⟨rfl, rfl⟩ := h; exact .shutClosed (by assumption) (by assumption)
      · simp at h; obtain ⟨rfl, rfl⟩ := h; exact .shut (by assumption) (by simp_all)
    · simp at h; obtain ⟨rfl, rfl⟩ := h; exact .ret (by assumption)
    · cases h

/-- A schedule. -/
def play (s : State) : List Do → Option (List Ev × State)
  | [] => some ([], s)
  | d :: ds => (act s d).bind fun (e, s') => (play s' ds).map fun (l, s'') => (e :: l, s'')

theorem play_run {ds : List Do} : ∀ {s s' : State} {l : List Ev}, play s ds = some (l, s') → Run s l s' := by
  induction ds with
  | nil => intro s s' l h; simp [play] at h; obtain ⟨rfl, rfl⟩ := h; exact .nil _
  | cons d ds ih =>
    intro s s' l h
    simp only [play, Option.bind_eq_some_iff, Option.map_eq_some_iff] at h
    obtain ⟨⟨e, s1⟩, h1, ⟨l2, s2⟩, h2, h3⟩ := h
    simp at h3
    obtain ⟨rfl, rfl⟩ := h3
    exact run_append (.snoc (.nil _) (act_step h1)) (ih h2)

end Verif.Proof.Pool
