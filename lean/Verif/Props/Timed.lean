import Verif.Spec.Timed
/-! C69: calls return when their context is done. -/
namespace Verif.Props
open Verif.Model.Timed Verif.Spec.Timed

variable {cfg : Config} {x : Ctx} {s s' : State} {n : Nat} {w : Who}

/-- The whole of **C69**: once its context is done, by its deadline or because it was cancelled, a call is over (it may
still close the connection), and it is never left waiting for the network alone. -/
def C69_full : Prop := ∀ (cfg : Config) (x : Ctx) (t0 : Nat) (s s' : State) (n e : Nat), Begins t0 s → Run cfg x s n s' → x.doneAt = some e →
  s'.now ≤ max t0 e + cfg.grace ∧ (Pending s' → ∃ s'', Step cfg x s' .own s'')

theorem doneAt_le {d : Nat} (h : x.deadline = some d) : ∃ e, x.doneAt = some e ∧ e ≤ d := by
  obtain ⟨dl, c⟩ := x
  cases h
  cases c with
  | none => exact ⟨d, rfl, Nat.le_refl _⟩
  | some c => exact ⟨min d c, rfl, Nat.min_le_left ..⟩

/-- What holds throughout a call. -/
structure Held (cfg : Config) (x : Ctx) (t0 : Nat) (n : Nat) (s : State) : Prop where
  start : t0 ≤ s.now
  /-- operations on the connection are under the deadline of this call -/
  limit : busy s.pc = true → s.limit = x.deadline
  time : ∀ d, x.deadline = some d → match s.pc with | .done _ => s.now ≤ max t0 d + cfg.grace | _ => s.now ≤ max t0 d
  /-- every other step takes time -/
  steps : match s.pc with
    | .dial | .deadline _ | .read _ | .handshake => n ≤ 2 * (s.now - t0)
    | .write _ => n ≤ 2 * (s.now - t0) + 1
    | .closing _ => n ≤ 2 * (s.now - t0) + 2
    | .done _ => n ≤ 2 * (s.now - t0) + 3
  /-- a timeout is not reported early -/
  due : s.pc = .closing .timeout ∨ s.pc = .done .timeout → ∃ e, x.doneAt = some e ∧ e ≤ s.now

theorem next_cases {k : Kind} {p : Pc} (h : Next cfg k p) :
    p = .read k ∨ p = .closing .error ∨ p = .closing .ok ∨ p = .handshake ∨ (∃ k', p = .deadline k') ∨ p = .done .ok := by
  cases h with
  | more => simp
  | error => simp
  | sent => simp
  | capability => simp
  | «continue» => simp
  | plain => simp
  | authenticated =>
    cases cfg.sends
    · simp
    · simp

theorem held_op {t : Nat} {p : Pc} {l : Option Nat} (h : Held cfg x t0 n s) (hb : busy s.pc = true) (ht : Takes s.limit s.now t)
    (hp : p = .read k ∨ p = .closing .error ∨ p = .closing .ok ∨ p = .handshake ∨ (∃ k', p = .deadline k') ∨ p = .done .ok) (hl : l = s.limit) :
    Held cfg x t0 (n + 1) ⟨t, l, p⟩ := by
  subst hl
  obtain ⟨h1, h2, h3, h4, -⟩ := h
  cases ht with
  | @mk δ hδ hd =>
    have hlim := h2 hb
    have hst : n + 1 ≤ 2 * (s.now + δ - t0) := by
      revert h4 hb
      cases s.pc <;> simp [busy] <;> intros <;> omega
    have htm : ∀ d, x.deadline = some d → s.now + δ ≤ max t0 d := fun d hx => by
      have := hd d (hlim.trans hx)
      omega
    refine ⟨by simp only; omega, fun _ => hlim, fun d hx => ?_, ?_, fun h => ?_⟩
    · have := htm d hx
      rcases hp with rfl | rfl | rfl | rfl | ⟨k', rfl⟩ | rfl <;> simp only <;> omega
    · rcases hp with rfl | rfl | rfl | rfl | ⟨k', rfl⟩ | rfl <;> simp only <;> omega
    · rcases hp with rfl | rfl | rfl | rfl | ⟨k', rfl⟩ | rfl <;> simp at h

theorem held_step (h : Held cfg x t0 n s) (hs : Step cfg x s w s') : Held cfg x t0 (n + 1) s' := by
  have h0 := h
  obtain ⟨h1, h2, h3, h4, h5⟩ := h
  cases hs with
  | dialled hp ht =>
    cases ht with
    | @mk δ hδ hd =>
      rw [hp] at h4
      simp only at h4
      refine ⟨by simp only; omega, fun h => by simp [busy] at h, fun d hx => ?_, by simp only; omega, fun h => by simp at h⟩
      obtain ⟨e, he, hle⟩ := doneAt_le hx
      have := hd e he
      simp only
      omega
  | notDialled hp ht =>
    cases ht with
    | @mk δ hδ hd =>
      rw [hp] at h4
      simp only at h4
      refine ⟨by simp only; omega, fun h => by simp [busy] at h, fun d hx => ?_, by simp only; omega, fun h => by simp at h⟩
      obtain ⟨e, he, hle⟩ := doneAt_le hx
      have := hd e he
      simp only
      omega
  | @dialExpired e hp he =>
    rw [hp] at h4
    simp only at h4
    refine ⟨by simp only; omega, fun h => by simp [busy] at h, fun d hx => ?_, by simp only; omega, fun _ => ⟨e, he, by simp only; omega⟩⟩
    obtain ⟨e', he', hle⟩ := doneAt_le hx
    rw [he] at he'
    cases he'
    have := h3 d hx
    rw [hp] at this
    simp only at this ⊢
    omega
  | setDeadline hp =>
    rw [hp] at h4
    simp only at h4
    refine ⟨h1, fun _ => rfl, fun d hx => ?_, by simp only; omega, fun h => by simp at h⟩
    have := h3 d hx
    rw [hp] at this
    exact this
  | setFailed hp =>
    rw [hp] at h4
    simp only at h4
    refine ⟨h1, fun h => by simp [busy] at h, fun d hx => ?_, by simp only; omega, fun h => by simp at h⟩
    have := h3 d hx
    rw [hp] at this
    exact this
  | wrote hp ht hn => exact held_op h0 (by rw [hp]; rfl) ht (next_cases hn) rfl
  | got hp ht hn => exact held_op h0 (by rw [hp]; rfl) ht (next_cases hn) rfl
  | shook hp ht hn =>
    refine held_op (k := .tls) h0 (by rw [hp]; rfl) ht ?_ rfl
    rcases hn with rfl | rfl <;> simp
  | failed hb ht => exact held_op (k := .tls) h0 hb ht (by simp) rfl
  | @expired e hb he =>
    have hlim := h2 hb
    rw [he] at hlim
    obtain ⟨e', he', hle⟩ := doneAt_le hlim.symm
    refine ⟨by simp only; omega, fun h => by simp [busy] at h, fun d hx => ?_, ?_, fun _ => ⟨e', he', by simp only; omega⟩⟩
    · rw [hx] at hlim
      cases hlim
      have := h3 _ hx
      revert this hb
      cases s.pc <;> simp [busy] <;> intros <;> omega
    · revert h4 hb
      cases s.pc <;> simp [busy] <;> intros <;> omega
  | @closed r δ hp hδ =>
    rw [hp] at h4
    simp only at h4
    refine ⟨by simp only; omega, fun h => by simp [busy] at h, fun d hx => ?_, by simp only; omega, fun h => ?_⟩
    · have := h3 d hx
      rw [hp] at this
      simp only at this ⊢
      omega
    · simp at h
      subst h
      obtain ⟨e, he, hle⟩ := h5 (.inl hp)
      exact ⟨e, he, by simp only; omega⟩

theorem held_run {t0 : Nat} (hb : Begins t0 s) (h : Run cfg x s n s') : Held cfg x t0 n s' := by
  induction h with
  | nil =>
    rcases hb with ⟨old, rfl⟩ | rfl
    · exact ⟨Nat.le_refl _, (fun h => by simp [sending, busy] at h), (fun d _ => Nat.le_max_left ..), by simp [sending], fun h => by simp [sending] at h⟩
    · exact ⟨Nat.le_refl _, (fun h => by simp [dialling, busy] at h), (fun d _ => Nat.le_max_left ..), by simp [dialling], fun h => by simp [dialling] at h⟩
  | snoc h hs ih => exact held_step ih hs

/-- **C69** for deadlines.  A call whose context has a deadline is over when it passes (or at once, if it has passed before),
but for the time that `Close` may take; it makes a bounded number of steps until then, and it is never left waiting for the
network alone; whatever network and server do and whatever deadline earlier calls left.  That includes the TLS handshake,
which is not given the context.  Missing: contexts that are cancelled (`C69_wrong`). -/
theorem C69_partial {t0 d : Nat} (hb : Begins t0 s) (h : Run cfg x s n s') (hd : x.deadline = some d) :
    s'.now ≤ max t0 d + cfg.grace ∧ n ≤ 2 * (max t0 d + cfg.grace - t0) + 3 ∧ (Pending s' → s'.now ≤ max t0 d ∧ ∃ s'', Step cfg x s' .own s'') := by
  obtain ⟨h1, h2, h3, h4, h5⟩ := held_run hb h
  have ht := h3 d hd
  obtain ⟨e, he, -⟩ := doneAt_le hd
  have hnow : s'.now ≤ max t0 d + cfg.grace := by
    revert ht
    cases s'.pc <;> simp only <;> omega
  refine ⟨hnow, ?_, fun hp => ?_⟩
  · revert h4
    cases s'.pc <;> simp only <;> omega
  · cases hpc : s'.pc with
    | done r => exact absurd hpc (hp r)
    | dial => rw [hpc] at ht; exact ⟨ht, _, .dialExpired hpc he⟩
    | deadline k => rw [hpc] at ht; exact ⟨ht, _, .setDeadline hpc⟩
    | closing r => rw [hpc] at ht; exact ⟨ht, _, .closed hpc (Nat.zero_le _)⟩
    | write k | read k | handshake =>
      rw [hpc] at ht
      have hb' : busy s'.pc = true := by rw [hpc]; rfl
      exact ⟨ht, _, .expired hb' ((h2 hb').trans hd)⟩

/-- No call reports a timeout before its own context is done: deadlines that earlier calls set on the connection have no
effect, with or without a deadline of its own. -/
theorem C69_not_early {t0 : Nat} (hb : Begins t0 s) (h : Run cfg x s n s') (ht : s'.pc = .done .timeout) : ∃ e, x.doneAt = some e ∧ e ≤ s'.now :=
  (held_run hb h).due (.inr ht)

/-- Without a deadline an operation on the connection is only ended by the network. -/
theorem C69_hangs {t0 : Nat} (hb : Begins t0 s) (h : Run cfg x s n s') (hd : x.deadline = none) (hbusy : busy s'.pc = true) : ¬∃ s'', Step cfg x s' .own s'' := by
  have hl := (held_run hb h).limit hbusy
  rw [hd] at hl
  rintro ⟨s'', hs⟩
  cases hs with
  | dialExpired hp => rw [hp] at hbusy; cases hbusy
  | setDeadline hp => rw [hp] at hbusy; cases hbusy
  | setFailed hp => rw [hp] at hbusy; cases hbusy
  | expired _ he => rw [hl] at he; cases he
  | closed hp => rw [hp] at hbusy; cases hbusy

/-- A `Send` with a context that is cancelled at 5, in `Write`. -/
theorem waiting (old : Option Nat) : Run ⟨false, false, false, 0⟩ ⟨none, some 5⟩ (sending 0 old) 1 ⟨0, none, .write .send⟩ :=
  (Run.nil _).snoc (.setDeadline rfl)

/-- **C69** is false: a `Send` does not notice that its context is cancelled, and waits for the network. -/
theorem C69_wrong : ¬C69_full := by
  intro hf
  exact C69_hangs (.inl ⟨none, rfl⟩) (waiting none) rfl rfl
    ((hf _ _ 0 _ _ 1 5 (.inl ⟨none, rfl⟩) (waiting none) rfl).2 (fun r h => by cases h))

/-- Also if the network answers in the end, at any time later. -/
theorem C69_late (late : Nat) : ∃ s', Run ⟨false, false, false, 0⟩ ⟨none, some 5⟩ (sending 0 none) 3 s' ∧ s'.pc = .done .ok ∧ late < s'.now := by
  have r2 := (waiting none).snoc (.wrote (t := 0 + (late + 1)) (k := .send) rfl (.mk (by omega) (fun d h => by cases h)) .sent)
  exact ⟨_, r2.snoc (.closed (δ := 0) rfl (Nat.zero_le _)), rfl, by simp⟩

/-! ### cases -/

/-- A new connection with TLS, under a deadline at 20: dialled at 3, capability at 5 and 6; the handshake stalls and is ended by
the deadline that the exchange before it set.  `Close` takes two more. -/
example : ∃ s', Run ⟨true, true, true, 2⟩ ⟨some 20, none⟩ (dialling 0) 6 s' ∧ s'.pc = .done .timeout ∧ s'.now = 22 := by
  have r1 := (Run.nil (dialling 0)).snoc (cfg := ⟨true, true, true, 2⟩) (x := ⟨some 20, none⟩) (.dialled rfl (.mk (δ := 3) (by decide) (fun d h => by cases h; decide)))
  have r2 := r1.snoc (.setDeadline rfl)
  have r3 := r2.snoc (.wrote rfl (.mk (δ := 2) (by decide) (fun d h => by cases h; decide)) (.more _))
  have r4 := r3.snoc (.got rfl (.mk (δ := 1) (by decide) (fun d h => by cases h; decide)) .capability)
  have r5 := r4.snoc (.expired rfl rfl)
  exact ⟨_, r5.snoc (.closed (δ := 2) rfl (Nat.le_refl _)), rfl, rfl⟩

/-- A connection whose last call had a deadline at 7 is used at 10, without a deadline: it waits until 50 for the answer. -/
example : ∃ s', Run ⟨false, false, false, 0⟩ ⟨none, none⟩ (sending 10 (some 7)) 4 s' ∧ s'.pc = .done .ok ∧ s'.now = 50 := by
  have r1 := (Run.nil (sending 10 (some 7))).snoc (cfg := ⟨false, false, false, 0⟩) (x := ⟨none, none⟩) (.setDeadline rfl)
  have r2 := r1.snoc (.wrote rfl (.mk (δ := 1) (by decide) (fun d h => by cases h)) (.more _))
  have r3 := r2.snoc (.got rfl (.mk (δ := 39) (by decide) (fun d h => by cases h)) .sent)
  exact ⟨_, r3.snoc (.closed (δ := 0) rfl (Nat.zero_le _)), rfl, rfl⟩

/-- A deadline that has passed before the call: the call is over at once. -/
example : ∃ s', Run ⟨false, false, false, 0⟩ ⟨some 7, none⟩ (sending 10 none) 3 s' ∧ s'.pc = .done .timeout ∧ s'.now = 10 := by
  have r1 := (Run.nil (sending 10 none)).snoc (cfg := ⟨false, false, false, 0⟩) (x := ⟨some 7, none⟩) (.setDeadline rfl)
  have r2 := r1.snoc (.expired rfl rfl)
  exact ⟨_, r2.snoc (.closed (δ := 0) rfl (Nat.zero_le _)), rfl, rfl⟩

end Verif.Props
