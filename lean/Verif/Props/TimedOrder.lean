import Verif.Props.Timed
/-! C69: what a call has done by the time it returns. -/
namespace Verif.Props
open Verif.Model.Timed Verif.Spec.Timed

variable {cfg : Config} {x : Ctx} {s s' s'' : State} {n t0 : Nat} {w : Who} {q : Pc}

theorem passed_next (h : Passed cfg x s n s' q) (hs : Step cfg x s' w s'') : Passed cfg x s (n + 1) s'' q := by
  obtain ⟨m, k, s1, rfl, h1, h2, h3⟩ := h
  exact ⟨m, k + 1, s1, rfl, h1, h2.snoc hs, h3⟩

theorem passed_here (h : Run cfg x s n s') (hq : s'.pc = q) : Passed cfg x s n s' q := ⟨n, 0, s', rfl, h, .nil _, hq⟩

/-- What a call that dials has been through. -/
structure Order (cfg : Config) (x : Ctx) (s : State) (n : Nat) (s' : State) : Prop where
  run : Run cfg x s n s'
  secure : exchange s'.pc = some .plain → cfg.secure = true
  tls : exchange s'.pc = some .tls ∨ s'.pc = .handshake → cfg.tls = true
  sends : exchange s'.pc = some .send → cfg.sends = true
  shaken : cfg.tls = true → s'.pc = .dial ∨ exchange s'.pc = some .tls ∨ s'.pc = .closing .error ∨ s'.pc = .closing .timeout ∨
    s'.pc = .done .error ∨ s'.pc = .done .timeout ∨ Passed cfg x s n s' .handshake
  started : s'.pc = .read .start ∨ exchange s'.pc = some .cont ∨ exchange s'.pc = some .plain ∨ exchange s'.pc = some .send ∨
    s'.pc = .closing .ok ∨ s'.pc = .done .ok → Passed cfg x s n s' (.write .start)
  sent : s'.pc = .read .send ∨ s'.pc = .closing .ok ∨ (s'.pc = .done .ok ∧ cfg.sends = true) → Passed cfg x s n s' (.write .send)

theorem order_next {k : Kind} {t : Nat} {p : Pc} (h : Order cfg x s n s') (hp : s'.pc = .write k ∨ s'.pc = .read k) (hn : Next cfg k p)
    (hs : Step cfg x s' w ⟨t, s'.limit, p⟩) : Order cfg x s (n + 1) ⟨t, s'.limit, p⟩ := by
  have he : exchange s'.pc = some k := by rcases hp with hp | hp <;> rw [hp] <;> rfl
  have hsh : cfg.tls = true → k ≠ .tls → Passed cfg x s n s' .handshake := fun h1 h2 => by
    rcases h.shaken h1 with h | h | h | h | h | h | h
    · rw [h] at he; cases he
    · rw [he] at h; cases h; exact absurd rfl h2
    · rw [h] at he; cases he
    · rw [h] at he; cases he
    · rw [h] at he; cases he
    · rw [h] at he; cases he
    · exact h
  have hst : k ≠ .tls → Passed cfg x s n s' (.write .start) := fun h2 => by
    cases k with
    | tls => exact absurd rfl h2
    | start =>
      rcases hp with hp | hp
      · exact passed_here h.run hp
      · exact h.started (.inl hp)
    | cont => exact h.started (.inr (.inl he))
    | plain => exact h.started (.inr (.inr (.inl he)))
    | send => exact h.started (.inr (.inr (.inr (.inl he))))
  have hse : k = .send → Passed cfg x s n s' (.write .send) := fun h2 => by
    subst h2
    rcases hp with hp | hp
    · exact passed_here h.run hp
    · exact h.sent (.inl hp)
  have hr := h.run.snoc hs
  cases hn with
  | more =>
    refine ⟨hr, fun h1 => h.secure (by rw [he]; exact h1), fun h1 => ?_, fun h1 => h.sends (by rw [he]; exact h1), fun h1 => ?_, fun h1 => ?_, fun h1 => ?_⟩
    · rcases h1 with h1 | h1
      · exact h.tls (.inl (by rw [he]; exact h1))
      · cases h1
    · by_cases hk : k = .tls
      · subst hk; exact .inr (.inl rfl)
      · exact .inr (.inr (.inr (.inr (.inr (.inr (passed_next (hsh h1 hk) hs))))))
    · refine passed_next (hst ?_) hs
      rintro rfl
      simp [exchange] at h1
    · refine passed_next (hse ?_) hs
      simpa using h1
  | error => exact ⟨hr, fun h1 => (nomatch h1), fun h1 => by simp [exchange] at h1, fun h1 => (nomatch h1), fun _ => by simp,
      fun h1 => by simp [exchange] at h1, fun h1 => by simp at h1⟩
  | sent => exact ⟨hr, fun h1 => (nomatch h1), fun h1 => by simp [exchange] at h1, fun h1 => (nomatch h1),
      fun h1 => by simp [passed_next (hsh h1 (by decide)) hs], fun _ => passed_next (hst (by decide)) hs, fun _ => passed_next (hse rfl) hs⟩
  | capability => exact ⟨hr, fun h1 => (nomatch h1), fun _ => h.tls (.inl he), fun h1 => (nomatch h1),
      fun h1 => by simp [passed_here hr rfl], fun h1 => by simp [exchange] at h1, fun h1 => by simp at h1⟩
  | «continue» => exact ⟨hr, fun h1 => (nomatch h1), fun h1 => by simp [exchange] at h1, fun h1 => (nomatch h1),
      fun h1 => by simp [passed_next (hsh h1 (by decide)) hs], fun _ => passed_next (hst (by decide)) hs, fun h1 => by simp at h1⟩
  | plain hsec hk =>
    have hk' : k ≠ .tls := by rcases hk with rfl | rfl <;> decide
    exact ⟨hr, fun _ => hsec, fun h1 => by simp [exchange] at h1, fun h1 => (nomatch h1),
      fun h1 => by simp [passed_next (hsh h1 hk') hs], fun _ => passed_next (hst hk') hs, fun h1 => by simp at h1⟩
  | authenticated hk =>
    have hk' : k ≠ .tls := by rcases hk with rfl | rfl | rfl <;> decide
    have h1 := fun h => passed_next (hsh h hk') hs
    have h2 := passed_next (hst hk') hs
    cases hc : cfg.sends with
    | true =>
      simp only [hc, if_true] at hs hr h1 h2 ⊢
      exact ⟨hr, fun h1 => (nomatch h1), fun h1 => by simp [exchange] at h1, fun _ => hc, fun h3 => by simp [h1 h3], fun _ => h2, fun h1 => by simp at h1⟩
    | false =>
      simp only [hc, if_false, Bool.false_eq_true] at hs hr h1 h2 ⊢
      exact ⟨hr, fun h1 => (nomatch h1), fun h1 => by simp [exchange] at h1, fun h1 => (nomatch h1), fun h3 => by simp [h1 h3], fun _ => h2,
        fun h1 => by simp [hc] at h1⟩

theorem order_run {s0 : State} (h0 : s0 = dialling t0) (h : Run cfg x s0 n s') : Order cfg x s0 n s' := by
  induction h with
  | nil =>
    subst h0
    exact ⟨.nil _, fun h => (nomatch h), fun h => by simp [dialling, exchange] at h, fun h => (nomatch h), fun _ => .inl rfl,
      fun h => by simp [dialling, exchange] at h, fun h => by simp [dialling] at h⟩
  | @snoc s' s'' n w h hs ih =>
    have hi := ih
    have hr := h.snoc hs
    have bad : ∀ t l r, r ≠ .ok → s'' = ⟨t, l, .closing r⟩ ∨ s'' = ⟨t, l, .done r⟩ → Order cfg x s0 (n + 1) s'' := by
      rintro t l r hne (rfl | rfl)
      · exact ⟨hr, fun h => (nomatch h), fun h => by simp [exchange] at h, fun h => (nomatch h), fun _ => by cases r <;> simp at hne ⊢,
          fun h => by simp [exchange, hne] at h, fun h => by simp [hne] at h⟩
      · exact ⟨hr, fun h => (nomatch h), fun h => by simp [exchange] at h, fun h => (nomatch h), fun _ => by cases r <;> simp at hne ⊢,
          fun h => by simp [exchange, hne] at h, fun h => by simp [hne] at h⟩
    cases hs with
    | dialled hp ht =>
      cases hc : cfg.tls with
      | true =>
        rw [hc] at hr
        exact ⟨hr, fun h => (nomatch h), fun _ => hc, fun h => (nomatch h), fun _ => .inr (.inl rfl),
          fun h => by simp [exchange] at h, fun h => by simp at h⟩
      | false =>
        rw [hc] at hr
        exact ⟨hr, fun h => (nomatch h), fun h => by simp [exchange] at h, fun h => (nomatch h), fun h => (by rw [hc] at h; cases h),
          fun h => by simp [exchange] at h, fun h => by simp at h⟩
    | notDialled hp ht => exact bad _ _ .error (by decide) (.inr rfl)
    | dialExpired hp hd => exact bad _ _ .timeout (by decide) (.inr rfl)
    | setFailed hp => exact bad _ _ .error (by decide) (.inl rfl)
    | failed hb ht => exact bad _ _ .error (by decide) (.inl rfl)
    | expired hb hd => exact bad _ _ (overdue s'.pc) (by unfold overdue; split <;> decide) (.inl rfl)
    | @setDeadline k hp =>
      have he : exchange s'.pc = some k := by rw [hp]; rfl
      have hs : Step cfg x s' .own ⟨s'.now, x.deadline, .write k⟩ := .setDeadline hp
      refine ⟨hr, fun h => hi.secure (by rw [he]; exact h), fun h => hi.tls (.inl ?_), fun h => hi.sends (by rw [he]; exact h), fun h => ?_, fun h => ?_,
        fun h => by simp at h⟩
      · rw [he]
        simpa [exchange] using h
      · rcases hi.shaken h with h | h | h | h | h | h | h
        · rw [hp] at h; cases h
        · rw [he] at h; exact .inr (.inl h)
        · rw [hp] at h; cases h
        · rw [hp] at h; cases h
        · rw [hp] at h; cases h
        · rw [hp] at h; cases h
        · simp [passed_next h hs]
      · refine passed_next (hi.started ?_) hs
        rw [he]
        simp [exchange] at h
        rcases h with h | h | h <;> simp [h]
    | wrote hp ht hn => exact order_next hi (.inl hp) hn (.wrote hp ht hn)
    | got hp ht hn => exact order_next hi (.inr hp) hn (.got hp ht hn)
    | @shook t p hp ht hq =>
      have hs : Step cfg x s' .net ⟨t, s'.limit, p⟩ := .shook hp ht hq
      have hh := passed_next (passed_here h hp) hs
      rcases hq with rfl | rfl
      · exact ⟨hr, fun h => (nomatch h), fun _ => hi.tls (.inr hp), fun h => (nomatch h), fun _ => by simp [hh],
          fun h => by simp [exchange] at h, fun h => by simp at h⟩
      · exact ⟨hr, fun h => (nomatch h), fun h => by simp [exchange] at h, fun h => (nomatch h), fun _ => by simp [hh],
          fun h => by simp [exchange] at h, fun h => by simp at h⟩
    | @closed r δ hp hδ =>
      have hs : Step cfg x s' .own ⟨s'.now + δ, s'.limit, .done r⟩ := .closed hp hδ
      by_cases hne : r = .ok
      · subst hne
        refine ⟨hr, fun h => (nomatch h), fun h => by simp [exchange] at h, fun h => (nomatch h), fun h => ?_,
          fun _ => passed_next (hi.started (by simp [hp])) hs, fun _ => passed_next (hi.sent (.inr (.inl hp))) hs⟩
        have := hi.shaken h
        rw [hp] at this
        simp [exchange] at this
        simp [passed_next this hs]
      · exact bad _ _ r hne (.inr rfl)

/-- **C69**: keeping to a deadline is not done by leaving anything out.  A call that dials and succeeds has begun the
authentication, with TLS it has shaken hands, and if there is a request it has written that. -/
theorem C69_did (h : Run cfg x (dialling t0) n s') (hd : s'.pc = .done .ok) :
    Passed cfg x (dialling t0) n s' (.write .start) ∧ (cfg.tls = true → Passed cfg x (dialling t0) n s' .handshake) ∧
    (cfg.sends = true → Passed cfg x (dialling t0) n s' (.write .send)) := by
  have o := order_run rfl h
  refine ⟨o.started (by simp [hd]), fun ht => ?_, fun hs => o.sent (.inr (.inr ⟨hd, hs⟩))⟩
  have := o.shaken ht
  rw [hd] at this
  simpa [exchange] using this

/-- The request and the attempt with PLAIN come only after the first attempt, with TLS all of them after the handshake;
TLS is only tried with a TLS configuration, PLAIN only over a secure transport, a request only written if there is one. -/
theorem C69_order (h : Run cfg x (dialling t0) n s') :
    (exchange s'.pc = some .cont ∨ exchange s'.pc = some .plain ∨ exchange s'.pc = some .send → Passed cfg x (dialling t0) n s' (.write .start)) ∧
    (∀ k, exchange s'.pc = some k → k ≠ .tls → cfg.tls = true → Passed cfg x (dialling t0) n s' .handshake) ∧
    (exchange s'.pc = some .tls ∨ s'.pc = .handshake → cfg.tls = true) ∧ (exchange s'.pc = some .plain → cfg.secure = true) ∧
    (exchange s'.pc = some .send → cfg.sends = true) := by
  have o := order_run rfl h
  refine ⟨fun h => o.started (by rcases h with h | h | h <;> simp [h]), fun k hk hne ht => ?_, o.tls, o.secure, o.sends⟩
  rcases o.shaken ht with h | h | h | h | h | h | h
  · rw [h] at hk; cases hk
  · rw [hk] at h; cases h; exact absurd rfl hne
  · rw [h] at hk; cases hk
  · rw [h] at hk; cases hk
  · rw [h] at hk; cases hk
  · rw [h] at hk; cases hk
  · exact h

/-- A `Send` on a connection is one exchange. -/
theorem C69_one_exchange {old : Option Nat} (h : Run cfg x (sending t0 old) n s') :
    exchange s'.pc = some .send ∨ (∃ r, s'.pc = .closing r) ∨ ∃ r, s'.pc = .done r := by
  generalize h0 : sending t0 old = s0 at h
  induction h with
  | nil => subst h0; exact .inl rfl
  | @snoc s' s'' n w h hs ih =>
    have hi := ih
    have next : ∀ {k p}, (s'.pc = .write k ∨ s'.pc = .read k) → Next cfg k p → exchange p = some .send ∨ (∃ r, p = .closing r) ∨ ∃ r, p = .done r := by
      intro k p hp hn
      have : k = .send := by rcases hp with hp | hp <;> simpa [hp, exchange] using hi
      subst this
      cases hn with
      | more => exact .inl rfl
      | error => simp
      | sent => simp
      | plain _ hk => simp at hk
      | authenticated hk => simp at hk
    cases hs with
    | dialled hp => simp [hp, exchange] at hi
    | notDialled hp => simp
    | dialExpired hp => simp
    | setDeadline hp => simpa [hp, exchange] using hi
    | setFailed hp => simp
    | wrote hp ht hn => exact next (.inl hp) hn
    | got hp ht hn => exact next (.inr hp) hn
    | shook hp => simp [hp, exchange] at hi
    | failed => simp
    | expired => simp
    | closed => simp

/-! ### cases -/

/-- Dialling, authentication in one round and a request, without TLS. -/
example : ∃ s', Run ⟨false, false, true, 0⟩ ⟨none, none⟩ (dialling 0) 6 s' ∧ s'.pc = .done .ok := by
  have r1 := (Run.nil (dialling 0)).snoc (cfg := ⟨false, false, true, 0⟩) (x := ⟨none, none⟩) (.dialled rfl (.mk (δ := 3) (by decide) (fun d h => by cases h)))
  have r2 := r1.snoc (.setDeadline rfl)
  have r3 := r2.snoc (.wrote rfl (.mk (δ := 2) (by decide) (fun d h => by cases h)) (.authenticated (.inl rfl)))
  have r4 := r3.snoc (.setDeadline rfl)
  have r5 := r4.snoc (.wrote rfl (.mk (δ := 1) (by decide) (fun d h => by cases h)) .sent)
  exact ⟨_, r5.snoc (.closed (δ := 0) rfl (Nat.le_refl _)), rfl⟩

end Verif.Props
