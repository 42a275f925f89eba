import Verif.Props.Pool
/-! C57, C58: what the calls of the pool return, what they did by then, and how many connections they have open. -/
namespace Verif.Props
open Verif.Model.Pool Verif.Spec.Pool Verif.Proof.Pool

variable {n : Nat} {l : List Ev} {s s' : State} {t c : Nat}

/-! ### auxiliary -/

/-- What a `Send` has done, by where it is. -/
def sendStory (s : State) (t : Nat) (w : List Ev) : Prop :=
  match s.pc t with
  | .look => w = []
  | .dial => w = [.miss t]
  | .got c => Got t c w
  | .busy c => ∃ g, Got t c g ∧ w = g ++ [.begin t c]
  | .bad c => ∃ g, Got t c g ∧ w = g ++ [.begin t c, .finish t c false]
  | .put c | .full c | .panicked (some c) => ∃ g, Got t c g ∧ w = g ++ [.begin t c, .finish t c true]
  | .ret r | .done r => SendDeeds t r w ∧ (r = .ctx → s.ctx t = true) ∧ (r = .poolClosed → s.closed = true)
  | _ => False

/-- What a `Close` has done, by where it is. -/
def closeStory (s : State) (t : Nat) (w : List Ev) : Prop :=
  ∃ cs : List Nat, match s.pc t with
  | .drain | .panicked none => w = cs.flatMap (fun c => [.take t c, .close t c])
  | .drop c => w = cs.flatMap (fun c => [.take t c, .close t c]) ++ [.take t c]
  | .leave r => w = cs.flatMap (fun c => [.take t c, .close t c]) ∧ (r = .ok ∨ r = .ctx ∧ s.ctx t = true)
  | .ret r | .done r => w = closeDeeds t cs ∧ (r = .ok ∨ r = .ctx ∧ s.ctx t = true)
  | _ => False

/-- What is known of a call. -/
def Story (l : List Ev) (s : State) (t : Nat) : Prop :=
  (s.pc t = .idle ∧ deeds t l = [] ∧ Ev.callSend t ∉ l ∧ Ev.callClose t ∉ l) ∨
  (Ev.callSend t ∈ l ∧ Ev.callClose t ∉ l ∧ sendStory s t (deeds t l)) ∨
  (Ev.callClose t ∈ l ∧ Ev.callSend t ∉ l ∧ closeStory s t (deeds t l))

theorem deeds_snoc (t : Nat) (l : List Ev) (e : Ev) : deeds t (l ++ [e]) = deeds t l ++ deeds t [e] := by
  simp [deeds]

theorem deeds_other {e : Ev} (h : t ≠ e.thread) : deeds t [e] = [] := by
  cases e <;> simp_all [deeds, Ev.thread] <;> exact Ne.symm h

theorem deeds_take : deeds t [.take t c] = [.take t c] := by simp [deeds]
theorem deeds_miss : deeds t [.miss t] = [.miss t] := by simp [deeds]
theorem deeds_opened : deeds t [.opened t c] = [.opened t c] := by simp [deeds]
theorem deeds_begin : deeds t [.begin t c] = [.begin t c] := by simp [deeds]
theorem deeds_finish {ok : Bool} : deeds t [.finish t c ok] = [.finish t c ok] := by simp [deeds]
theorem deeds_close : deeds t [.close t c] = [.close t c] := by simp [deeds]
theorem deeds_put : deeds t [.put t c] = [.put t c] := by simp [deeds]
theorem deeds_shut : deeds t [.shut t] = [.shut t] := by simp [deeds]
theorem deeds_callSend : deeds t [.callSend t] = [] := by simp [deeds]
theorem deeds_callClose : deeds t [.callClose t] = [] := by simp [deeds]
theorem deeds_cancel : deeds t [.cancel t] = [] := by simp [deeds]
theorem deeds_tau : deeds t [.tau t] = [] := by simp [deeds]
theorem deeds_panic : deeds t [.panic t] = [] := by simp [deeds]
theorem deeds_ret {r : Res} : deeds t [.ret t r] = [] := by simp [deeds]

theorem ctx_mono {e : Ev} (hs : Step s e s') : s.ctx t = true → s'.ctx t = true := by
  cases hs <;> simp_all [State.goto]

theorem closed_mono {e : Ev} (hs : Step s e s') : s.closed = true → s'.closed = true := by
  cases hs <;> simp_all [State.goto]

theorem sendStory_same {w : List Ev} (hp : s'.pc t = s.pc t) (hc : s.ctx t = true → s'.ctx t = true)
    (hcl : s.closed = true → s'.closed = true) (h : sendStory s t w) : sendStory s' t w := by
  simp only [sendStory, hp] at h ⊢
  split <;> simp_all

theorem closeStory_same {w : List Ev} (hp : s'.pc t = s.pc t) (hc : s.ctx t = true → s'.ctx t = true)
    (h : closeStory s t w) : closeStory s' t w := by
  obtain ⟨cs, h⟩ := h
  refine ⟨cs, ?_⟩
  simp only [hp] at h ⊢
  split <;> simp_all
  · rcases h.2 with h | h <;> simp_all
  · rcases h.2 with h | h <;> simp_all
  · rcases h.2 with h | h <;> simp_all

theorem story_same {e : Ev} (hp : s'.pc t = s.pc t) (hd : deeds t [e] = []) (h1 : e ≠ .callSend t) (h2 : e ≠ .callClose t)
    (hs : Step s e s') (h : Story l s t) : Story (l ++ [e]) s' t := by
  have h1 : Ev.callSend t ∈ l ++ [e] ↔ Ev.callSend t ∈ l := by simp [Ne.symm h1]
  have h2 : Ev.callClose t ∈ l ++ [e] ↔ Ev.callClose t ∈ l := by simp [Ne.symm h2]
  simp only [Story, deeds_snoc, hd, List.append_nil, h1, h2, hp]
  rcases h with i | ⟨i1, i2, i3⟩ | ⟨i1, i2, i3⟩
  · exact .inl i
  · exact .inr (.inl ⟨i1, i2, sendStory_same hp (ctx_mono hs) (closed_mono hs) i3⟩)
  · exact .inr (.inr ⟨i1, i2, closeStory_same hp (ctx_mono hs) i3⟩)

theorem send_step {e : Ev} {w : List Ev} (hs : Step s e s') (ht : e.thread = t) (hc : e ≠ .cancel t) (h : sendStory s t w) :
    sendStory s' t (w ++ deeds t [e]) := by
  cases hs <;> simp only [Ev.thread] at ht <;> subst ht
  all_goals
    simp_all [State.goto, sendStory, deeds_take, deeds_miss, deeds_opened, deeds_begin, deeds_finish, deeds_close, deeds_put, deeds_tau, deeds_panic, deeds_ret]
  all_goals first
    | exact .old | exact .new | exact .ctx | exact .poolClosed | exact .connector
    | (obtain ⟨g, hg, rfl⟩ := h
       first
        | (simpa using SendDeeds.send hg)
        | (simpa using SendDeeds.ok hg (.inl rfl))
        | (simpa using SendDeeds.ok hg (.inr rfl))
        | exact ⟨g, hg, by simp⟩)

theorem close_step {e : Ev} {w : List Ev} (hs : Step s e s') (ht : e.thread = t) (hc : e ≠ .cancel t) (h : closeStory s t w) :
    closeStory s' t (w ++ deeds t [e]) := by
  obtain ⟨cs, h⟩ := h
  cases hs <;> simp only [Ev.thread] at ht <;> subst ht
  all_goals
    simp_all [State.goto, closeStory, closeDeeds, deeds_take, deeds_close, deeds_shut, deeds_tau, deeds_panic, deeds_ret]
  all_goals first
    | exact ⟨cs, rfl⟩
    | (rename_i c _; exact ⟨cs ++ [c], by simp⟩)
    | (rename_i c; exact ⟨cs ++ [c], by simp⟩)

theorem story_run (h : Run (init n) l s) : Story l s t := by
  generalize hi : init n = s0 at h
  induction h with
  | nil => subst hi; exact .inl ⟨rfl, rfl, by simp, by simp⟩
  | @snoc s s' l e hr hs ih =>
    have ih := ih
    by_cases hte : t = e.thread
    · by_cases hx : e = .cancel t
      · subst hx
        refine story_same ?_ deeds_cancel (by simp) (by simp) hs ih
        cases hs; rfl
      · rcases ih with ⟨i1, i2, i3, i4⟩ | ⟨i1, i2, i3⟩ | ⟨i1, i2, i3⟩
        · cases hs <;> simp only [Ev.thread] at hte <;> subst hte <;> simp_all
          · refine .inr (.inl ⟨by simp, by simpa using i4, ?_⟩)
            rw [deeds_snoc, i2, deeds_callSend]
            simp [sendStory, State.goto]
          · refine .inr (.inr ⟨by simp, by simpa using i3, ?_⟩)
            rw [deeds_snoc, i2, deeds_callClose]
            exact ⟨[], by simp [State.goto]⟩
        · refine .inr (.inl ⟨by simp [i1], ?_, ?_⟩)
          · simp only [List.mem_append, List.mem_singleton, not_or]
            refine ⟨i2, ?_⟩
            rintro rfl
            cases hs with
            | callClose h1 => simp only [sendStory, h1] at i3
          · rw [deeds_snoc]; exact send_step hs hte.symm hx i3
        · refine .inr (.inr ⟨by simp [i1], ?_, ?_⟩)
          · simp only [List.mem_append, List.mem_singleton, not_or]
            refine ⟨i2, ?_⟩
            rintro rfl
            cases hs with
            | callSend h1 => obtain ⟨cs, i3⟩ := i3; simp only [h1] at i3
          · rw [deeds_snoc]; exact close_step hs hte.symm hx i3
    · exact story_same (pc_other hs hte) (deeds_other hte) (by rintro rfl; exact hte rfl) (by rintro rfl; exact hte rfl) hs ih

theorem ctx_ev (h : Run (init n) l s) (hc : s.ctx t = true) : Ev.cancel t ∈ l := by
  generalize hi : init n = s0 at h
  induction h with
  | nil => subst hi; simp [init] at hc
  | @snoc s s' l e hr hs ih =>
    have ih := fun h => ih h
    by_cases hx : e = .cancel t
    · simp [hx]
    · refine List.mem_append_left _ (ih ?_)
      cases hs <;> simp_all [State.goto]
      by_cases he : t = ‹Nat› <;> simp_all

/-! ### C57 -/

/-- **C57.** When a `Send` has returned, its result tells what it did, and it did nothing else: nil, the command was sent
once, on one connection taken from the pool or made, and that connection went into the pool or was closed; the error of the
connection, the connection was closed; the error of the connector, it was asked; `ctx.Err()` or `ErrPoolClosed`, no
connection was touched. -/
theorem C57_send (h : Run (init n) l s) (hc : Ev.callSend t ∈ l) {r : Res} (hr : Ev.ret t r ∈ l) : SendDeeds t r (deeds t l) := by
  have hd := ret_done h hr
  rcases story_run (t := t) h with i | ⟨-, -, i⟩ | ⟨-, i, -⟩
  · exact absurd hc i.2.2.1
  · simp only [sendStory, hd] at i; exact i.1
  · exact absurd hc i

/-- **C57.** `Send` returns `ctx.Err()` only if its context is done, and `ErrPoolClosed` only if a `Close` has closed the
pool. -/
theorem C57_reasons (h : Run (init n) l s) (hc : Ev.callSend t ∈ l) {r : Res} (hr : Ev.ret t r ∈ l) :
    (r = .ctx → Ev.cancel t ∈ l) ∧ (r = .poolClosed → ∃ t', Ev.shut t' ∈ l) := by
  have hd := ret_done h hr
  rcases story_run (t := t) h with i | ⟨-, -, i⟩ | ⟨-, i, -⟩
  · exact absurd hc i.2.2.1
  · simp only [sendStory, hd] at i
    exact ⟨fun h1 => ctx_ev h (i.2.1 h1), fun h1 => closed_shut h (i.2.2 h1)⟩
  · exact absurd hc i

/-- **C57.** When a `Close` has returned, it has closed every connection it took from the pool and, after that, the pool; it
did nothing else.  It returns nil, or `ctx.Err()` if its context is done. -/
theorem C57_close (h : Run (init n) l s) (hc : Ev.callClose t ∈ l) {r : Res} (hr : Ev.ret t r ∈ l) :
    (∃ cs, deeds t l = closeDeeds t cs) ∧ (r = .ok ∨ r = .ctx ∧ Ev.cancel t ∈ l) := by
  have hd := ret_done h hr
  rcases story_run (t := t) h with i | ⟨-, i, -⟩ | ⟨-, -, cs, i⟩
  · exact absurd hc i.2.2.2
  · exact absurd hc i
  · simp only [hd] at i
    refine ⟨⟨cs, i.1⟩, ?_⟩
    rcases i.2 with h1 | ⟨h1, h2⟩
    · exact .inl h1
    · exact .inr ⟨h1, ctx_ev h h2⟩

/-- **C57.** No two results can be confused, but `ctx.Err()` and `ErrPoolClosed`: what was done by a `Send` that returned one
is not what is done by a `Send` that returns another, unless neither touched a connection. -/
theorem C57_told {r r' : Res} {w w' : List Ev} (h : SendDeeds t r w) (h' : SendDeeds t r' w') (e : w = w') : r = r' ∨ w = [] := by
  cases h with
  | ok hg he =>
    cases hg <;> cases h' with
    | ok hg' he' => exact .inl rfl
    | send hg' => cases hg' <;> simp at e
    | _ => simp at e
  | send hg =>
    cases hg <;> cases h' with
    | ok hg' he' => cases hg' <;> simp at e
    | send hg' => exact .inl rfl
    | _ => simp at e
  | connector =>
    cases h' with
    | ok hg' he' => cases hg' <;> simp at e
    | send hg' => cases hg' <;> simp at e
    | connector => exact .inl rfl
    | _ => simp at e
  | ctx => exact .inr rfl
  | poolClosed => exact .inr rfl

/-! ### C58 -/

theorem pigeon (R : Nat → Nat → Prop) (hi : ∀ a b x, R a x → R b x → a = b) (as : List Nat) :
    as.Nodup → ∀ xs : List Nat, (∀ a ∈ as, ∃ x ∈ xs, R a x) → as.length ≤ xs.length := by
  induction as with
  | nil => simp
  | cons a as ih =>
    intro hn xs hx
    rw [List.nodup_cons] at hn
    obtain ⟨x, hxm, hr⟩ := hx a (by simp)
    have := ih hn.2 (xs.erase x) fun b hb => by
      obtain ⟨y, hy, hb'⟩ := hx b (by simp [hb])
      refine ⟨y, ?_, hb'⟩
      have hyx : y ≠ x := by rintro rfl; exact hn.1 (hi a b y hr hb' ▸ hb)
      exact (List.mem_erase_of_ne hyx).2 hy
    rw [List.length_erase_of_mem hxm] at this
    have : 0 < xs.length := List.length_pos_of_mem hxm
    simp only [List.length_cons]
    omega

theorem holder_unfinished (h : Run (init n) l s) (hh : holds (s.pc t) = some c) : t ∈ unfinished l := by
  have hr : ∀ r, Ev.ret t r ∉ l := fun r hr => by rw [ret_done h hr] at hh; simp [holds] at hh
  have hr' : returned t l = false := by
    rw [returned, List.any_eq_false]
    intro e he
    split
    · rename_i t' r
      simp only [beq_iff_eq]
      rintro rfl
      exact hr r he
    · simp
  have hc : Ev.callSend t ∈ l ∨ Ev.callClose t ∈ l := by
    rcases story_run (t := t) h with i | ⟨i, -⟩ | ⟨i, -⟩
    · rw [i.1] at hh; simp [holds] at hh
    · exact .inl i
    · exact .inr i
  rw [unfinished, List.mem_filterMap]
  rcases hc with hc | hc <;> exact ⟨_, hc, by simp [hr']⟩

/-- **C58.** At any moment at most `size` connections plus one for each call that has not returned are open. -/
theorem C58_open_bounded (h : Run (init n) l s) (cs : List Nat) (hn : cs.Nodup) (ho : ∀ c ∈ cs, isOpen c l) :
    cs.length ≤ n + (unfinished l).length := by
  have inv := inv_run (inv_init n) h
  simp only [List.nil_append] at inv
  have hcap : s.queue.length ≤ n := (C41_bounded h).1
  have := pigeon (fun c x => (x = 2 * c ∧ c ∈ s.queue) ∨ ∃ t, x = 2 * t + 1 ∧ holds (s.pc t) = some c)
    (by
      rintro a b x (⟨h1, -⟩ | ⟨t, h1, h2⟩) (⟨h3, -⟩ | ⟨t', h3, h4⟩)
      · omega
      · omega
      · omega
      · obtain rfl : t = t' := by omega
        rw [h2] at h4
        exact Option.some.inj h4)
    cs hn (s.queue.map (2 * ·) ++ (unfinished l).map (2 * · + 1))
    (by
      intro c hc
      obtain ⟨st, h1, h2, h3⟩ := ho c hc
      obtain ⟨st', a, w⟩ := inv.where c
      rw [h1] at a
      cases a
      cases w with
      | absent => exact absurd rfl h2
      | closed => exact absurd rfl h3
      | queued _ hq _ => exact ⟨2 * c, List.mem_append_left _ (List.mem_map.2 ⟨c, hq, rfl⟩), .inl ⟨rfl, hq⟩⟩
      | @held _ _ t _ ht _ _ => exact ⟨2 * t + 1, List.mem_append_right _ (List.mem_map.2 ⟨t, holder_unfinished h ht, rfl⟩), .inr ⟨t, rfl, ht⟩⟩)
  simp only [List.length_append, List.length_map] at this
  omega

end Verif.Props
