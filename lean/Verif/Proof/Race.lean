import Verif.Spec.Race
import Verif.Proof.Pool
/-! No data races on connections. -/
namespace Verif.Proof.Race
open Verif.Model.Pool Verif.Spec.Pool Verif.Spec.Race Verif.Proof.Pool

variable {l m : List Ev} {i j : Nat} {s s' : State} {t c : Nat} {e f : Ev}

theorem get_lt (h : l[i]? = some e) : i < l.length := (List.getElem?_eq_some_iff.mp h).1

theorem get_append (h : l[i]? = some e) : (l ++ m)[i]? = some e := by
  rw [List.getElem?_append_left (get_lt h)]; exact h

theorem before_append (h : Before l i j) : Before (l ++ m) i j := by
  induction h with
  | program h1 h2 h3 h4 h5 h6 => exact .program h1 (get_append h2) (get_append h3) h4 h5 h6
  | channel h1 h2 h3 =>
    refine .channel (get_append h1) (get_append h2) ?_
    rw [List.take_append_of_le_length (Nat.le_of_lt (get_lt h1)), List.take_append_of_le_length (Nat.le_of_lt (get_lt h2))]
    exact h3
  | trans _ _ ih1 ih2 => exact .trans ih1 ih2

/-- Event `i` is, or happens before, one of call `t`. -/
def Seen (l : List Ev) (i t : Nat) : Prop :=
  ∃ j f, l[j]? = some f ∧ own f = true ∧ f.thread = t ∧ (i = j ∨ Before l i j)

/-- Event `i` happens before the send number `n`, which sends connection `c`. -/
def Queued (l : List Ev) (i c n : Nat) : Prop :=
  ∃ j t, l[j]? = some (.put t c) ∧ (puts (l.take j)).length = n ∧ Before l i j

structure J (s : State) (l : List Ev) : Prop where
  held : ∀ {i : Nat} {e : Ev} {c t : Nat}, l[i]? = some e → touches e = some c → holds (s.pc t) = some c → Seen l i t
  queued : ∀ {i : Nat} {e : Ev} {c k : Nat}, l[i]? = some e → touches e = some c → s.queue[k]? = some c → Queued l i c ((takes l).length + k)
  low : ∀ {i : Nat} {e : Ev} {c : Nat}, l[i]? = some e → touches e = some c → c < s.next
  race : RaceFree l

theorem seen_append (h : Seen l i t) : Seen (l ++ m) i t := by
  obtain ⟨j, f, h1, h2, h3, h4⟩ := h
  exact ⟨j, f, get_append h1, h2, h3, h4.imp id before_append⟩

theorem queued_append {n : Nat} (h : Queued l i c n) : Queued (l ++ m) i c n := by
  obtain ⟨j, t, h1, h2, h4⟩ := h
  refine ⟨j, t, get_append h1, ?_, before_append h4⟩
  rw [List.take_append_of_le_length (Nat.le_of_lt (get_lt h1))]
  exact h2

/-- what happened before an event of the call happens before its next one -/
theorem seen_next (h : Seen l i t) (he : own e = true) (ht : e.thread = t) : Before (l ++ [e]) i l.length := by
  obtain ⟨j, f, h1, h2, h3, h4⟩ := h
  have hj : Before (l ++ [e]) j l.length :=
    .program (get_lt h1) (get_append h1) (by simp) h2 he (h3.trans ht.symm)
  rcases h4 with rfl | h4
  · exact hj
  · exact .trans (before_append h4) hj

theorem snoc_get {g : Ev} (h : (l ++ [e])[i]? = some g) : (l[i]? = some g) ∨ (i = l.length ∧ g = e) := by
  rcases Nat.lt_or_ge i l.length with hi | hi
  · rw [List.getElem?_append_left hi] at h; exact .inl h
  · have := get_lt h
    simp at this
    have : i = l.length := by omega
    subst this
    simp at h
    exact .inr ⟨rfl, h.symm⟩

theorem race_quiet (h : RaceFree l) (he : touches e = none) : RaceFree (l ++ [e]) := by
  intro i j a b c hij ha hb hta htb
  rcases snoc_get hb with hb | ⟨rfl, rfl⟩
  · rcases snoc_get ha with ha | ⟨rfl, rfl⟩
    · exact before_append (h i j a b c hij ha hb hta htb)
    · rw [he] at hta; cases hta
  · rw [he] at htb; cases htb

/-- a step that touches no connection and not the channel -/
theorem quiet (h : J s l) (he : touches e = none) (hp : puts [e] = []) (ht : takes [e] = []) (hq : s'.queue = s.queue)
    (hn : s.next ≤ s'.next) (hh : ∀ t c, holds (s'.pc t) = some c → holds (s.pc t) = some c) : J s' (l ++ [e]) := by
  have old : ∀ {i : Nat} {a : Ev} {c : Nat}, (l ++ [e])[i]? = some a → touches a = some c → l[i]? = some a := by
    intro i a c ha hta
    rcases snoc_get ha with ha | ⟨rfl, rfl⟩
    · exact ha
    · rw [he] at hta; cases hta
  have e2 : takes (l ++ [e]) = takes l := by
    rw [show takes (l ++ [e]) = takes l ++ takes [e] from by simp [takes], ht, List.append_nil]
  refine ⟨fun ha hta hc => seen_append (h.held (old ha hta) hta (hh _ _ hc)), fun ha hta hc => ?_,
    fun ha hta => Nat.lt_of_lt_of_le (h.low (old ha hta) hta) hn, race_quiet h.race he⟩
  rw [e2]
  exact queued_append (h.queued (old ha hta) hta (hq ▸ hc))

/-- a step of the call that holds a connection, touching it -/
theorem touch (h : J s l) (he : touches e = some c) (ho : own e = true) (ht : e.thread = t) (htk : takes [e] = [])
    (hc : holds (s.pc t) = some c) (hu : ∀ t', holds (s.pc t') = some c → t' = t) (hcq : c ∉ s.queue) (hlow : c < s.next)
    (hq : s'.queue = s.queue) (hn : s.next ≤ s'.next)
    (hh : ∀ t c, holds (s'.pc t) = some c → holds (s.pc t) = some c) : J s' (l ++ [e]) := by
  have e2 : takes (l ++ [e]) = takes l := by
    rw [show takes (l ++ [e]) = takes l ++ takes [e] from by simp [takes], htk, List.append_nil]
  refine ⟨fun {i a c' t'} ha hta hc' => ?_, fun {i a c' k} ha hta hc' => ?_, fun {i a c'} ha hta => ?_, ?_⟩
  · rcases snoc_get ha with ha | ⟨rfl, rfl⟩
    · exact seen_append (h.held ha hta (hh _ _ hc'))
    · rw [he] at hta; cases hta
      cases hu t' (hh _ _ hc')
      exact ⟨l.length, a, by simp, ho, ht, .inl rfl⟩
  · rw [e2]
    rw [hq] at hc'
    rcases snoc_get ha with ha | ⟨rfl, rfl⟩
    · exact queued_append (h.queued ha hta hc')
    · rw [he] at hta; cases hta
      exact absurd (List.mem_of_getElem? hc') hcq
  · rcases snoc_get ha with ha | ⟨rfl, rfl⟩
    · exact Nat.lt_of_lt_of_le (h.low ha hta) hn
    · rw [he] at hta; cases hta
      exact Nat.lt_of_lt_of_le hlow hn
  · intro i j a b c' hij ha hb hta htb
    rcases snoc_get hb with hb' | ⟨rfl, rfl⟩
    · rcases snoc_get ha with ha | ⟨rfl, rfl⟩
      · exact before_append (h.race i j a b c' hij ha hb' hta htb)
      · exact absurd hij (Nat.lt_asymm (get_lt hb'))
    · rw [he] at htb; cases htb
      rcases snoc_get ha with ha | ⟨rfl, rfl⟩
      · exact seen_next (h.held ha hta hc) ho ht
      · omega

theorem opened (h : J s l) (hq : s'.queue = s.queue) (hn : s'.next = s.next + 1)
    (hw : s.next ∉ s.queue ∧ ∀ t', holds (s.pc t') ≠ some s.next)
    (hh : ∀ t' c, holds (s'.pc t') = some c → holds (s.pc t') = some c ∨ t' = t ∧ c = s.next) : J s' (l ++ [.opened t s.next]) := by
  have e2 : takes (l ++ [Ev.opened t s.next]) = takes l := by simp [takes]
  refine ⟨fun {i a c' t'} ha hta hc' => ?_, fun {i a c' k} ha hta hc' => ?_, fun {i a c'} ha hta => ?_, ?_⟩
  · rcases snoc_get ha with ha' | ⟨rfl, rfl⟩
    · rcases hh _ _ hc' with hc' | ⟨rfl, rfl⟩
      · exact seen_append (h.held ha' hta hc')
      · exact absurd (h.low ha' hta) (Nat.lt_irrefl _)
    · simp only [touches, Option.some.injEq] at hta; subst hta
      rcases hh _ _ hc' with hc' | ⟨rfl, _⟩
      · exact absurd hc' (hw.2 t')
      · exact ⟨l.length, .opened t' s.next, by simp, rfl, rfl, .inl rfl⟩
  · rw [e2]
    rw [hq] at hc'
    rcases snoc_get ha with ha | ⟨rfl, rfl⟩
    · exact queued_append (h.queued ha hta hc')
    · simp only [touches, Option.some.injEq] at hta; subst hta
      exact absurd (List.mem_of_getElem? hc') hw.1
  · rcases snoc_get ha with ha | ⟨rfl, rfl⟩
    · have := h.low ha hta; omega
    · simp only [touches, Option.some.injEq] at hta; omega
  · intro i j a b c' hij ha hb hta htb
    rcases snoc_get hb with hb' | ⟨rfl, rfl⟩
    · rcases snoc_get ha with ha | ⟨rfl, rfl⟩
      · exact before_append (h.race i j a b c' hij ha hb' hta htb)
      · exact absurd hij (Nat.lt_asymm (get_lt hb'))
    · simp only [touches, Option.some.injEq] at htb; subst htb
      rcases snoc_get ha with ha | ⟨rfl, rfl⟩
      · exact absurd (h.low ha hta) (Nat.lt_irrefl _)
      · omega

theorem take {q : List Nat} (h : J s l) (hq : s.queue = c :: q) (hq' : s'.queue = q) (hn : s'.next = s.next)
    (hh : ∀ t' c', holds (s'.pc t') = some c' → holds (s.pc t') = some c' ∨ t' = t ∧ c' = c) : J s' (l ++ [.take t c]) := by
  have e2 : (takes (l ++ [Ev.take t c])).length = (takes l).length + 1 := by simp [takes]
  have old : ∀ {i : Nat} {a : Ev} {c' : Nat}, (l ++ [Ev.take t c])[i]? = some a → touches a = some c' → l[i]? = some a := by
    intro i a c ha hta
    rcases snoc_get ha with ha | ⟨rfl, rfl⟩
    · exact ha
    · cases hta
  refine ⟨fun {i a c' t'} ha hta hc' => ?_, fun {i a c' k} ha hta hc' => ?_, fun ha hta => hn ▸ h.low (old ha hta) hta, race_quiet h.race rfl⟩
  · rcases hh _ _ hc' with hc' | ⟨rfl, rfl⟩
    · exact seen_append (h.held (old ha hta) hta hc')
    · obtain ⟨j, t0, h1, h2, h3⟩ := h.queued (k := 0) (old ha hta) hta (by rw [hq]; rfl)
      refine ⟨l.length, .take t' c', by simp, rfl, rfl,
        .inr (.trans (before_append h3) (.channel (t' := t') (c' := c') (get_append h1) (by simp) ?_))⟩
      rw [List.take_append_of_le_length (Nat.le_of_lt (get_lt h1)), List.take_left', h2]
      · rfl
      · rfl
  · rw [e2, Nat.add_assoc, Nat.add_comm 1]
    exact queued_append (h.queued (old ha hta) hta (by rw [hq, List.getElem?_cons_succ, ← hq']; exact hc'))

theorem put (h : J s l) (hf : takes l ++ s.queue = puts l) (hq' : s'.queue = s.queue ++ [c]) (hn : s'.next = s.next)
    (hc : holds (s.pc t) = some c) (hh : ∀ t c, holds (s'.pc t) = some c → holds (s.pc t) = some c) : J s' (l ++ [.put t c]) := by
  have e2 : takes (l ++ [Ev.put t c]) = takes l := by simp [takes]
  have old : ∀ {i : Nat} {a : Ev} {c' : Nat}, (l ++ [Ev.put t c])[i]? = some a → touches a = some c' → l[i]? = some a := by
    intro i a c ha hta
    rcases snoc_get ha with ha | ⟨rfl, rfl⟩
    · exact ha
    · cases hta
  refine ⟨fun {i a c' t'} ha hta hc' => seen_append (h.held (old ha hta) hta (hh _ _ hc')), fun {i a c' k} ha hta hc' => ?_,
    fun ha hta => hn ▸ h.low (old ha hta) hta, race_quiet h.race rfl⟩
  rw [e2]
  rw [hq'] at hc'
  rcases Nat.lt_or_ge k s.queue.length with hk | hk
  · rw [List.getElem?_append_left hk] at hc'
    exact queued_append (h.queued (old ha hta) hta hc')
  · have hk' : k = s.queue.length := by
      have := (List.getElem?_eq_some_iff.mp hc').1
      simp at this; omega
    subst hk'
    simp at hc'
    subst hc'
    refine ⟨l.length, t, by simp, ?_, seen_next (h.held (old ha hta) hta hc) rfl rfl⟩
    rw [List.take_left' rfl, ← hf, List.length_append]

/-- a call that goes on and holds what it held, or nothing -/
theorem keep {s0 : State} {p : Pc} (hs : s0.pc = s.pc) (hp : holds p = none ∨ holds p = holds (s.pc t)) :
    ∀ t' c, holds ((s0.goto t p).pc t') = some c → holds (s.pc t') = some c := by
  intro t' c h
  simp only [State.goto] at h
  split at h
  · rename_i e
    rcases hp with hp | hp
    · rw [hp] at h; cases h
    · rw [e, ← hp]; exact h
  · rw [← hs]; exact h

/-- a call that gets a connection -/
theorem gain {s0 : State} {p : Pc} (hs : s0.pc = s.pc) (hp : holds p = some c) :
    ∀ t' c', holds ((s0.goto t p).pc t') = some c' → holds (s.pc t') = some c' ∨ t' = t ∧ c' = c := by
  intro t' c' h
  simp only [State.goto] at h
  split at h
  · rename_i e
    rw [hp] at h
    exact .inr ⟨e, by cases h; rfl⟩
  · rw [← hs]; exact .inl h

/-- only one call holds it, the pool does not, and it was made -/
theorem alone (hi : Inv s l) (hc : holds (s.pc t) = some c) :
    (∀ t', holds (s.pc t') = some c → t' = t) ∧ c ∉ s.queue ∧ c < s.next := by
  obtain ⟨st, -, hw⟩ := hi.where c
  cases hw with
  | absent _ _ h => exact absurd hc (h t)
  | queued _ _ h => exact absurd hc (h t)
  | closed _ _ h => exact absurd hc (h t)
  | held h1 h2 h3 h4 h5 => exact ⟨fun t' ht => (h4 t' ht).trans (h4 t hc).symm, h2, h1⟩

theorem new (hi : Inv s l) : s.next ∉ s.queue ∧ ∀ t', holds (s.pc t') ≠ some s.next := by
  obtain ⟨st, -, hw⟩ := hi.where s.next
  cases hw with
  | absent _ h2 h => exact ⟨h2, h⟩
  | queued h => exact absurd h (Nat.lt_irrefl _)
  | closed h => exact absurd h (Nat.lt_irrefl _)
  | held h => exact absurd h (Nat.lt_irrefl _)

theorem step (h : J s l) (hi : Inv s l) (hs : Step s e s') : J s' (l ++ [e]) := by
  have tch : ∀ {e : Ev} {t c : Nat} {p : Pc}, touches e = some c → own e = true → e.thread = t → takes [e] = [] →
      holds (s.pc t) = some c → (holds p = none ∨ holds p = holds (s.pc t)) → J (s.goto t p) (l ++ [e]) := by
    intro e t c p h1 h2 h3 h4 h5 h6
    obtain ⟨a1, a2, a3⟩ := alone hi h5
    exact touch h h1 h2 h3 h4 h5 a1 a2 a3 rfl (Nat.le_refl _) (keep rfl h6)
  cases hs with
  | take hp hq => exact take h hq rfl rfl (gain rfl rfl)
  | drainTake hp hq => exact take h hq rfl rfl (gain rfl rfl)
  | opened hp => exact opened h rfl rfl (new hi) (gain rfl rfl)
  | put hp => exact put h hi.fifo rfl rfl (by rw [hp]; rfl) (keep rfl (.inl rfl))
  | begin hp => exact tch rfl rfl rfl rfl (by rw [hp]; rfl) (.inr (by rw [hp]; rfl))
  | sent hp => exact tch rfl rfl rfl rfl (by rw [hp]; rfl) (.inr (by rw [hp]; rfl))
  | failed hp => exact tch rfl rfl rfl rfl (by rw [hp]; rfl) (.inr (by rw [hp]; rfl))
  | closeBad hp => exact tch rfl rfl rfl rfl (by rw [hp]; rfl) (.inl rfl)
  | closeFull hp => exact tch rfl rfl rfl rfl (by rw [hp]; rfl) (.inl rfl)
  | closeDrop hp => exact tch rfl rfl rfl rfl (by rw [hp]; rfl) (.inl rfl)
  | cancel => exact quiet h rfl rfl rfl rfl (Nat.le_refl _) (fun _ _ h => h)
  | putClosed hp => exact quiet h rfl rfl rfl rfl (Nat.le_refl _) (keep rfl (.inr (by rw [hp]; rfl)))
  | putFull hp => exact quiet h rfl rfl rfl rfl (Nat.le_refl _) (keep rfl (.inr (by rw [hp]; rfl)))
  | _ => exact quiet h rfl rfl rfl rfl (Nat.le_refl _) (keep rfl (.inl rfl))

theorem start (size : Nat) : J (init size) [] := by
  refine ⟨?_, ?_, ?_, ?_⟩
  · intro i e c t h; simp at h
  · intro i e c k h; simp at h
  · intro i e c h; simp at h
  · intro i j e f c _ h; simp at h

theorem run {size : Nat} (h : Run (init size) l s) : J s l ∧ Inv s l := by
  generalize h0 : init size = s0 at h
  induction h with
  | nil => subst h0; exact ⟨start size, inv_init size⟩
  | snoc hr hs ih =>
    obtain ⟨h1, h2⟩ := ih
    exact ⟨step h1 h2 hs, inv_step h2 hs⟩

/-- What happens before an event comes before it. -/
theorem before_lt {size : Nat} (h : Run (init size) l s) (hb : Before l i j) : i < j := by
  induction hb with
  | program h1 => exact h1
  | trans _ _ h1 h2 => exact Nat.lt_trans h1 h2
  | @channel i j t t' c c' h1 h2 h3 =>
    rcases Nat.lt_or_ge i j with hij | hij
    · exact hij
    have hne : i ≠ j := by rintro rfl; rw [h1] at h2; cases h2
    have hj := get_lt h2
    have hl : l = l.take (j + 1) ++ l.drop (j + 1) := (List.take_append_drop _ _).symm
    obtain ⟨s1, hr, -⟩ := run_cut h _ _ hl
    have hf := (run hr).2.fifo
    have e1 : l.take (j + 1) = l.take j ++ [.take t' c'] := by
      rw [List.take_add_one, h2]; rfl
    have e2 : (takes (l.take (j + 1))).length = (takes (l.take j)).length + 1 := by rw [e1]; simp [takes]
    have e3 : puts (l.take i) = puts (l.take (j + 1)) ++ puts ((l.take i).drop (j + 1)) := by
      have hm : (l.take i).take (j + 1) = l.take (j + 1) := by rw [List.take_take, Nat.min_eq_left (by omega)]
      have hx : l.take i = l.take (j + 1) ++ (l.take i).drop (j + 1) := by rw [← hm, List.take_append_drop]
      have hp : ∀ a b : List Ev, puts (a ++ b) = puts a ++ puts b := by intro a b; simp [puts]
      rw [← hp, ← hx]
    have e4 := congrArg List.length hf
    have e5 := congrArg List.length e3
    simp only [List.length_append] at e4 e5
    omega

end Verif.Proof.Race
