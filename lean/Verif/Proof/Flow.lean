import Verif.Spec.Flow
import Verif.Proof.Answer
/-! Towards C66: the invariant of `Send` and the server, and where they can get stuck. -/
namespace Verif.Proof.Flow
open Verif.Model.Flow Verif.Spec.Flow Verif.Go Verif.Spec

variable {up down : Nat} {ms : Request} {s s' : State}

theorem owed_mono {n n' : Nat} (h : n ≤ n') : owed ms n ≤ owed ms n' := by
  induction ms generalizing n n' with
  | nil => simp [owed]
  | cons m ms ih =>
    simp only [owed]
    split
    · rw [if_pos (by omega)]
      have := ih (n := n - m.1) (n' := n' - m.1) (by omega)
      omega
    · omega

theorem owed_zero (hp : ∀ m ∈ ms, 0 < m.1) : owed ms 0 = 0 := by
  cases ms with
  | nil => rfl
  | cons m ms =>
    have := hp m (by simp)
    simp only [owed]
    rw [if_neg (by omega)]

theorem owed_append (pre post : Request) (k : Nat) : owed (pre ++ post) (size pre + k) = answers pre + owed post k := by
  induction pre with
  | nil => simp [size, answers]
  | cons m pre ih =>
    simp only [List.cons_append, owed, size, answers, List.map_cons, List.sum_cons] at *
    rw [if_pos (by omega), show m.1 + size pre + k - m.1 = size pre + k by omega, ih]
    omega

theorem size_append (pre post : Request) : size (pre ++ post) = size pre + size post := by
  induction pre with
  | nil => simp [size]
  | cons m pre ih => simp only [List.cons_append, size, ih]; omega

theorem owed_all : owed ms (size ms) = answers ms := by
  have := owed_append ms [] 0
  simpa [owed] using this

/-- What is owed grows only where a message ends. -/
theorem owed_jump {n : Nat} (hp : ∀ m ∈ ms, 0 < m.1) (h : owed ms n < owed ms (n + 1)) :
    ∃ pre post, ms = pre ++ post ∧ size pre = n + 1 ∧ owed ms (n + 1) = answers pre := by
  induction ms generalizing n with
  | nil => simp [owed] at h
  | cons m ms ih =>
    simp only [owed] at h
    by_cases h1 : m.1 ≤ n
    · rw [if_pos h1, if_pos (by omega), show n + 1 - m.1 = (n - m.1) + 1 by omega] at h
      obtain ⟨pre, post, rfl, h2, h3⟩ := ih (fun x hx => hp x (.tail _ hx)) (by omega : owed ms (n - m.1) < owed ms (n - m.1 + 1))
      refine ⟨m :: pre, post, rfl, by simp only [size]; omega, ?_⟩
      simp only [owed, answers, List.map_cons, List.sum_cons] at *
      rw [if_pos (by omega), show n + 1 - m.1 = (n - m.1) + 1 by omega]
      omega
    · by_cases h2 : m.1 ≤ n + 1
      · have hm : m.1 = n + 1 := by omega
        refine ⟨[m], ms, rfl, by simp [size, hm], ?_⟩
        simp only [owed, answers, List.map_cons, List.map_nil, List.sum_cons, List.sum_nil]
        rw [if_pos h2, hm, Nat.sub_self, owed_zero (fun x hx => hp x (.tail _ hx))]
      · rw [if_neg h1, if_neg h2] at h; omega

structure Inv (up down : Nat) (ms : Request) (s : State) : Prop where
  taken : s.taken ≤ s.sent
  sent : s.sent ≤ size ms
  got : s.got ≤ s.answered
  answered : s.answered ≤ owed ms s.taken
  writing : s.sent < size ms → s.got = 0
  up : s.sent ≤ s.taken + up
  down : s.answered ≤ s.got + down
  order : s.taken = 0 ∨ owed ms (s.taken - 1) ≤ s.answered

theorem inv_run (h : Run up down ms start s) : Inv up down ms s := by
  induction h with
  | nil => exact ⟨Nat.le_refl _, Nat.zero_le _, Nat.le_refl _, Nat.zero_le _, fun _ => rfl, Nat.zero_le _, Nat.zero_le _, .inl rfl⟩
  | @snoc s0 s1 h hs ih =>
    obtain ⟨i1, i2, i3, i4, i5, i6, i7, i8⟩ := ih
    cases hs with
    | write h hu =>
      exact ⟨by simp only []; omega, by simp only []; omega, i3, i4, fun h' => i5 (by simp only [] at h'; omega), by simp only []; omega, i7, i8⟩
    | take h ha =>
      have := owed_mono (ms := ms) (Nat.le_add_right s0.taken 1)
      exact ⟨h, i2, i3, by simp only []; omega, i5, by simp only []; omega, i7, .inr (by simp only [Nat.add_sub_cancel]; omega)⟩
    | answer h hd => exact ⟨i1, i2, by simp only []; omega, h, i5, i6, by simp only []; omega, i8.imp id (by simp only []; omega)⟩
    | read h hr => exact ⟨i1, i2, hr, i4, fun h' => by simp only [] at h'; omega, i6, by simp only []; omega, i8⟩

/-- Every step moves a byte, and there are no more than the request and the answers, twice. -/
def moved (s : State) : Nat := s.sent + s.taken + s.answered + s.got

theorem step_moved (h : Step up down ms s s') : moved s' = moved s + 1 := by
  cases h <;> simp only [moved] <;> omega

theorem inv_bound (h : Inv up down ms s) : moved s ≤ 2 * (size ms + answers ms) := by
  obtain ⟨i1, i2, i3, i4, -, -, -, -⟩ := h
  have h1 := owed_mono (ms := ms) (Nat.le_trans i1 i2)
  rw [owed_all] at h1
  simp only [moved]
  omega

/-- The only way to get stuck: a cut of the request with too much on either side. -/
theorem stuck_cut (hu : 0 < up) (hd : 0 < down) (hp : ∀ m ∈ ms, 0 < m.1) (h : Inv up down ms s) (hnd : ¬Done ms s) (hs : Stuck up down ms s) :
    ∃ pre post, ms = pre ++ post ∧ down < answers pre ∧ up < size post := by
  obtain ⟨i1, i2, i3, i4, i5, i6, i7, i8⟩ := h
  have hw : s.sent < size ms → s.taken + up ≤ s.sent := fun h => Nat.le_of_not_lt fun h' => hs _ (.write h h')
  have ht : s.taken < s.sent → s.answered ≠ owed ms s.taken := fun h h' => hs _ (.take h h')
  have ha : s.answered < owed ms s.taken → s.got + down ≤ s.answered := fun h => Nat.le_of_not_lt fun h' => hs _ (.answer h h')
  have hr : s.sent = size ms → s.answered ≤ s.got := fun h => Nat.le_of_not_lt fun h' => hs _ (.read h h')
  by_cases hsent : s.sent = size ms
  · exfalso
    have h1 := hr hsent
    have h2 : s.answered = owed ms s.taken := Nat.le_antisymm i4 (Nat.le_of_not_lt fun h => by have := ha h; omega)
    have h3 : s.taken = s.sent := Nat.le_antisymm i1 (Nat.le_of_not_lt fun h => ht h h2)
    exact hnd ⟨hsent, by rw [← hsent, ← h3, ← h2]; omega⟩
  · have hlt : s.sent < size ms := by omega
    have h1 := hw hlt
    have h2 : s.answered < owed ms s.taken := by
      have := ht (by omega)
      omega
    have h3 := ha h2
    have h4 : s.taken ≠ 0 := by
      intro h0
      rw [h0, owed_zero hp] at h2
      omega
    have h5 : owed ms (s.taken - 1) ≤ s.answered := i8.resolve_left h4
    obtain ⟨pre, post, rfl, e1, e2⟩ := owed_jump (n := s.taken - 1) hp (by rw [show s.taken - 1 + 1 = s.taken by omega]; omega)
    rw [show s.taken - 1 + 1 = s.taken by omega] at e1 e2
    have := i5 hlt
    rw [size_append] at hlt
    exact ⟨pre, post, rfl, by omega, by omega⟩

theorem run_cons {s1 s2 : State} (hs : Step up down ms s s1) (h : Run up down ms s1 s2) : Run up down ms s s2 := by
  induction h with
  | nil => exact .snoc (.nil _) hs
  | snoc h hs' ih => exact .snoc ih hs'

theorem request_size_aux : ∀ (f : Nat) (b : Bytes) (fs : List (UInt8 × Bytes)), readFramesAux f b = some fs → ∀ as : List Bytes,
    as.length = fs.length → size (request fs as) = b.length := by
  intro f
  induction f with
  | zero =>
    intro b fs h as hl
    cases b with
    | nil => simp [readFramesAux] at h; subst h; rfl
    | cons x b => simp [readFramesAux] at h
  | succ f ih =>
    intro b fs h as hl
    cases b with
    | nil => simp [readFramesAux] at h; subst h; rfl
    | cons x b =>
      rw [readFramesAux] at h
      split at h
      · cases h
      · rename_i fr rest hfr
        split at h
        · cases h
        · rename_i frs hfrs
          cases h
          cases as with
          | nil => simp at hl
          | cons a as =>
            have h1 := ih rest frs hfrs as (by simpa using hl)
            have h2 := (Verif.Proof.readFrame_shorter hfr).1
            show 5 + fr.2.length + size (request frs as) = _
            omega

/-- The request is as long as its messages. -/
theorem request_size {b : Bytes} {fs : List (UInt8 × Bytes)} (h : readFrames b = some fs) {as : List Bytes} (hl : as.length = fs.length) :
    size (request fs as) = b.length := request_size_aux _ b fs h as hl

theorem request_answers (fs : List (UInt8 × Bytes)) (as : List Bytes) (hl : as.length = fs.length) :
    answers (request fs as) = (as.map List.length).sum := by
  induction fs generalizing as with
  | nil => cases as <;> simp_all [request, answers]
  | cons f fs ih =>
    cases as with
    | nil => simp at hl
    | cons a as =>
      have := ih as (by simpa using hl)
      simp only [request, answers, List.zip_cons_cons, List.map_cons, List.sum_cons] at this ⊢
      omega

/-- A request that is not larger than the buffers there, or whose answers are not larger than the buffers back, fits. -/
theorem fits_of_le (h : size ms ≤ up ∨ answers ms ≤ down) : Fits up down ms := by
  rintro pre post rfl
  rw [size_append] at h
  simp only [answers, List.map_append, List.sum_append] at h ⊢
  omega

end Verif.Proof.Flow
