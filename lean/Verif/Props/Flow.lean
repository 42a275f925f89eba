import Verif.Proof.Flow
/-! C66: a `Send` against a server that keeps answering comes to an end. -/
namespace Verif.Props
open Verif.Model.Flow Verif.Spec.Flow Verif.Proof.Flow Verif.Go Verif.Spec

variable {up down : Nat} {ms : Request} {s s' : State}

/-- The whole of **C66**: whatever the request and the answers, from every state that `Send` reaches it can still come to an
end. -/
def C66_full : Prop := ∀ (up down : Nat) (ms : Request) (s : State), 0 < up → 0 < down → (∀ m ∈ ms, 5 ≤ m.1 ∧ 5 ≤ m.2) →
  Run up down ms start s → ∃ s', Run up down ms s s' ∧ Done ms s'

/-- **C66**, for requests that fit.  Every state that is reached and is not the end has a next step, and there are no infinite
executions: however the bytes move, `Send` gets all its answers.  Missing: requests that do not fit (`C66_wrong`,
`C66_hangs`). -/
theorem C66_partial (hu : 0 < up) (hd : 0 < down) (hp : ∀ m ∈ ms, 0 < m.1) (hf : Fits up down ms) :
    (∀ s, Run up down ms start s → ¬Done ms s → ∃ s', Step up down ms s s') ∧
    (∀ f : Nat → State, f 0 = start → ¬∀ i, Step up down ms (f i) (f (i + 1))) ∧
    ∀ s, Run up down ms start s → ∃ s', Run up down ms s s' ∧ Done ms s' := by
  have prog : ∀ s, Run up down ms start s → ¬Done ms s → ∃ s', Step up down ms s s' := by
    intro s h hnd
    refine Classical.byContradiction fun hno => ?_
    obtain ⟨pre, post, rfl, h1, h2⟩ := stuck_cut hu hd hp (inv_run h) hnd (fun s' hs => hno ⟨s', hs⟩)
    rcases hf pre post rfl with h | h <;> omega
  refine ⟨prog, fun f h0 hs => ?_, fun s h => ?_⟩
  · have hrun : ∀ i, Run up down ms start (f i) := by
      intro i
      induction i with
      | zero => rw [h0]; exact .nil _
      | succ i ih => exact .snoc ih (hs i)
    have hm : ∀ i, moved (f i) = i := by
      intro i
      induction i with
      | zero => rw [h0]; rfl
      | succ i ih => rw [step_moved (hs i), ih]
    have := inv_bound (inv_run (hrun (2 * (size ms + answers ms) + 1)))
    rw [hm] at this
    omega
  · generalize hn : 2 * (size ms + answers ms) - moved s = n
    induction n generalizing s with
    | zero =>
      by_cases hd : Done ms s
      · exact ⟨s, .nil _, hd⟩
      · obtain ⟨s', hs⟩ := prog s h hd
        have h1 := inv_bound (inv_run (.snoc h hs))
        rw [step_moved hs] at h1
        omega
    | succ n ih =>
      by_cases hd : Done ms s
      · exact ⟨s, .nil _, hd⟩
      · obtain ⟨s', hs⟩ := prog s h hd
        have h1 := inv_bound (inv_run (.snoc h hs))
        have h2 := step_moved hs
        obtain ⟨s2, h3, h4⟩ := ih s' (.snoc h hs) (by omega)
        exact ⟨s2, run_cons hs h3, h4⟩

/-- A request that does not fit never gets its answers: in no execution, however the bytes move, does `Send` come to an end
(but for the deadline, if there is one). -/
theorem C66_hangs (hp : ∀ m ∈ ms, 0 < m.1) (hf : ¬Fits up down ms) (h : Run up down ms start s) : ¬Done ms s ∧ s.got = 0 := by
  simp only [Fits, Classical.not_forall, not_or, Nat.not_le] at hf
  obtain ⟨pre, post, rfl, h1, h2⟩ := hf
  have key : s.got = 0 ∧ s.taken ≤ size pre ∧ s.sent < size (pre ++ post) := by
    induction h with
    | nil => exact ⟨rfl, Nat.zero_le _, by rw [size_append]; show 0 < _; omega⟩
    | @snoc s s' h hs ih =>
      obtain ⟨k1, k2, k3⟩ := ih
      obtain ⟨i1, i2, i3, i4, i5, i6, i7, i8⟩ := inv_run h
      cases hs with
      | write h hu => exact ⟨k1, k2, by rw [size_append] at k3 ⊢; simp only []; omega⟩
      | take h ha =>
        refine ⟨k1, ?_, k3⟩
        refine Nat.lt_of_le_of_ne k2 fun e => ?_
        have := owed_append pre post 0
        rw [Nat.add_zero, owed_zero (fun m hm => hp m (List.mem_append_right _ hm))] at this
        rw [e, this] at ha
        omega
      | answer h hd => exact ⟨k1, k2, k3⟩
      | read h hr => omega
  exact ⟨fun hd => by have := hd.1; omega, key.1⟩

/-- **C66**, exactly: `Send` can come to an end if and only if the request fits. -/
theorem C66_exact (hu : 0 < up) (hd : 0 < down) (hp : ∀ m ∈ ms, 0 < m.1) : (∃ s, Run up down ms start s ∧ Done ms s) ↔ Fits up down ms := by
  constructor
  · rintro ⟨s, h, hdn⟩
    exact Classical.byContradiction fun hf => (C66_hangs hp hf h).1 hdn
  · intro hf
    obtain ⟨s', h, hdn⟩ := (C66_partial hu hd hp hf).2.2 _ (.nil _)
    exact ⟨s', h, hdn⟩

/-- **C66** is false: whatever the sizes of the buffers, there are two messages with which `Send` hangs. -/
theorem C66_wrong : ¬C66_full := by
  intro h
  have hp : ∀ m ∈ ([(5, 6), (7, 5)] : Request), 5 ≤ m.1 ∧ 5 ≤ m.2 := by simp
  obtain ⟨s, h1, h2⟩ := h 5 5 [(5, 6), (7, 5)] start (by omega) (by omega) hp (.nil _)
  refine (C66_hangs (fun m hm => by have := hp m hm; omega) ?_ h1).1 h2
  intro hf
  have := hf [(5, 6)] [(7, 5)] rfl
  simp [answers, size] at this

/-- For all sizes of the buffers. -/
theorem C66_always_some (up down : Nat) : ∃ ms : Request, (∀ m ∈ ms, 5 ≤ m.1 ∧ 5 ≤ m.2) ∧ ∀ s, Run up down ms start s → ¬Done ms s := by
  refine ⟨[(5, down + 5), (up + 5, 5)], by simp, fun s h => (C66_hangs (by simp) ?_ h).1⟩
  intro hf
  have := hf [(5, down + 5)] [(up + 5, 5)] rfl
  simp [answers, size] at this
  omega

/-- **C66**, in bytes: a request of whole messages that is not larger than the buffers on the way to the server gets all its
answers; and so does one, of any size, whose answers fit into the buffers on the way back. -/
theorem C66_small_partial (hu : 0 < up) (hd : 0 < down) {b : Bytes} {fs : List (UInt8 × Bytes)} (hb : readFrames b = some fs) {as : List Bytes}
    (hl : as.length = fs.length) (hfit : b.length ≤ up ∨ (as.map List.length).sum ≤ down) :
    (∀ s, Run up down (request fs as) start s → ¬Done (request fs as) s → ∃ s', Step up down (request fs as) s s') ∧
    (∀ f : Nat → State, f 0 = start → ¬∀ i, Step up down (request fs as) (f i) (f (i + 1))) ∧
    ∀ s, Done (request fs as) s → s.sent = b.length ∧ s.got = (as.map List.length).sum := by
  have hp : ∀ m ∈ request fs as, 0 < m.1 := by
    intro m hm
    simp only [request, List.mem_map] at hm
    obtain ⟨x, -, rfl⟩ := hm
    simp only []
    omega
  have hz := request_size hb hl
  have ha := request_answers fs as hl
  have hf : Fits up down (request fs as) := fits_of_le (by rwa [hz, ha])
  have key := C66_partial hu hd hp hf
  refine ⟨key.1, key.2.1, fun s hs => ?_⟩
  obtain ⟨h1, h2⟩ := hs
  rw [owed_all, ha] at h2
  exact ⟨by rw [h1, hz], h2⟩

/-- A case of `C66_partial` in which neither the request nor the answers fit as a whole. -/
example : Fits 20 20 [(10, 15), (15, 5), (5, 30)] ∧ ¬size [(10, 15), (15, 5), (5, 30)] ≤ 20 ∧ ¬answers [(10, 15), (15, 5), (5, 30)] ≤ 20 := by
  refine ⟨?_, by decide, by decide⟩
  rintro pre post h
  match pre, post, h with
  | [], _, h => exact .inl (by decide)
  | [a], post, h => cases h; exact .inl (by decide)
  | [a, b], post, h => cases h; exact .inl (by decide)
  | [a, b, c], post, h => cases h; exact .inr (by decide)
  | a :: b :: c :: d :: pre, post, h => exact absurd (congrArg List.length h) (by simp)

/-- A case of `C66_hangs`: one message with a large answer, and then more than the buffers hold. -/
example : ¬Fits 65536 65536 [(100, 100000), (70000, 20)] := by
  intro hf
  have := hf [(100, 100000)] [(70000, 20)] rfl
  simp [answers, size] at this

/-- A case of `C66_small_partial`: two frames (`SESS_RESET` and `CON_CLOSE`). -/
example : readFrames [1, 0, 0, 0, 6, 1, 0, 0, 0, 3] = some [(6, []), (3, [])] := by decide +kernel

end Verif.Props
