import Verif.Go.Slice
/-! Checks of the Go semantics in `Go/Slice` against the language specification: `append` keeps the array if it has room. -/
namespace Verif.Props
open Verif.Go

/-- With room for the new elements the result has the same array: same capacity, and behind the new elements what was there before. -/
theorem append_in_place (g : Grow) {s s' : Slice} {xs : Bytes} (h : append g s xs = .ok s') (hr : s.len + xs.length ≤ s.cap) :
    s'.data = s.data ++ xs ∧ s'.cap = s.cap ∧ s'.spare = (s.data ++ s.spare).drop s'.len := by
  have hr' : xs.length ≤ s.spare.length := by simp only [Slice.len, Slice.cap] at hr; omega
  unfold append at h
  split at h
  · cases h
    refine ⟨rfl, by simp only [Slice.cap, List.length_append, List.length_drop]; omega, ?_⟩
    simp [Slice.len, List.drop_append]
  · cases h

/-- Without, it has a new array with zeros behind the elements. -/
theorem append_moves (g : Grow) {s s' : Slice} {xs : Bytes} (h : append g s xs = .ok s') (hr : s.cap < s.len + xs.length) :
    s'.data = s.data ++ xs ∧ s'.cap = s'.len + g s.cap s'.len ∧ ∀ b ∈ s'.spare, b = 0 := by
  have hr' : ¬xs.length ≤ s.spare.length := by simp only [Slice.len, Slice.cap] at hr; omega
  unfold append at h
  split at h
  · cases h
    exact ⟨rfl, by simp [Slice.cap, Slice.len], fun b hb => List.eq_of_mem_replicate hb⟩
  · cases h

example : (append (fun _ _ => 3) ⟨[1], [7, 8, 9]⟩ [2, 3]).toOption.map (fun s => (s.data, s.spare)) = some ([1, 2, 3], [9]) := by decide
example : (append (fun _ _ => 3) ⟨[1], [7]⟩ [2, 3]).toOption.map (fun s => (s.data, s.spare)) = some ([1, 2, 3], [0, 0, 0]) := by decide

end Verif.Props
