import Verif.Proof.Alias
/-! C67: a builder that is used after its callback returned. -/
namespace Verif.Props
open Verif.Go Verif.Model.Alias Verif.Spec.Alias Verif.Proof.Alias

/-- The whole of **C67**: whatever client code does with the builders it gets, what is sent is what was recorded, as if each
builder had a buffer of its own. -/
def C67_full : Prop := ∀ (n : Nat) (as : List Act) (s : State) (bs : Bytes), Run (init n) as s → s.sends = some bs →
  (emptyLibrary.acts as).sends = some bs

/-- **C67** for client code that uses no builder after its callback returned (calls on builders whose callbacks' callbacks run
panic, and are allowed here).  The array that a builder shares with its child never shows: in every execution, with whatever
capacities, `Send` is possible just if no callback runs and no call failed, and then sends what was recorded.  Missing:
builders used later (`C67_wrong`). -/
theorem C67_partial {n : Nat} {as : List Act} {s : State} (h : Run (init n) as s) (hp : Proper emptyLibrary as) :
    s.sends = (emptyLibrary.acts as).sends := by
  obtain ⟨h1, h2, h3, b, k, h4, h5, h6, h7, h8⟩ := inv_run h hp
  cases hst : s.stack with
  | nil =>
    rw [hst] at h1 h4 h5
    simp only [current] at h4 h5
    cases hb : (emptyLibrary.acts as).books with
    | nil => rw [hb] at h5; cases h5
    | cons k0 ks =>
      rw [hb] at h5
      cases h5
      simp only [State.sends, h4, Library.sends, ← h1, hb, h6, Bool.false_or]
      obtain ⟨bs, failed⟩ := k
      simp only at h7
      cases failed
      · simp only [h7, (h8 h7).2]; rfl
      · simp only [h7]; rfl
  | cons f fs =>
    rw [hst] at h1 h3
    obtain ⟨b', e1, e2⟩ := chain_closed (i := 0) h3 (.inl rfl) (by have := h3.2.1; simp only [current]; omega)
    simp only [State.sends, e1, e2, Bool.true_or, if_pos, Library.sends, ← h1]

/-- What was recorded before the first callback stays, whatever is done with builders afterwards (until `Reset`): every builder
that can still be used begins with it. -/
theorem C67_prefix {n : Nat} {as bs : List Act} {s s' : State} {b0 : Handle} (h : Run (init n) as s) (h1 : s.handles = [b0]) (he : b0.err = false)
    (h' : Run s bs s') (hr : ∀ i, .reset i ∉ bs) : ∀ b ∈ s'.handles, b.err = false → s.heap.data b0.ref <+: s'.heap.data b.ref := by
  have hf := (fits_run h).fits b0 (by rw [h1]; exact .head _)
  have hst : s.stack = [] := by
    refine Classical.byContradiction fun hc => ?_
    have := (one_run h).2 hc
    rw [h1] at this
    simp at this
  have hlen := data_length hf.1
  have hsafe : Safe (s.heap.data b0.ref) (fun _ => true) s := by
    refine ⟨fun b hb => ?_, fun b hb _ => ?_, (fun _ _ h => by cases h), fun f hf => by rw [hst] at hf; cases hf⟩
    all_goals rw [h1, List.mem_singleton] at hb; subst hb
    · exact hf
    · rw [hlen]; exact ⟨Nat.le_refl _, rfl⟩
  obtain ⟨good, hs⟩ := safe_run hsafe h' hr
  intro b hb hbe
  have hg : good b.ref.arr = true := by
    cases hg : good b.ref.arr
    · have := hs.bad b hb hg; rw [hbe] at this; cases this
    · rfl
  obtain ⟨k1, k2⟩ := hs.begins b hb hg
  have e : (s'.heap.data b.ref).take (s.heap.data b0.ref).length = s.heap.data b0.ref := by
    show List.take _ (List.take b.ref.len _) = _
    rw [List.take_take, Nat.min_eq_left k1, k2]
  rw [← e]
  exact List.take_prefix ..

/-- `Tx` with a callback that keeps its builder; then a message with the first builder and one with the builder kept. -/
def keptActs : List Act := [.enter 0 false [1, 1], .leave [2], .call 0 [3, 3, 3], .call 1 [4, 4]]

/-- The builder that was kept writes over what the first one has recorded since, in any array that is large enough. -/
theorem kept_run : ∃ s, Run (init 16) keptActs s ∧ s.sends = some [1, 1, 4, 4, 3, 3] := by
  have r0 := Run.nil (init 16)
  have r1 := r0.snoc (Step.enter (i := 0) (m := false) (enc := [1, 1]) rfl rfl rfl (.inPlace (stale := List.replicate 14 0) rfl))
  have r2 := r1.snoc (Step.leave (enc := [2]) rfl rfl rfl (.inPlace (stale := List.replicate 13 0) rfl))
  have r3 := r2.snoc (Step.call (i := 0) (enc := [3, 3, 3]) rfl rfl rfl (.inPlace (stale := List.replicate 10 0) rfl))
  have r4 := r3.snoc (Step.call (i := 1) (enc := [4, 4]) rfl rfl rfl (.inPlace (stale := [3, 3] ++ List.replicate 10 0) rfl))
  exact ⟨_, r4, rfl⟩

/-- **C67** is false of the code: a builder is not disabled when its callback returns. -/
theorem C67_wrong : ¬C67_full := by
  intro hf
  obtain ⟨s, h1, h2⟩ := kept_run
  have := hf 16 keptActs s _ h1 h2
  revert this
  decide

/-- A case of `C67_partial`: callbacks in a callback, `InsertF`, a change of arrays, and a second unit of work after `Reset`. -/
def properActs : List Act :=
  [.call 0 [9], .enter 0 false [1, 1], .enter 1 true [0, 0, 0, 0, 5], .call 2 [6], .leave [2, 0, 0, 0], .leave [2], .reset 0, .call 0 [7]]

example : Proper emptyLibrary (properActs.take 6) ∧ (emptyLibrary.acts (properActs.take 6)).sends = some [9, 1, 1, 2, 0, 0, 0, 5, 6, 2] := by
  refine ⟨?_, by decide⟩
  refine ⟨.inl rfl, .inl rfl, .inr ⟨_, .head _, rfl⟩, .inr ⟨_, .head _, rfl⟩, trivial, trivial, trivial⟩

example : ∃ s, Run (init 4) (properActs.take 6) s ∧ s.sends = some [9, 1, 1, 2, 0, 0, 0, 5, 6, 2] := by
  have r0 := Run.nil (init 4)
  have r1 := r0.snoc (Step.call (i := 0) (enc := [9]) rfl rfl rfl (.inPlace (stale := [0, 0, 0]) rfl))
  have r2 := r1.snoc (Step.enter (i := 0) (m := false) (enc := [1, 1]) rfl rfl rfl (.inPlace (stale := [0]) rfl))
  have r3 := r2.snoc (Step.enter (i := 1) (m := true) (enc := [0, 0, 0, 0, 5]) rfl rfl rfl (.moved (n := 1) (stale := [0]) (spare := [0, 0]) rfl (Nat.le_refl _)))
  have r4 := r3.snoc (Step.call (i := 2) (enc := [6]) rfl rfl rfl (.inPlace (stale := [0]) rfl))
  have r5 := r4.snoc (Step.leaveMessage (u := [2, 0, 0, 0]) rfl rfl rfl rfl (by decide))
  have r6 := r5.snoc (Step.leave (enc := [2]) rfl rfl rfl (.inPlace (stale := []) rfl))
  exact ⟨_, r6, rfl⟩

def oneCall : State := (init 16).put ((init 16).heap.set 0 ([8, 8] ++ List.replicate 14 0)) 0 ⟨⟨0, 2⟩, false, false⟩

/-- A case of `C67_prefix`: the kept builder is used as in `kept_run`; what came before the callback stays. -/
example : Run (init 16) [.call 0 [8, 8]] oneCall ∧ ∃ b0, oneCall.handles = [b0] ∧ b0.err = false ∧ oneCall.heap.data b0.ref = [8, 8] ∧
    ∃ s', Run oneCall keptActs s' ∧ s'.sends = some [8, 8, 1, 1, 4, 4, 3, 3] := by
  refine ⟨?_, _, rfl, rfl, rfl, ?_⟩
  · exact (Run.nil (init 16)).snoc (Step.call (i := 0) (b := ⟨⟨0, 0⟩, false, false⟩) (enc := [8, 8]) rfl rfl rfl (.inPlace (stale := List.replicate 14 0) rfl))
  · have r1 := (Run.nil oneCall).snoc (Step.enter (i := 0) (m := false) (enc := [1, 1]) rfl rfl rfl (.inPlace (stale := List.replicate 12 0) rfl))
    have r2 := r1.snoc (Step.leave (enc := [2]) rfl rfl rfl (.inPlace (stale := List.replicate 11 0) rfl))
    have r3 := r2.snoc (Step.call (i := 0) (enc := [3, 3, 3]) rfl rfl rfl (.inPlace (stale := List.replicate 8 0) rfl))
    have r4 := r3.snoc (Step.call (i := 1) (enc := [4, 4]) rfl rfl rfl (.inPlace (stale := [3, 3] ++ List.replicate 8 0) rfl))
    exact ⟨_, r4, rfl⟩

end Verif.Props
