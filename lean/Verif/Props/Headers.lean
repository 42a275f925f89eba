import Verif.Props.Units
/-! C28: the header of a message of 4 GiB. -/
namespace Verif.Props
open Verif.Go Verif.Spec Verif.Model Verif.Proof

def NoOom {α : Type} (r : M α) : Prop := r ≠ .error .oom

theorem NoOom.bind {α β : Type} {r : M α} {k : α → M β} (h : NoOom r) (hk : ∀ x, NoOom (k x)) : NoOom (r >>= k) := by
  cases r with
  | ok x => exact hk x
  | error e => cases e with
    | oom => exact absurd rfl h
    | panic => intro h; cases h

theorem noOom_setAt (p : Slice) (i : Nat) (v : UInt8) : NoOom (setAt p i v) := by
  unfold setAt; split <;> (intro h; cases h)

theorem noOom_loop (f : Nat) : ∀ (p : Slice) (i x : Nat), NoOom (putUvarintLoop f p i x) := by
  induction f with
  | zero => intro p i x h; cases h
  | succ f ih =>
    intro p i x
    rw [putUvarintLoop]
    split
    · exact (noOom_setAt _ _ _).bind fun _ h => by cases h
    · exact (noOom_setAt _ _ _).bind fun _ => ih _ _ _

theorem noOom_putUvarint (p : Slice) (i x : Nat) : NoOom (putUvarint p i x) := by
  unfold putUvarint
  dsimp only
  split
  · exact (noOom_setAt _ _ _).bind fun _ h => by cases h
  · exact (noOom_loop _ _ _ _).bind fun _ h => by cases h

theorem noOom_putUint32 (p : Slice) (i x : Nat) : NoOom (putUint32 p i x) := by
  unfold putUint32
  split
  · exact (noOom_setAt _ _ _).bind fun _ => (noOom_setAt _ _ _).bind fun _ => (noOom_setAt _ _ _).bind fun _ => noOom_setAt _ _ _
  · intro h; cases h

theorem noOom_copyAt (p : Slice) (i : Nat) (x : Bytes) : NoOom (copyAt p i x) := by
  unfold copyAt; split <;> (intro h; cases h)

/-- preparing a long statement does not run out of memory -/
theorem prepare_noOom {p : Slice} (id : BitVec 32) {stmt : Bytes} (hp : p.len ≤ 2 ^ 40) (hs : stmt.length ≤ 2 ^ 40) :
    NoOom (prepare p id stmt) := by
  unfold prepare
  dsimp only
  have hid := id.isLt
  have li := varint_length_le5 hid
  rw [sizeVarint32_eq hid]
  have ls := varint_length_le10 (x := stmt.length) (by omega)
  rw [sizeVarint_eq (x := stmt.length) (by omega)]
  generalize hN0 : 1 + (varint stmt.length).length + stmt.length = N0 at *
  have l0 := varint_length_le10 (x := N0) (by omega)
  rw [sizeVarint_eq (x := N0) (by omega)]
  generalize hN1 : 3 + (varint N0).length + N0 = N1 at *
  have l1 := varint_length_le10 (x := N1) (by omega)
  rw [sizeVarint_eq (x := N1) (by omega)]
  generalize hN2 : 2 + (varint id.toNat).length + (varint N1).length + N1 = N2 at *
  refine NoOom.bind ?_ fun _ => ?_
  · unfold forAppend
    dsimp only
    rw [if_pos (by have : maxAlloc = 2 ^ 48 := rfl; omega)]
    split
    · unfold reslice; split <;> (intro h; cases h)
    · rw [if_pos (by have : maxAlloc = 2 ^ 48 := rfl; omega)]
      intro h; cases h
  repeat' first
    | exact NoOom.bind (noOom_putUvarint _ _ _) fun _ => ?_
    | refine NoOom.bind (noOom_putUvarint _ _ _) fun _ => ?_
    | refine NoOom.bind (noOom_putUint32 _ _ _) fun _ => ?_
    | refine NoOom.bind (noOom_setAt _ _ _) fun _ => ?_
    | refine NoOom.bind (noOom_copyAt _ _ _) fun _ => ?_
  intro h; cases h

theorem readFixed_spec {n : Nat} : ∀ {bs rest : Bytes} {x : Nat}, readFixed n bs = some (x, rest) → x < 256 ^ n ∧ bs.length = n + rest.length := by
  induction n with
  | zero => intro bs rest x h; simp [readFixed] at h; obtain ⟨rfl, rfl⟩ := h; simp
  | succ n ih =>
    intro bs rest x h
    cases bs with
    | nil => simp [readFixed] at h
    | cons b bs =>
      simp only [readFixed] at h
      split at h
      · rename_i y r hy
        obtain ⟨h1, h2⟩ := ih hy
        cases h
        have := b.toNat_lt
        refine ⟨by rw [Nat.pow_succ]; omega, by simp [h2]; omega⟩
      · cases h

/-- The rest of C28 is false: the header of a statement of 4 GiB has wrapped around. -/
theorem C28_wrong : ¬C28_full := by
  intro h
  have hr : Ready (newPipe 0) := ⟨rfl, rfl⟩
  generalize hs : List.replicate (2 ^ 32) (0 : UInt8) = stmt
  have hl : stmt.length = 2 ^ 32 := by rw [← hs, List.length_replicate]
  have hno := prepare_noOom (p := (newPipe 0).buf) 1 (stmt := stmt) (by simp [newPipe, Slice.len]) (by omega)
  rcases prepare_post (p := (newPipe 0).buf) 1 stmt with hp | ⟨sp, hp⟩
  · exact hno hp
  · have hstep : (newPipe 0).step (fun c n => c + n) (.prepare 1 stmt) =
        .ok ({ newPipe 0 with buf := ⟨(newPipe 0).buf.data ++ codeFrame (.prepare (1 : BitVec 32).toNat stmt), sp⟩ }, none) := by
      unfold Builder.step
      rw [if_neg (by simp [newPipe]), if_neg (by simp [newPipe])]
      dsimp only
      rw [hp]; rfl
    obtain ⟨fr, e, n, rest, h1, h2⟩ := h _ _ _ _ _ hr (by simp) hstep rfl
    have e := List.append_cancel_left e
    subst e
    have hlen : 2 ^ 32 ≤ (codeMsg (.prepare (1 : BitVec 32).toNat stmt)).2.length := by
      simp only [codeMsg, encFields, encField, List.append_nil, List.length_append]
      omega
    have h3 := readFixed_spec h1
    rw [codeFrame_length] at h3
    omega

end Verif.Props
