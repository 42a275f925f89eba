import Verif.Model.Capability
import Verif.Proof.MsgPost
import Verif.Proof.MsgDecode
/-! Session messages: AuthenticateStart, AuthenticateContinue, CapabilitiesSet. -/
namespace Verif.Proof
open Verif.Go Verif.Spec Verif.Model

theorem pbVarint_eq (x : Nat) : pbVarint x = varint x := by
  induction x using Nat.strongRecOn with
  | ind x ih =>
    rw [pbVarint, varint]
    split
    · rfl
    · rw [ih (x / 128) (by omega)]

theorem appendWire_appends (g : Grow) (p : Slice) {tag : UInt8} (ht : tag.toNat < 16) (v : Bytes) :
    Appends (appendWireString g p tag v) p (encField (tag.toNat, .bytes v)) := by
  have := unrolled_appends g p [keyBytes tag] (unrolled64' v.length) (n := sizeVarint v.length) (K := 10) rfl
    (sizeVarint_pos _) (sizeVarint_le10 _)
  have e : appendWireString g p tag v = ((append g p ([keyBytes tag] ++ unrolled64' v.length) >>= fun q =>
      setAnd q (sizeVarint v.length + q.len - 10 - 1) 0x7F >>= fun r => reslice r (sizeVarint v.length + q.len - 10)) >>= fun p =>
        append g p v) := by
    simp only [appendWireString, bind_assoc]; rfl
  rw [e]
  rcases this with h | ⟨sp, h⟩
  · left; rw [h]; rfl
  · rw [h, ok_bind]
    by_cases hx : v.length < 2 ^ 64
    · rw [maskLast_unrolled64' hx]
      rcases append_cases g ⟨p.data ++ ([keyBytes tag] ++ varint v.length), sp⟩ v with h | ⟨_, sp, h⟩
      · exact .inl h
      · right
        rw [h, encField_bytes ht]
        exact ⟨sp, by simp⟩
    · left; exact append_huge hx

theorem putUint32_zero {s : Slice} {R : Bytes} {n : Nat} (hd : s.data = 0 :: 0 :: 0 :: 0 :: R) :
    putUint32 s 0 n = .ok ⟨fixed 4 n ++ R, s.spare⟩ := by
  exact putUint32_at (i := 0) (n := n) (A := []) (J := [0, 0, 0, 0]) (R := R) hd rfl rfl

theorem authenticateStart_post (g : Grow) (p : Slice) (mech data : Bytes) :
    authenticateStart g p mech data = .error .oom ∨ ∃ sp, authenticateStart g p mech data =
      .ok ⟨codeFrame (.authStart mech (if data = [] then none else some data)), sp⟩ := by
  rcases append_cases g ⟨[], p.spare⟩ [0, 0, 0, 0, 4] with h | ⟨_, sp, h⟩
  · left; simp only [authenticateStart, h]; rfl
  · rcases appendWire_appends g ⟨[] ++ [0, 0, 0, 0, 4], sp⟩ (tag := 1) (by decide) mech with h1 | ⟨sp, h1⟩
    · left; simp only [authenticateStart, h, ok_bind, h1]; rfl
    · simp only [authenticateStart, h, ok_bind, h1]
      cases data with
      | nil =>
        right
        refine ⟨sp, ?_⟩
        simp only [List.length_nil, Nat.lt_irrefl, if_false]
        rw [putUint32_zero (R := 4 :: encField (1, .bytes mech)) rfl]
        simp [codeFrame, frame, codeMsg, encFields, Slice.len]
      | cons d ds =>
        simp only [List.length_cons, Nat.zero_lt_succ, if_true]
        rcases appendWire_appends g ⟨[] ++ [0, 0, 0, 0, 4] ++ encField ((1 : UInt8).toNat, .bytes mech), sp⟩ (tag := 2) (by decide) (d :: ds) with h2 | ⟨sp, h2⟩
        · left; rw [h2]; rfl
        · right
          refine ⟨sp, ?_⟩
          rw [h2, ok_bind]
          rw [putUint32_zero (R := 4 :: (encField (1, .bytes mech) ++ encField (2, .bytes (d :: ds)))) rfl]
          simp [codeFrame, frame, codeMsg, encFields, Slice.len]

theorem authenticateContinue_post (g : Grow) (p : Slice) (data : Bytes) :
    authenticateContinue g p data = .error .oom ∨ ∃ sp, authenticateContinue g p data =
      .ok ⟨codeFrame (.authContinue data), sp⟩ := by
  rcases append_cases g ⟨[], p.spare⟩ [0, 0, 0, 0, 5] with h | ⟨_, sp, h⟩
  · left; simp only [authenticateContinue, h]; rfl
  · rcases appendWire_appends g ⟨[] ++ [0, 0, 0, 0, 5], sp⟩ (tag := 1) (by decide) data with h1 | ⟨sp, h1⟩
    · left; simp only [authenticateContinue, h, ok_bind, h1]; rfl
    · right
      refine ⟨sp, ?_⟩
      simp only [authenticateContinue, h, ok_bind, h1]
      rw [putUint32_zero (R := 5 :: encField (1, .bytes data)) rfl]
      simp [codeFrame, frame, codeMsg, encFields, Slice.len]

theorem capabilitiesMessage_eq (name : Bytes) (enable : Bool) :
    pbMarshal (capabilitiesMessage name enable) = (codeMsg (.capabilitiesSet [(name, .bool enable)])).2 := by
  simp only [capabilitiesMessage, pbMarshal, pbField, pbVarint_eq, codeMsg, encFields, encField, encAny, encScalar,
    List.flatMap_cons, List.flatMap_nil, List.append_nil, List.append_assoc]

theorem capabilitySet_post (name : Bytes) (enable : Bool) :
    capabilitySet name enable = .error .oom ∨
    capabilitySet name enable = .ok (codeFrame (.capabilitiesSet [(name, .bool enable)])) := by
  simp only [capabilitySet]
  generalize hm : pbMarshal (capabilitiesMessage name enable) = m
  split
  · exact .inl rfl
  · right
    rw [putUint32_zero (R := 0 :: List.replicate m.length 0) (by rw [Nat.add_comm]; simp [List.replicate_succ]), ok_bind]
    simp only [fixed4, setAt, Slice.len, List.cons_append, List.nil_append, List.length_cons]
    rw [if_pos (by omega), ok_bind]
    simp only [reslice, Slice.cap, List.length_set, List.length_cons, List.append_nil]
    rw [if_pos (by simp), ok_bind]
    simp [codeFrame, frame, fixed4, ← capabilitiesMessage_eq, hm]
    rfl

end Verif.Proof
