import Verif.Proof.Decode
import Verif.Model.Messages
import Verif.Spec.Message
/-! Encodings of whole messages, as the code writes them. -/
namespace Verif.Proof
open Verif.Go Verif.Spec Verif.Model

/-- arguments as fields -/
def argsF (as : List PScalar) : Bytes := as.flatMap (anyF 2)

/-- an optional criteria -/
def critF (tag : UInt8) : Option PExpr → Bytes
  | none => []
  | some e => codeExprF tag e

def columnsF (cs : List Bytes) : Bytes :=
  cs.flatMap fun c => encField (3, .bytes (encFields [(1, .bytes c)]))

def rowBody (es : List PExpr) : Bytes := es.flatMap (codeExprF 1)

def rowF (es : List PExpr) : Bytes := encField (4, .bytes (rowBody es))

def setF (s : Bytes × PExpr) : Bytes :=
  encField (7, .bytes (encField (1, .bytes (encFields [(2, .bytes s.1)])) ++
    (encField (2, .varint 1) ++ codeExprF 3 s.2)))

def condF (c : Nat × Bytes) : Bytes := encField (2, .bytes (encFields [(1, .varint c.1), (2, .bytes c.2)]))

def optDM (t : Nat) : Option Nat → Bytes
  | none => []
  | some v => encField (t, .varint v)

/-- type and payload of a message as the code writes it -/
def codeMsg : ClientMsg → UInt8 × Bytes
  | .stmtExecute stmt args => (12, encField (1, .bytes stmt) ++ argsF args)
  | .prepare id stmt => (40, encFields [(1, .varint id), (2, .bytes (encFields [(1, .varint 5),
      (6, .bytes (encFields [(1, .bytes stmt)]))]))])
  | .execute id args => (41, encField (1, .varint id) ++ argsF args)
  | .deallocate id => (42, encFields [(1, .varint id)])
  | .insert t dm cs rows => (18, encField (1, .bytes (encFields [(1, .bytes t)])) ++
      (optDM 2 dm ++ (columnsF cs ++ rows.flatMap rowF)))
  | .update t dm crit sets => (19, encField (2, .bytes (encFields [(1, .bytes t)])) ++
      (optDM 3 dm ++ (critF 4 crit ++ sets.flatMap setF)))
  | .delete t dm crit => (20, encField (1, .bytes (encFields [(1, .bytes t)])) ++
      (optDM 2 dm ++ critF 3 crit))
  | .expectOpen op cs => (24, 8 :: UInt8.ofNat op :: cs.flatMap condF)
  | .expectClose => (25, [])
  | .reset none => (6, [])
  | .reset (some b) => (6, encFields [(1, .varint (if b then 1 else 0))])
  | .authStart m none => (4, encFields [(1, .bytes m)])
  | .authStart m (some d) => (4, encFields [(1, .bytes m), (2, .bytes d)])
  | .authContinue d => (5, encFields [(1, .bytes d)])
  | .capabilitiesSet caps => (2, encFields [(1, .bytes (caps.flatMap fun c =>
      encField (1, .bytes (encFields [(1, .bytes c.1), (2, .bytes (encAny c.2))]))))])

/-- a frame; the length field holds the length modulo 2^32 -/
def frame (f : UInt8 × Bytes) : Bytes := fixed 4 (f.2.length + 1) ++ f.1 :: f.2

def codeFrame (m : ClientMsg) : Bytes := frame (codeMsg m)

theorem putUint32_at {s : Slice} {A J R : Bytes} {i n : Nat} (hd : s.data = A ++ (J ++ R)) (hJ : J.length = 4)
    (hi : i = A.length) : putUint32 s i n = .ok ⟨A ++ (fixed 4 n ++ R), s.spare⟩ := by
  obtain ⟨d, sp⟩ := s
  simp only at hd
  subst hd
  match J, hJ with
  | [a, b, c, e], _ =>
    unfold putUint32
    rw [if_pos (by simp [Slice.len, hi])]
    dsimp only
    rw [set_at (A := A) (j := a) (R := b :: c :: e :: R) (by rfl) hi, ok_bind]
    rw [set_at (A := A ++ [UInt8.ofNat (n % 2 ^ 32)]) (j := b) (R := c :: e :: R) (by simp) (by simp [hi]), ok_bind]
    rw [set_at (A := A ++ [UInt8.ofNat (n % 2 ^ 32), UInt8.ofNat ((n % 2 ^ 32) >>> 8)]) (j := c) (R := e :: R) (by simp) (by simp [hi]), ok_bind]
    rw [set_at (A := A ++ [UInt8.ofNat (n % 2 ^ 32), UInt8.ofNat ((n % 2 ^ 32) >>> 8), UInt8.ofNat ((n % 2 ^ 32) >>> 16)]) (j := e) (R := R) (by simp) (by simp [hi])]
    rw [fixed4]
    have e0 : UInt8.ofNat (n % 2 ^ 32) = UInt8.ofNat n := by apply UInt8.toNat_inj.mp; simp
    have e1 : UInt8.ofNat ((n % 2 ^ 32) >>> 8) = UInt8.ofNat (n >>> 8) := by
      apply UInt8.toNat_inj.mp; simp [Nat.shiftRight_eq_div_pow]; omega
    have e2 : UInt8.ofNat ((n % 2 ^ 32) >>> 16) = UInt8.ofNat (n >>> 16) := by
      apply UInt8.toNat_inj.mp; simp [Nat.shiftRight_eq_div_pow]; omega
    have e3 : UInt8.ofNat ((n % 2 ^ 32) >>> 24) = UInt8.ofNat (n >>> 24) := by
      apply UInt8.toNat_inj.mp; simp [Nat.shiftRight_eq_div_pow]; omega
    rw [e0, e1, e2, e3]
    simp

theorem At.skip {s : Slice} {i : Nat} {A : Bytes} {n m : Nat} (h : At s i A n) (hm : m ≤ n) :
    ∃ J, J.length = m ∧ At s (i + m) (A ++ J) (n - m) := by
  obtain ⟨J, h1, h2, h3⟩ := h
  obtain ⟨K, R, rfl, hK, hR⟩ := split_at h2 hm
  exact ⟨K, hK, R, by simp [h1], hR, by simp [h3, hK]⟩

/-- `i = putUvarint(b[2:], x); b[0] = u; b[1] = v; b = b[2+i:]` -/
theorem At.fill2 {s : Slice} {i : Nat} {A : Bytes} {n : Nat} {x : Nat} (u v : UInt8) (h : At s i A n)
    (hx : x < 2 ^ 64) (hn : 2 + (varint x).length ≤ n) :
    ∃ s1 s2 s3, putUvarint s (i + 2) x = .ok (s1, (varint x).length) ∧ setAt s1 i u = .ok s2 ∧
      setAt s2 (i + 1) v = .ok s3 ∧
      At s3 (i + 2 + (varint x).length) (A ++ u :: v :: varint x) (n - (2 + (varint x).length)) := by
  obtain ⟨J, h1, h2, h3⟩ := h
  obtain ⟨K, R, rfl, hK, hR⟩ := split_at h2 hn
  match K with
  | [] => simp at hK; omega
  | [_] => simp at hK; omega
  | a :: b :: K =>
    have hK : K.length = (varint x).length := by simp at hK; omega
    refine ⟨_, _, _, putUvarint_at (A := A ++ [a, b]) (J := K) (R := R) hx (by simpa using h1) hK (by simp [h3]),
      set_at (A := A) (j := a) (R := b :: (varint x ++ R)) (by simp) h3,
      set_at (A := A ++ [u]) (j := b) (R := (varint x ++ R)) (by simp) (by simp [h3]), R, by simp, hR, ?_⟩
    simp; omega

end Verif.Proof
