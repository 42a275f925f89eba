import Verif.Proof.Any
import Verif.Model.Expr
/-! The string/octets encoders (any.go:142-261, expr.go:139-256). -/
namespace Verif.Proof
open Verif.Go Verif.Spec Verif.Model

/-- Common shape of `appendAnyText` and `appendExprText`. -/
def textGen (T B : UInt8) (p : Slice) (tag : UInt8) (s : Bytes) (extra : Nat) (scalarType fieldKey : UInt8) :
    M Slice := do
  let n := s.length
  let n0 := 1 + sizeVarint n + n
  let n0 := if extra ≠ 0 then n0 + (1 + sizeVarint extra) else n0
  let n1 := 3 + sizeVarint n0 + n0
  let n2 := 3 + sizeVarint n1 + n1
  let o := p.len
  let p ← forAppend p (1 + sizeVarint n2 + n2)
  let (p, i) ← putUvarint p (o + 1) n2
  let p ← setAt p o (keyBytes tag)
  let o := o + (1 + i)
  let (p, i) ← putUvarint p (o + 3) n1
  let p ← setAt p o (keyVarint 1)
  let p ← setAt p (o + 1) T
  let p ← setAt p (o + 2) B
  let o := o + (3 + i)
  let (p, i) ← putUvarint p (o + 3) n0
  let p ← setAt p o (keyVarint 1)
  let p ← setAt p (o + 1) scalarType
  let p ← setAt p (o + 2) fieldKey
  let o := o + (3 + i)
  let (p, o) ← if extra ≠ 0 then do
      let (p, i) ← putUvarint p (o + 1) extra
      let p ← setAt p o (keyVarint 2)
      pure (p, o + (1 + i))
    else pure (p, o)
  let (p, i) ← putUvarint p (o + 1) n
  let p ← setAt p o (keyBytes 1)
  let (p, _) ← copyAt p (o + (1 + i)) s
  .ok p

theorem appendAnyText_gen : appendAnyText = textGen 1 (keyBytes 2) := rfl
theorem appendExprText_gen : appendExprText = textGen 2 (keyBytes 4) := rfl

theorem textGen_appends {tag : UInt8} (htag : tag.toNat < 16) (p : Slice) (s : Bytes) (extra st fk : Nat)
    (ST FK : UInt8) (he : extra < 2 ^ 64)
    (h1 : varint st = [ST]) (h2 : varint (fk * 8 + 2) = [FK]) (t b : Nat) (T B : UInt8)
    (h3 : varint t = [T]) (h4 : varint (b * 8 + 2) = [B]) :
    Appends (textGen T B p tag s extra ST FK) p
      (encField (tag.toNat, .bytes (encFields [(1, .varint t), (b, .bytes (encFields [(1, .varint st),
        (fk, .bytes (encText s extra))]))]))) := by
  rw [anyText_eq htag s extra st fk ST FK h1 h2 t b T B h3 h4]
  unfold textGen
  apply Appends.of_forAppend
  intro hle q hq
  have hmax : maxAlloc = 2 ^ 48 := rfl
  have hs : s.length < 2 ^ 49 := by
    by_cases h : extra = 0 <;> simp only [h, ne_eq, not_true_eq_false, if_false, not_false_eq_true, if_true] at hle <;> omega
  have hn0 := text_n0 s extra (by omega) he
  have htl : (encText s extra).length < 2 ^ 50 := by
    rw [encText_eq]
    have := varint_length_le10 he
    have := varint_length_le10 (x := s.length) (by omega)
    by_cases h : extra = 0 <;> simp [h] <;> omega
  rw [hn0] at hle hq ⊢
  generalize hN0 : (encText s extra).length = N0 at *
  have l0 := varint_length_le10 (x := N0) (by omega)
  rw [sizeVarint_eq (x := N0) (by omega)] at hle hq ⊢
  generalize hN1 : 3 + (varint N0).length + N0 = N1 at *
  have l1 := varint_length_le10 (x := N1) (by omega)
  rw [sizeVarint_eq (x := N1) (by omega)] at hle hq ⊢
  generalize hN2 : 3 + (varint N1).length + N1 = N2 at *
  have l2 := varint_length_le10 (x := N2) (by omega)
  rw [sizeVarint_eq (x := N2) (by omega)] at hle hq
  obtain ⟨q1, q2, e1, e2, hq⟩ := hq.fill1 (x := N2) (keyBytes tag) (by omega) (by omega)
  rw [e1, ok_bind]; dsimp only; rw [e2, ok_bind]
  obtain ⟨q3, q4, q5, q6, e1, e2, e3, e4, hq⟩ := hq.fill3 (x := N1) (keyVarint 1) T B (by omega) (by omega)
  rw [e1, ok_bind]; dsimp only; rw [e2, ok_bind, e3, ok_bind, e4, ok_bind]
  obtain ⟨q3, q4, q5, q6, e1, e2, e3, e4, hq⟩ := hq.fill3 (x := N0) (keyVarint 1) ST FK (by omega) (by omega)
  rw [e1, ok_bind]; dsimp only; rw [e2, ok_bind, e3, ok_bind, e4, ok_bind]
  rw [encText_eq] at hN0 ⊢
  have ls := varint_length_le10 (x := s.length) (by omega)
  by_cases hx : extra = 0
  · simp only [hx, ne_eq, not_true_eq_false, if_false, pure, Except.pure, ok_bind, List.nil_append] at hN0 ⊢
    simp at hN0
    obtain ⟨q7, q8, e1, e2, hq⟩ := hq.fill1 (x := s.length) (keyBytes 1) (by omega) (by omega)
    rw [e1, ok_bind]; dsimp only; rw [e2, ok_bind]
    obtain ⟨q9, e1, hq⟩ := hq.copy s (by omega)
    rw [e1, ok_bind]
    refine ⟨q9, rfl, ?_⟩
    rw [hq.done' (by omega)]
    simp
  · have le := varint_length_le10 he
    simp only [hx, ne_eq, not_false_eq_true, if_true, pure, Except.pure] at hN0 ⊢
    simp at hN0
    obtain ⟨q7, q8, e1, e2, hq⟩ := hq.fill1 (x := extra) (keyVarint 2) (by omega) (by omega)
    rw [e1, ok_bind]; dsimp only; rw [e2, ok_bind, ok_bind]
    obtain ⟨q9, q10, e1, e2, hq⟩ := hq.fill1 (x := s.length) (keyBytes 1) (by omega) (by omega)
    dsimp only
    rw [e1, ok_bind]; dsimp only; rw [e2, ok_bind]
    obtain ⟨q11, e1, hq⟩ := hq.copy s (by omega)
    rw [e1, ok_bind]
    refine ⟨q11, rfl, ?_⟩
    rw [hq.done' (by omega)]
    simp

end Verif.Proof
