import Verif.Proof.Units
import Verif.Spec.Field
/-! Single values: encoders against `AnyField` and `ExprField`. -/
namespace Verif.Proof
open Verif.Go Verif.Spec Verif.Model

variable {g : Grow} {p : Slice} {tag : UInt8}

theorem anyField_anyF (ht : SmallTag tag) {s : PScalar} (hs : ScalarOK s) (hl : (anyF tag s).length < 2 ^ 63) :
    AnyField tag.toNat (anyF tag s) s := by
  have h1 := bytes_lt_encFields (t := tag.toNat) (b := encAny s) (fs := [(tag.toNat, .bytes (encAny s))]) (by simp)
  have e : anyF tag s = encFields [(tag.toNat, .bytes (encAny s))] := by simp [anyF, encFields]
  rw [e] at hl
  refine ⟨encAny s, ?_, decodeAny_enc s hs (by omega)⟩
  rw [e]
  exact readFields_enc (by omega) (by simp only [List.mem_singleton, forall_eq, FieldNumOK]; have := ht.1; have := ht.2; omega)

theorem exprField_exprF (ht : SmallTag tag) {e : PExpr} (hs : ExprOK e) (hv : varsShort e = true)
    (hl : (codeExprF tag e).length < 2 ^ 63) : ExprField tag.toNat (codeExprF tag e) e := by
  rw [codeExprF_eq (by have := ht.2; omega) e hv] at hl ⊢
  have h1 := bytes_lt_encFields (t := tag.toNat) (b := encExpr e) (fs := [(tag.toNat, .bytes (encExpr e))]) (by simp)
  have e' : exprF tag e = encFields [(tag.toNat, .bytes (encExpr e))] := by simp [exprF, encFields]
  rw [e'] at hl ⊢
  refine ⟨encExpr e, ?_, decodeExpr_enc e hs (by omega)⟩
  exact readFields_enc (by omega) (by simp only [List.mem_singleton, forall_eq, FieldNumOK]; have := ht.1; have := ht.2; omega)

theorem appendAny_writes (ht : SmallTag tag) {v : Val} {s : PScalar} (h : argMeaning v = some s) :
    Writes (appendAny g p tag v) p fun bs => bs.length < 2 ^ 63 → AnyField tag.toNat bs s := by
  have := appendAny_post (g := g) (p := p) (tag := tag) (by have := ht.2; omega) v
  unfold argMeaning at h
  rw [← modelDur_lib] at h
  rw [(anyRes_ok_iff v s).mpr h] at this
  rcases this with h' | ⟨sp, h'⟩
  · exact .inl h'
  · exact .inr ⟨_, sp, h', fun hl => anyField_anyF ht (argScalarOf_ok h) hl⟩

theorem appendExpr_writes (ht : SmallTag tag) {v : Val} {e : PExpr} (h : exprMeaning v = some e) (hv : varsShort e = true) :
    Writes (appendExpr g p tag v) p fun bs => bs.length < 2 ^ 63 → ExprField tag.toNat bs e := by
  have := appendExpr_post (g := g) (p := p) (tag := tag) (by have := ht.2; omega) v
  unfold exprMeaning at h
  rw [← modelDur_lib] at h
  rw [(exprRes_ok_iff v e).mpr h] at this
  rcases this with h' | ⟨sp, h'⟩
  · exact .inl h'
  · exact .inr ⟨_, sp, h', fun hl => exprField_exprF ht (exprOf_ok _ _ _ _ h) hv hl⟩

/-- what an accepted argument has written -/
theorem appendAny_accepted (ht : SmallTag tag) {v : Val} {q : Slice} (h : appendAny g p tag v = .ok (q, none)) :
    ∃ s, argMeaning v = some s ∧ q.data = p.data ++ anyF tag s := by
  have := appendAny_post (g := g) (p := p) (tag := tag) (by have := ht.2; omega) v
  rw [h] at this
  cases hr : anyRes v with
  | ok s =>
    rw [hr] at this
    rcases this with h' | ⟨sp, h'⟩
    · cases h'
    · cases h'
      refine ⟨s, ?_, rfl⟩
      unfold argMeaning; rw [← modelDur_lib]; exact (anyRes_ok_iff v s).mp hr
  | err e => rw [hr] at this; cases this
  | panic => rw [hr] at this; cases this

theorem appendExpr_accepted (ht : SmallTag tag) {v : Val} {q : Slice} (h : appendExpr g p tag v = .ok (q, none)) :
    ∃ e, exprMeaning v = some e ∧ q.data = p.data ++ codeExprF tag e := by
  have := appendExpr_post (g := g) (p := p) (tag := tag) (by have := ht.2; omega) v
  rw [h] at this
  cases hr : exprRes v with
  | ok s =>
    rw [hr] at this
    rcases this with h' | ⟨sp, h'⟩
    · cases h'
    · cases h'
      refine ⟨s, ?_, rfl⟩
      unfold exprMeaning; rw [← modelDur_lib]; exact (exprRes_ok_iff v s).mp hr
  | err e =>
    rw [hr] at this
    rcases this with h' | ⟨s, h', _⟩ <;> cases h'
  | panic =>
    rw [hr] at this
    rcases this with h' | h' <;> cases h'

theorem Writes.mono {r : M (Slice × Option Err)} {P Q : Bytes → Prop} (h : Writes r p P) (hpq : ∀ b, P b → Q b) :
    Writes r p Q := by
  rcases h with h | ⟨bs, sp, h, hp⟩
  · exact .inl h
  · exact .inr ⟨bs, sp, h, hpq bs hp⟩

/-- small scalars need no size hypothesis -/
theorem appendAny_writes_small (ht : SmallTag tag) {v : Val} {s : PScalar} (h : argMeaning v = some s)
    (hs : (anyF tag s).length < 2 ^ 63) :
    Writes (appendAny g p tag v) p fun bs => AnyField tag.toNat bs s := by
  have := appendAny_post (g := g) (p := p) (tag := tag) (by have := ht.2; omega) v
  unfold argMeaning at h
  rw [← modelDur_lib] at h
  rw [(anyRes_ok_iff v s).mpr h] at this
  rcases this with h' | ⟨sp, h'⟩
  · exact .inl h'
  · exact .inr ⟨_, sp, h', anyField_anyF ht (argScalarOf_ok h) hs⟩

theorem appendExpr_writes_small (ht : SmallTag tag) {v : Val} {e : PExpr} (h : exprMeaning v = some e) (hv : varsShort e = true)
    (hs : (codeExprF tag e).length < 2 ^ 63) :
    Writes (appendExpr g p tag v) p fun bs => ExprField tag.toNat bs e := by
  have := appendExpr_post (g := g) (p := p) (tag := tag) (by have := ht.2; omega) v
  unfold exprMeaning at h
  rw [← modelDur_lib] at h
  rw [(exprRes_ok_iff v e).mpr h] at this
  rcases this with h' | ⟨sp, h'⟩
  · exact .inl h'
  · exact .inr ⟨_, sp, h', exprField_exprF ht (exprOf_ok _ _ _ _ h) hv hs⟩

/-! sizes -/

theorem encField_bytes_length_le (t : Nat) (ht : t < 16) (b : Bytes) (hb : b.length < 2 ^ 63) :
    (encField (t, .bytes b)).length ≤ b.length + 11 := by
  have h1 : (varint (t * 8 + 2)).length ≤ 1 := by rw [varint_small (by omega)]; simp
  have h2 : (varint b.length).length ≤ 10 := varint_length_le10 (by omega)
  simp [encField]; omega

theorem encField_varint_length_le (t : Nat) (ht : t < 16) (v : Nat) (hv : v < 2 ^ 64) :
    (encField (t, .varint v)).length ≤ 11 := by
  have h1 : (varint (t * 8)).length ≤ 1 := by rw [varint_small (by omega)]; simp
  have h2 := varint_length_le10 hv
  simp [encField]; omega

/-- bytes of text in a scalar -/
def textLen : PScalar → Nat
  | .octets b _ => b.length
  | .string b _ => b.length
  | _ => 0

theorem optField_length_le {o : Option Nat} (h : ∀ c, o = some c → c < 2 ^ 64) : (encFields (optField 2 o)).length ≤ 11 := by
  cases o with
  | none => simp [optField, encFields]
  | some c =>
    have := encField_varint_length_le 2 (by omega) c (h c rfl)
    simp [optField, encFields]; exact this

theorem encScalar_length_le {s : PScalar} (h : ScalarOK s) (hs : textLen s ≤ 2 ^ 62) :
    (encScalar s).length ≤ textLen s + 50 := by
  cases s with
  | sint v =>
    have h1 := encField_varint_length_le 1 (by omega) 1 (by omega)
    have h2 := encField_varint_length_le 2 (by omega) (zz v) h
    simp [encScalar, encFields]; omega
  | uint v =>
    have h1 := encField_varint_length_le 1 (by omega) 2 (by omega)
    have h2 := encField_varint_length_le 3 (by omega) v h
    simp [encScalar, encFields]; omega
  | null =>
    have h1 := encField_varint_length_le 1 (by omega) 3 (by omega)
    simp [encScalar, encFields]; omega
  | bool b =>
    have h1 := encField_varint_length_le 1 (by omega) 7 (by omega)
    have h2 := encField_varint_length_le 8 (by omega) (if b then 1 else 0) (by split <;> omega)
    simp only [encScalar, encFields, List.length_append, List.length_nil]; omega
  | double x =>
    have h1 := encField_varint_length_le 1 (by omega) 5 (by omega)
    have h2 : (varint (6 * 8 + 1)).length ≤ 1 := by rw [varint_small (by omega)]; simp
    simp [encScalar, encFields, encField, fixed_length] at *
  | float x =>
    have h1 := encField_varint_length_le 1 (by omega) 6 (by omega)
    have h2 : (varint (7 * 8 + 5)).length ≤ 1 := by rw [varint_small (by omega)]; simp
    simp [encScalar, encFields, encField, fixed_length] at *
  | octets b ct =>
    simp only [textLen] at hs ⊢
    have h1 := encField_varint_length_le 1 (by omega) 4 (by omega)
    have h2 := optField_length_le (o := ct) (fun c hc => by have := h c hc; omega)
    have h3 := encField_bytes_length_le 1 (by omega) b (by omega)
    have h4 : (encFields (optField 2 ct ++ [(1, .bytes b)])).length ≤ b.length + 22 := by
      rw [encFields_append]; simp [encFields]; omega
    have h5 := encField_bytes_length_le 5 (by omega) (encFields (optField 2 ct ++ [(1, .bytes b)])) (by omega)
    simp only [encScalar, encFields, List.length_append, List.length_nil]; omega
  | string b ct =>
    simp only [textLen] at hs ⊢
    have h1 := encField_varint_length_le 1 (by omega) 8 (by omega)
    have h2 := optField_length_le (o := ct) (fun c hc => by have := h c hc; omega)
    have h3 := encField_bytes_length_le 1 (by omega) b (by omega)
    have h4 : (encFields (optField 2 ct ++ [(1, .bytes b)])).length ≤ b.length + 22 := by
      rw [encFields_append]; simp [encFields]; omega
    have h5 := encField_bytes_length_le 9 (by omega) (encFields (optField 2 ct ++ [(1, .bytes b)])) (by omega)
    simp only [encScalar, encFields, List.length_append, List.length_nil]; omega

theorem anyF_length (ht : SmallTag tag) {s : PScalar} (h : ScalarOK s) (hs : textLen s ≤ 2 ^ 62) : (anyF tag s).length < 2 ^ 63 := by
  have h0 := encScalar_length_le h hs
  have h1 := encField_varint_length_le 1 (by omega) 1 (by omega)
  have h2 := encField_bytes_length_le 2 (by omega) (encScalar s) (by omega)
  have h3 : (encAny s).length ≤ textLen s + 80 := by
    simp only [encAny, encFields, List.length_append, List.length_nil]; omega
  have h4 := encField_bytes_length_le tag.toNat (by have := ht.2; omega) (encAny s) (by omega)
  rw [anyF]; omega

theorem literal_length (ht : SmallTag tag) {s : PScalar} (h : ScalarOK s) (hs : textLen s ≤ 2 ^ 62) :
    (codeExprF tag (.literal s)).length < 2 ^ 63 := by
  rw [codeExprF_eq (by have := ht.2; omega) _ (by simp [varsShort])]
  have h0 := encScalar_length_le h hs
  have h1 := encField_varint_length_le 1 (by omega) 2 (by omega)
  have h2 := encField_bytes_length_le 4 (by omega) (encScalar s) (by omega)
  have h3 : (encExpr (.literal s)).length ≤ textLen s + 80 := by
    simp only [encExpr, encFields, List.length_append, List.length_nil]; omega
  have h4 := encField_bytes_length_le tag.toNat (by have := ht.2; omega) (encExpr (.literal s)) (by omega)
  rw [exprF]; omega

/-- Values that mean a scalar both as an argument and as a literal are written as that scalar. -/
theorem scalar_writes (ht : SmallTag tag) {v : Val} {s : PScalar} (h : plainScalar libDur fmtTime v = some s)
    (hs : textLen s ≤ 2 ^ 62) :
    Writes (appendAny g p tag v) p (fun bs => AnyField tag.toNat bs s) ∧
    Writes (appendExpr g p tag v) p (fun bs => ExprField tag.toNat bs (.literal s)) := by
  have hok := plainScalar_ok h
  have ha : argMeaning v = some s := by
    unfold argMeaning
    rw [← h]
    cases v <;> first | rfl | (simp [plainScalar] at h)
  have he : exprMeaning v = some (.literal s) := by
    unfold exprMeaning
    cases v <;> first | (simp [plainScalar] at h; done) | (simp only [exprOf, h, Option.map_some])
  exact ⟨appendAny_writes_small ht ha (anyF_length ht hok hs),
    appendExpr_writes_small ht he (by simp [varsShort]) (literal_length ht hok hs)⟩

end Verif.Proof
