import Verif.Proof.AnyAll
/-! `appendExpr` as a whole. -/
namespace Verif.Proof
open Verif.Go Verif.Spec Verif.Model

/-! ### filling reserved space in the middle -/

/-- `s` holds `A`, then `n` bytes still to be filled, then `R`; `i` is the index of the first of them. -/
def AtR (s : Slice) (i : Nat) (A : Bytes) (n : Nat) (R : Bytes) : Prop :=
  ∃ J, s.data = A ++ (J ++ R) ∧ J.length = n ∧ i = A.length

theorem AtR.done {s : Slice} {i n : Nat} {A R : Bytes} (h : AtR s i A n R) (hn : n = 0) : s.data = A ++ R := by
  obtain ⟨J, h1, h2, h3⟩ := h
  simp [List.eq_nil_of_length_eq_zero (h2.trans hn)] at h1; exact h1

theorem AtR.set {s : Slice} {i : Nat} {A R : Bytes} {n : Nat} (v : UInt8) (h : AtR s i A n R) (hn : 1 ≤ n) :
    ∃ s', setAt s i v = .ok s' ∧ AtR s' (i + 1) (A ++ [v]) (n - 1) R := by
  obtain ⟨J, h1, h2, h3⟩ := h
  obtain ⟨K, L, rfl, hK, hL⟩ := split_at h2 hn
  match K, hK with
  | [j], _ =>
    refine ⟨_, set_at (by simpa using h1) h3, L, ?_, hL, ?_⟩
    · simp
    · simp [h3]

theorem AtR.put {s : Slice} {i : Nat} {A R : Bytes} {n : Nat} {x : Nat} (h : AtR s i A n R) (hx : x < 2 ^ 64)
    (hn : (varint x).length ≤ n) :
    ∃ s', putUvarint s i x = .ok (s', (varint x).length) ∧
      AtR s' (i + (varint x).length) (A ++ varint x) (n - (varint x).length) R := by
  obtain ⟨J, h1, h2, h3⟩ := h
  obtain ⟨K, L, rfl, hK, hL⟩ := split_at h2 hn
  refine ⟨_, putUvarint_at hx (by simpa using h1) hK h3, L, ?_, hL, ?_⟩
  · simp
  · simp [h3]

theorem AtR.copy {s : Slice} {i : Nat} {A R : Bytes} {n : Nat} (xs : Bytes) (h : AtR s i A n R)
    (hn : xs.length ≤ n) :
    ∃ s', copyAt s i xs = .ok (s', xs.length) ∧
      AtR s' (i + xs.length) (A ++ xs) (n - xs.length) R := by
  obtain ⟨J, h1, h2, h3⟩ := h
  obtain ⟨K, L, rfl, hK, hL⟩ := split_at h2 hn
  refine ⟨_, copyAt_exact (by simpa using h1) hK h3, L, ?_, hL, ?_⟩
  · simp
  · simp [h3]

/-- Inserting in front of what was appended to `p` and filling the gap. -/
theorem Appends.of_insert {g : Grow} {A R : Bytes} {sp0 : Bytes} {n : Nat} {k : Slice → M Slice} {e : Bytes}
    (hn : n ≠ 0)
    (h : A.length + R.length + n ≤ maxAlloc → ∀ q, AtR q A.length A n R → ∃ s, k q = .ok s ∧ s.data = A ++ e) :
    (sliceInsert g ⟨A ++ R, sp0⟩ A.length n >>= k) = .error .oom ∨
      ∃ sp', (sliceInsert g ⟨A ++ R, sp0⟩ A.length n >>= k) = .ok ⟨A ++ e, sp'⟩ := by
  rcases sliceInsert_cases g ⟨A ++ R, sp0⟩ A.length n (by simp [Slice.len]) hn with h1 | ⟨hle, J, sp, hJ, h1⟩
  · left; rw [h1]; rfl
  · right
    rw [h1, ok_bind]
    rw [show (⟨A ++ R, sp0⟩ : Slice).data.take A.length = A by simp, show (⟨A ++ R, sp0⟩ : Slice).data.drop A.length = R by simp]
    obtain ⟨s, hs, hd⟩ := h (by simpa [Slice.len] using hle) ⟨A ++ (J ++ R), sp⟩ ⟨J, rfl, hJ, rfl⟩
    exact ⟨s.spare, by rw [hs, ← hd]⟩

/-! ### encodings -/

mutual
/-- canonical encoding of the body of an `Expr` -/
def encExpr : PExpr → Bytes
  | .ident name => encFields [(1, .varint 1), (2, .bytes (encFields [(2, .bytes name)]))]
  | .literal s => encFields [(1, .varint 2), (4, .bytes (encScalar s))]
  | .variable name => encFields [(1, .varint 3), (3, .bytes name)]
  | .funcCall name ps => encFields [(1, .varint 4), (5, .bytes (encField (1, .bytes (encFields [(1, .bytes name)])) ++ encParams ps))]
  | .operator name ps => encFields [(1, .varint 5), (6, .bytes (encField (1, .bytes name) ++ encParams ps))]
  | .placeholder pos => encFields [(1, .varint 6), (7, .varint pos)]
def encParams : List PExpr → Bytes
  | [] => []
  | e :: es => encField (2, .bytes (encExpr e)) ++ encParams es
end

/-- encoding of an expression as a field -/
def exprF (tag : UInt8) (e : PExpr) : Bytes := encField (tag.toNat, .bytes (encExpr e))

/-- the field the code writes for a variable: a single length byte -/
def codeVarF (tag : UInt8) (name : Bytes) : Bytes :=
  [keyBytes tag, 3 + UInt8.ofNat ((varint name.length).length + name.length), 8, 3, 26] ++ varint name.length ++ name

mutual
/-- the field the code writes: as `exprF`, but variables by `codeVarF` -/
def codeExprF (tag : UInt8) : PExpr → Bytes
  | .variable name => codeVarF tag name
  | .funcCall name ps => encField (tag.toNat, .bytes (encFields [(1, .varint 4),
      (5, .bytes (encField (1, .bytes (encFields [(1, .bytes name)])) ++ codeParams ps))]))
  | .operator name ps => encField (tag.toNat, .bytes (encFields [(1, .varint 5),
      (6, .bytes (encField (1, .bytes name) ++ codeParams ps))]))
  | e => exprF tag e
def codeParams : List PExpr → Bytes
  | [] => []
  | e :: es => codeExprF 2 e ++ codeParams es
end

theorem codeVarF_eq {tag : UInt8} (htag : tag.toNat < 16) {name : Bytes} (h : name.length < 124) :
    codeVarF tag name = exprF tag (.variable name) := by
  rw [codeVarF, exprF, encField_bytes htag]
  simp [encExpr, encFields, encField, varint_small (show name.length < 128 by omega)]
  rw [varint_small (by omega)]
  simp
  apply UInt8.toNat_inj.mp; simp; omega

mutual
theorem codeExprF_eq {tag : UInt8} (htag : tag.toNat < 16) (e : PExpr) (h : varsShort e = true) :
    codeExprF tag e = exprF tag e := by
  match e with
  | .ident _ => rfl
  | .literal _ => rfl
  | .placeholder _ => rfl
  | .variable name => exact codeVarF_eq htag (by simpa [varsShort] using h)
  | .funcCall name ps => rw [codeExprF, codeParams_eq ps (by simpa [varsShort] using h)]; rfl
  | .operator name ps => rw [codeExprF, codeParams_eq ps (by simpa [varsShort] using h)]; rfl
theorem codeParams_eq (es : List PExpr) (h : varsShorts es = true) : codeParams es = encParams es := by
  match es with
  | [] => rfl
  | e :: es =>
    simp only [varsShorts, Bool.and_eq_true] at h
    rw [codeParams, codeExprF_eq (by decide) e h.1, codeParams_eq es h.2]; rfl
end

/-! ### literals -/

variable {g : Grow} {p : Slice} {tag : UInt8}

/-- encoding of a scalar literal as an `Expr` field -/
abbrev litF (tag : UInt8) (s : PScalar) : Bytes := exprF tag (.literal s)

theorem exprNull_appends (htag : tag.toNat < 16) : Appends (appendExprNull g p tag) p (litF tag .null) := by
  apply (append_appends g p _).of_eq
  rw [litF, exprF, encField_bytes htag]
  simp [encExpr, encScalar, encFields, encField, keyVarint1, keyBytes4]

theorem exprBool_appends (htag : tag.toNat < 16) (b : Bool) :
    Appends (appendExprBool g p tag b) p (litF tag (.bool b)) := by
  apply (append_appends g p _).of_eq
  rw [litF, exprF, encField_bytes htag]
  cases b <;> simp [encExpr, encScalar, encFields, encField, keyVarint1, keyBytes4, keyVarint8, encodeBool]

theorem exprFloat32_appends (htag : tag.toNat < 16) (x : BitVec 32) :
    Appends (appendExprFloat32 g p tag x) p (litF tag (.float x.toNat)) := by
  apply (append_appends g p _).of_eq
  rw [litF, exprF, encField_bytes htag]
  simp [encExpr, encScalar, encFields, encField, keyVarint1, keyBytes4, keyFixed32_7, fixed4]

theorem exprFloat64_appends (htag : tag.toNat < 16) (x : BitVec 64) :
    Appends (appendExprFloat64 g p tag x) p (litF tag (.double x.toNat)) := by
  apply (append_appends g p _).of_eq
  rw [litF, exprF, encField_bytes htag]
  simp [encExpr, encScalar, encFields, encField, keyVarint1, keyBytes4, keyFixed64_6, fixed8]

theorem exprUint64_appends (htag : tag.toNat < 16) (x : BitVec 64) :
    Appends (appendExprUint64 g p tag x) p (litF tag (.uint x.toNat)) := by
  have hx := x.isLt
  have := unrolled_appends g p ([keyBytes tag, 7 + UInt8.ofNat (sizeVarint x.toNat), keyVarint 1, 2, keyBytes 4,
      3 + UInt8.ofNat (sizeVarint x.toNat), keyVarint 1, 2, keyVarint 3])
    (unrolled64 x.toNat) (n := sizeVarint x.toNat) (K := 10) rfl (sizeVarint_pos _) (sizeVarint_le10 _)
  have e := encInt_eq htag x.toNat _ 3 4 (keyVarint 3) (keyBytes 4) hx (sizeVarint_eq hx) (by simp [keyVarint3]) 2 2
    (by omega) (by omega) (by simp [keyBytes4])
  rw [maskLast_unrolled64 hx] at this
  exact this.of_eq e

theorem exprInt64_appends (htag : tag.toNat < 16) (x : BitVec 64) :
    Appends (appendExprInt64 g p tag x) p (litF tag (.sint x.toInt)) := by
  have hx := zz_lt (by omega) x
  have := unrolled_appends g p ([keyBytes tag, 7 + UInt8.ofNat (sizeVarint (zz x.toInt)), keyVarint 1, 2, keyBytes 4,
      3 + UInt8.ofNat (sizeVarint (zz x.toInt)), keyVarint 1, 1, keyVarint 2])
    (unrolled64 (zz x.toInt)) (n := sizeVarint (zz x.toInt)) (K := 10) rfl (sizeVarint_pos _) (sizeVarint_le10 _)
  have e := encInt_eq htag (zz x.toInt) _ 2 4 (keyVarint 2) (keyBytes 4) hx (sizeVarint_eq hx) (by simp [keyVarint2]) 2 1
    (by omega) (by omega) (by simp [keyBytes4])
  rw [maskLast_unrolled64 hx] at this
  simp only [appendExprInt64, toNat_zigzag (show 0 < 64 by omega)]
  exact this.of_eq e

theorem exprOctetsText_appends (htag : tag.toNat < 16) (s : Bytes) (ct : Nat) (hct : ct < 2 ^ 64) :
    Appends (appendExprText p tag s ct 4 (keyBytes 5)) p (litF tag (.octets s (optNonZero ct))) := by
  rw [appendExprText_gen]
  exact textGen_appends htag p s ct 4 5 4 (keyBytes 5) hct (by simp) (by simp [keyBytes5]) 2 4 2 (keyBytes 4)
    (by simp) (by simp [keyBytes4])

theorem exprString_appends (htag : tag.toNat < 16) (s : Bytes) (c : Nat) (hc : c < 2 ^ 64) :
    Appends (appendExprString p tag s c) p (litF tag (.string s (optNonZero c))) := by
  rw [appendExprString, appendExprText_gen]
  exact textGen_appends htag p s c 8 9 8 (keyBytes 9) hc (by simp) (by simp [keyBytes9]) 2 4 2 (keyBytes 4)
    (by simp) (by simp [keyBytes4])

theorem exprBytes_appends (htag : tag.toNat < 16) (b : Option Bytes) (ct : Nat) (hct : ct < 2 ^ 64) :
    Appends (appendExprBytes g p tag b ct) p (litF tag (octetsOrNull b ct)) := by
  cases b with
  | none => exact exprNull_appends htag
  | some b => exact exprOctetsText_appends htag b ct hct

theorem exprTime_appends (htag : tag.toNat < 16) (t : GoTime) :
    Appends (appendExprTime g p tag t) p (litF tag (.octets (fmtTime t) none)) := by
  have hl := fmtTime_length t
  have := smallOctets_appends g p tag 2 (keyBytes 4) (fmtTime t) (fun q => append g q (fmtTime t))
    (fun q => append_appends g q _) (fun n => !decide (n + 10 ≥ 0x80)) (by simp; omega)
  rw [litF, exprF, encExpr, smallOctets_eq htag (fmtTime t) (by omega) 2 4 2 (keyBytes 4) (by simp) (by simp [keyBytes4])]
  simp only [Bool.not_eq_true', decide_eq_false_iff_not, ite_not] at this
  exact this

theorem exprDuration_appends (htag : tag.toNat < 16) (d : BitVec 64) :
    Appends (appendExprDuration g p tag d) p (litF tag (.octets (modelDur d) none)) := by
  have hl := modelDur_length d
  have := smallOctets_appends g p tag 2 (keyBytes 4) (modelDur d) (fun q => appendDuration g q d)
    (fun q => appendDuration_appends g q _) (fun n => true) rfl
  rw [litF, exprF, encExpr, smallOctets_eq htag (modelDur d) (by omega) 2 4 2 (keyBytes 4) (by simp) (by simp [keyBytes4])]
  simp only [if_true] at this
  exact this

/-! ### other leaves -/

theorem exprPlaceholder_appends (htag : tag.toNat < 16) (x : BitVec 32) :
    Appends (appendExprPlaceholder g p tag x) p (exprF tag (.placeholder x.toNat)) := by
  have hx := x.isLt
  have hx' : x.toNat < 2 ^ 64 := by omega
  have h5 := varint_length_le5 hx
  have := unrolled_appends g p ([keyBytes tag, 3 + UInt8.ofNat (sizeVarint x.toNat), keyVarint 1, 6, keyVarint 7])
    (unrolled32 x.toNat) (n := sizeVarint x.toNat) (K := 5) rfl (sizeVarint_pos _) (by rw [sizeVarint_eq hx']; exact h5)
  rw [maskLast_unrolled32 (by omega)] at this
  simp only [appendExprPlaceholder, size32 hx]
  apply this.of_eq
  rw [exprF, encField_bytes htag, sizeVarint_eq hx']
  simp [encExpr, encFields, encField, keyVarint1, keyVarint7]
  rw [varint_small (by omega)]
  simp
  apply UInt8.toNat_inj.mp; simp; omega

theorem exprVariable_appends (name : Bytes) :
    Appends (appendExprVariable g p tag name) p (codeVarF tag name) := by
  have e : appendExprVariable g p tag name = ((append g p ([keyBytes tag, 3 + UInt8.ofNat (sizeVarint name.length + name.length), keyVarint 1, 3, keyBytes 3] ++
      unrolled64 name.length) >>= fun q => setAnd q (sizeVarint name.length + q.len - 10 - 1) 0x7F >>= fun r =>
        reslice r (sizeVarint name.length + q.len - 10)) >>= fun q => append g q name) := by
    simp only [appendExprVariable, bind_assoc]
  rw [e]
  have := unrolled_appends g p ([keyBytes tag, 3 + UInt8.ofNat (sizeVarint name.length + name.length), keyVarint 1, 3, keyBytes 3])
      (unrolled64 name.length) (n := sizeVarint name.length) (K := 10) rfl (sizeVarint_pos _) (sizeVarint_le10 _)
  by_cases hx : name.length < 2 ^ 64
  · rw [maskLast_unrolled64 hx] at this
    have h2 := this.bind (k := fun q => append g q name) (b := name) (fun q _ => append_appends g q name)
    apply h2.of_eq
    rw [sizeVarint_eq hx]; rfl
  · left
    rcases this with h | ⟨sp, h⟩
    · rw [h]; rfl
    · rw [h, ok_bind, append, if_neg]
      simp only [maxAlloc]; omega

theorem exprColumn_appends (htag : tag.toNat < 16) (name : Bytes) :
    Appends (appendExprColumn p tag name) p (exprF tag (.ident name)) := by
  unfold appendExprColumn
  apply Appends.of_forAppend
  intro hle q hq
  have hmax : maxAlloc = 2 ^ 48 := rfl
  have ls := varint_length_le10 (x := name.length) (by omega)
  rw [sizeVarint_eq (x := name.length) (by omega)] at hle hq ⊢
  generalize hN0 : 1 + (varint name.length).length + name.length = N0 at *
  have l0 := varint_length_le10 (x := N0) (by omega)
  rw [sizeVarint_eq (x := N0) (by omega)] at hle hq ⊢
  generalize hN1 : 3 + (varint N0).length + N0 = N1 at *
  have l1 := varint_length_le10 (x := N1) (by omega)
  rw [sizeVarint_eq (x := N1) (by omega)] at hle hq
  obtain ⟨q, e, hq⟩ := hq.set (keyBytes tag) (by omega)
  rw [e, ok_bind]
  obtain ⟨q, e, hq⟩ := hq.put (x := N1) (by omega) (by omega)
  rw [e, ok_bind]
  obtain ⟨q, e, hq⟩ := hq.set (keyVarint 1) (by omega)
  dsimp only; rw [e, ok_bind]
  obtain ⟨q, e, hq⟩ := hq.set 1 (by omega)
  rw [e, ok_bind]
  obtain ⟨q, e, hq⟩ := hq.set (keyBytes 2) (by omega)
  rw [e, ok_bind]
  obtain ⟨q, e, hq⟩ := hq.put (x := N0) (by omega) (by omega)
  rw [e, ok_bind]
  obtain ⟨q, e, hq⟩ := hq.set (keyBytes 2) (by omega)
  dsimp only; rw [e, ok_bind]
  obtain ⟨q, e, hq⟩ := hq.put (x := name.length) (by omega) (by omega)
  rw [e, ok_bind]
  obtain ⟨q, e, hq⟩ := hq.copy name (by omega)
  dsimp only; rw [e, ok_bind]
  refine ⟨q, rfl, ?_⟩
  rw [hq.done' (by omega), exprF, encField_bytes htag]
  simp [encExpr, encFields, encField, keyVarint1, keyBytes2]
  rw [show (varint name.length).length + name.length + 1 = N0 by omega]
  rw [show (varint N0).length + N0 + 1 + 1 + 1 = N1 by omega]

/-! ### operators and function calls -/

theorem wrapOperator_appends (htag : tag.toNat < 16) (name A R sp0 : Bytes) :
    wrapOperator g ⟨A ++ R, sp0⟩ A.length tag name = .error .oom ∨ ∃ sp,
      wrapOperator g ⟨A ++ R, sp0⟩ A.length tag name = .ok ⟨A ++
        encField (tag.toNat, .bytes (encFields [(1, .varint 5), (6, .bytes (encField (1, .bytes name) ++ R))])), sp⟩ := by
  unfold wrapOperator
  have hR : (⟨A ++ R, sp0⟩ : Slice).len - A.length = R.length := by simp [Slice.len]
  simp only [hR]
  apply Appends.of_insert (by omega)
  intro hle q hq
  have hmax : maxAlloc = 2 ^ 48 := rfl
  have ls := varint_length_le10 (x := name.length) (by omega)
  rw [sizeVarint_eq (x := name.length) (by omega)] at hle hq ⊢
  generalize hN0 : 1 + (varint name.length).length + name.length + R.length = N0 at *
  have l0 := varint_length_le10 (x := N0) (by omega)
  rw [sizeVarint_eq (x := N0) (by omega)] at hle hq ⊢
  generalize hN1 : 3 + (varint N0).length + N0 = N1 at *
  have l1 := varint_length_le10 (x := N1) (by omega)
  rw [sizeVarint_eq (x := N1) (by omega)] at hle hq
  obtain ⟨q, e, hq⟩ := hq.set (keyBytes tag) (by omega)
  rw [e, ok_bind]
  obtain ⟨q, e, hq⟩ := hq.put (x := N1) (by omega) (by omega)
  rw [e, ok_bind]
  obtain ⟨q, e, hq⟩ := hq.set (keyVarint 1) (by omega)
  dsimp only; rw [e, ok_bind]
  obtain ⟨q, e, hq⟩ := hq.set 5 (by omega)
  rw [e, ok_bind]
  obtain ⟨q, e, hq⟩ := hq.set (keyBytes 6) (by omega)
  rw [e, ok_bind]
  obtain ⟨q, e, hq⟩ := hq.put (x := N0) (by omega) (by omega)
  rw [e, ok_bind]
  obtain ⟨q, e, hq⟩ := hq.set (keyBytes 1) (by omega)
  dsimp only; rw [e, ok_bind]
  obtain ⟨q, e, hq⟩ := hq.put (x := name.length) (by omega) (by omega)
  rw [e, ok_bind]
  obtain ⟨q, e, hq⟩ := hq.copy name (by omega)
  dsimp only; rw [e, ok_bind]
  refine ⟨q, rfl, ?_⟩
  rw [hq.done (by omega), encField_bytes htag]
  simp [encFields, encField, keyVarint1, keyBytes6, keyBytes1]
  rw [show (varint name.length).length + (name.length + R.length) + 1 = N0 by omega]
  rw [show (varint N0).length + N0 + 1 + 1 + 1 = N1 by omega]

theorem wrapFunctionCall_appends (htag : tag.toNat < 16) (name A R sp0 : Bytes) :
    wrapFunctionCall g ⟨A ++ R, sp0⟩ A.length tag name = .error .oom ∨ ∃ sp,
      wrapFunctionCall g ⟨A ++ R, sp0⟩ A.length tag name = .ok ⟨A ++
        encField (tag.toNat, .bytes (encFields [(1, .varint 4),
          (5, .bytes (encField (1, .bytes (encFields [(1, .bytes name)])) ++ R))])), sp⟩ := by
  unfold wrapFunctionCall
  have hR : (⟨A ++ R, sp0⟩ : Slice).len - A.length = R.length := by simp [Slice.len]
  simp only [hR]
  apply Appends.of_insert (by omega)
  intro hle q hq
  have hmax : maxAlloc = 2 ^ 48 := rfl
  have ls := varint_length_le10 (x := name.length) (by omega)
  rw [sizeVarint_eq (x := name.length) (by omega)] at hle hq ⊢
  generalize hN : 1 + (varint name.length).length + name.length = N at *
  have l := varint_length_le10 (x := N) (by omega)
  rw [sizeVarint_eq (x := N) (by omega)] at hle hq ⊢
  generalize hN0 : 1 + (varint N).length + N + R.length = N0 at *
  have l0 := varint_length_le10 (x := N0) (by omega)
  rw [sizeVarint_eq (x := N0) (by omega)] at hle hq ⊢
  generalize hN1 : 3 + (varint N0).length + N0 = N1 at *
  have l1 := varint_length_le10 (x := N1) (by omega)
  rw [sizeVarint_eq (x := N1) (by omega)] at hle hq
  obtain ⟨q, e, hq⟩ := hq.set (keyBytes tag) (by omega)
  rw [e, ok_bind]
  obtain ⟨q, e, hq⟩ := hq.put (x := N1) (by omega) (by omega)
  rw [e, ok_bind]
  obtain ⟨q, e, hq⟩ := hq.set (keyVarint 1) (by omega)
  dsimp only; rw [e, ok_bind]
  obtain ⟨q, e, hq⟩ := hq.set 4 (by omega)
  rw [e, ok_bind]
  obtain ⟨q, e, hq⟩ := hq.set (keyBytes 5) (by omega)
  rw [e, ok_bind]
  obtain ⟨q, e, hq⟩ := hq.put (x := N0) (by omega) (by omega)
  rw [e, ok_bind]
  obtain ⟨q, e, hq⟩ := hq.set (keyBytes 1) (by omega)
  dsimp only; rw [e, ok_bind]
  obtain ⟨q, e, hq⟩ := hq.put (x := N) (by omega) (by omega)
  rw [e, ok_bind]
  obtain ⟨q, e, hq⟩ := hq.set (keyBytes 1) (by omega)
  dsimp only; rw [e, ok_bind]
  obtain ⟨q, e, hq⟩ := hq.put (x := name.length) (by omega) (by omega)
  rw [e, ok_bind]
  obtain ⟨q, e, hq⟩ := hq.copy name (by omega)
  dsimp only; rw [e, ok_bind]
  refine ⟨q, rfl, ?_⟩
  rw [hq.done (by omega), encField_bytes htag]
  simp [encFields, encField, keyVarint1, keyBytes5, keyBytes1]
  rw [show (varint name.length).length + name.length + 1 = N by omega]
  rw [show (varint N).length + ((varint name.length).length + (name.length + R.length) + 1) + 1 = N0 by omega]
  rw [show (varint N0).length + N0 + 1 + 1 + 1 = N1 by omega]

/-! ### the whole type switch -/

theorem isWrapper_eq (v : Val) : isWrapper v = v.isAppender := by cases v <;> rfl

mutual
/-- outcome of `appendExpr` -/
def exprRes : Val → Res PExpr
  | .column name => .ok (.ident name)
  | .variable name => .ok (.variable name)
  | .placeholder pos => .ok (.placeholder pos.toNat)
  | .op name ps =>
    match paramsRes 0 ps with
    | .ok es => .ok (.operator name es)
    | .err e => .err e
    | .panic => .panic
  | .call name ps =>
    match paramsRes 0 ps with
    | .ok es => .ok (.funcCall name es)
    | .err e => .err e
    | .panic => .panic
  | .nilFn => .panic
  | .nilPtr true => .panic
  | .ptr v => if isWrapper v then exprRes v else .err .unknownType
  | v =>
    match plainScalar modelDur fmtTime v with
    | some s => .ok (.literal s)
    | none => .err .unknownType
def paramsRes (j : Nat) : List Val → Res (List PExpr)
  | [] => .ok []
  | v :: vs =>
    match exprRes v with
    | .ok e =>
      match paramsRes (j + 1) vs with
      | .ok es => .ok (e :: es)
      | .err e => .err e
      | .panic => .panic
    | .err e => .err (.param j e)
    | .panic => .panic
end

def PostExprG (r : M (Slice × Option Err)) (p : Slice) : Res Bytes → Prop
  | .ok e => r = .error .oom ∨ ∃ sp, r = .ok (⟨p.data ++ e, sp⟩, none)
  | .err e => r = .error .oom ∨ ∃ s, r = .ok (s, some e) ∧ p.data <+: s.data
  | .panic => r = .error .oom ∨ r = .error .panic

def Res.map {α β : Type} (f : α → β) : Res α → Res β
  | .ok a => .ok (f a)
  | .err e => .err e
  | .panic => .panic

mutual
theorem appendExpr_post {p : Slice} {tag : UInt8} (htag : tag.toNat < 16) (v : Val) :
    PostExprG (appendExpr g p tag v) p ((exprRes v).map (codeExprF tag)) := by
  match v with
  | .nil => exact noErr_post (exprNull_appends htag)
  | .bool b => exact noErr_post (exprBool_appends htag b)
  | .int8 v => rw [appendExpr]; have := noErr_post (exprInt64_appends (g := g) (p := p) htag (v.signExtend 64)); rw [BitVec.toInt_signExtend_of_le (by omega)] at this; exact this
  | .int16 v => rw [appendExpr]; have := noErr_post (exprInt64_appends (g := g) (p := p) htag (v.signExtend 64)); rw [BitVec.toInt_signExtend_of_le (by omega)] at this; exact this
  | .int32 v => rw [appendExpr]; have := noErr_post (exprInt64_appends (g := g) (p := p) htag (v.signExtend 64)); rw [BitVec.toInt_signExtend_of_le (by omega)] at this; exact this
  | .int64 v => exact noErr_post (exprInt64_appends htag v)
  | .int v => exact noErr_post (exprInt64_appends htag v)
  | .uint8 v => have := noErr_post (exprUint64_appends (g := g) (p := p) htag (v.zeroExtend 64)); rw [show (v.zeroExtend 64).toNat = v.toNat by simp; omega] at this; exact this
  | .uint16 v => have := noErr_post (exprUint64_appends (g := g) (p := p) htag (v.zeroExtend 64)); rw [show (v.zeroExtend 64).toNat = v.toNat by simp; omega] at this; exact this
  | .uint32 v => have := noErr_post (exprUint64_appends (g := g) (p := p) htag (v.zeroExtend 64)); rw [show (v.zeroExtend 64).toNat = v.toNat by simp; omega] at this; exact this
  | .uint64 v => exact noErr_post (exprUint64_appends htag v)
  | .uint v => exact noErr_post (exprUint64_appends htag v)
  | .str s => exact noErr_post (exprString_appends htag s 0 (by omega))
  | .bytes b => exact noErr_post (exprBytes_appends htag b 0 (by omega))
  | .float32 x => exact noErr_post (exprFloat32_appends htag x)
  | .float64 x => exact noErr_post (exprFloat64_appends htag x)
  | .time t => exact noErr_post (exprTime_appends htag t)
  | .duration d => exact noErr_post (exprDuration_appends htag d)
  | .strColl s c => exact noErr_post (exprString_appends htag s c.toNat c.isLt)
  | .xml b => exact noErr_post (exprBytes_appends htag b 3 (by omega))
  | .xmlStr s => exact noErr_post (exprOctetsText_appends htag s 3 (by omega))
  | .json b => exact noErr_post (exprBytes_appends htag b 2 (by omega))
  | .jsonStr s => exact noErr_post (exprOctetsText_appends htag s 2 (by omega))
  | .geometry b => exact noErr_post (exprBytes_appends htag b 1 (by omega))
  | .column name => exact noErr_post (exprColumn_appends htag name)
  | .variable name => exact noErr_post (exprVariable_appends name)
  | .placeholder pos => exact noErr_post (exprPlaceholder_appends htag pos)
  | .nilFn => exact .inr rfl
  | .other => exact .inr ⟨p, rfl, List.prefix_refl _⟩
  | .nilPtr true => exact .inr rfl
  | .nilPtr false => exact .inr ⟨p, rfl, List.prefix_refl _⟩
  | .ptr v =>
    rw [appendExpr, exprRes, isWrapper_eq]
    split
    · exact appendExpr_post htag v
    · exact .inr ⟨p, rfl, List.prefix_refl _⟩
  | .op name ps =>
    have ih := appendParams_post (p := p) 0 ps
    rw [appendExpr, exprRes]
    cases hr : paramsRes 0 ps with
    | ok es =>
      rw [hr] at ih
      rcases ih with h | ⟨sp, h⟩
      · left; rw [h]; rfl
      · rw [h, ok_bind]
        rcases wrapOperator_appends (g := g) htag name p.data (codeParams es) sp with h | ⟨sp', h⟩
        · left; dsimp only [Slice.len]; rw [h]; rfl
        · right; exact ⟨sp', by dsimp only [Slice.len]; rw [h]; rfl⟩
    | err e =>
      rw [hr] at ih
      rcases ih with h | ⟨s, h, hp⟩
      · left; rw [h]; rfl
      · right; exact ⟨s, by rw [h]; rfl, hp⟩
    | panic =>
      rw [hr] at ih
      rcases ih with h | h
      · left; rw [h]; rfl
      · right; rw [h]; rfl
  | .call name ps =>
    have ih := appendParams_post (p := p) 0 ps
    rw [appendExpr, exprRes]
    cases hr : paramsRes 0 ps with
    | ok es =>
      rw [hr] at ih
      rcases ih with h | ⟨sp, h⟩
      · left; rw [h]; rfl
      · rw [h, ok_bind]
        rcases wrapFunctionCall_appends (g := g) htag name p.data (codeParams es) sp with h | ⟨sp', h⟩
        · left; dsimp only [Slice.len]; rw [h]; rfl
        · right; exact ⟨sp', by dsimp only [Slice.len]; rw [h]; rfl⟩
    | err e =>
      rw [hr] at ih
      rcases ih with h | ⟨s, h, hp⟩
      · left; rw [h]; rfl
      · right; exact ⟨s, by rw [h]; rfl, hp⟩
    | panic =>
      rw [hr] at ih
      rcases ih with h | h
      · left; rw [h]; rfl
      · right; rw [h]; rfl
theorem appendParams_post {p : Slice} (j : Nat) (vs : List Val) :
    PostExprG (appendParams g p j vs) p ((paramsRes j vs).map codeParams) := by
  match vs with
  | [] => exact .inr ⟨p.spare, by simp [codeParams, appendParams]⟩
  | v :: vs =>
    have ih := appendExpr_post (p := p) (tag := 2) (by decide) v
    rw [appendParams, paramsRes]
    cases hr : exprRes v with
    | ok e =>
      rw [hr] at ih
      rcases ih with h | ⟨sp, h⟩
      · rw [h]
        cases paramsRes (j + 1) vs <;> exact .inl rfl
      · rw [h, ok_bind]
        have ih2 := appendParams_post (p := ⟨p.data ++ codeExprF 2 e, sp⟩) (j + 1) vs
        dsimp only
        cases hr2 : paramsRes (j + 1) vs with
        | ok es =>
          rw [hr2] at ih2
          rcases ih2 with h | ⟨sp', h⟩
          · exact .inl h
          · exact .inr ⟨sp', by rw [h]; simp [codeParams]⟩
        | err e' =>
          rw [hr2] at ih2
          rcases ih2 with h | ⟨s, h, hp⟩
          · exact .inl h
          · exact .inr ⟨s, h, (List.prefix_append _ _).trans hp⟩
        | panic =>
          rw [hr2] at ih2
          exact ih2
    | err e =>
      rw [hr] at ih
      rcases ih with h | ⟨s, h, hp⟩
      · left; rw [h]; rfl
      · right; exact ⟨s, by rw [h]; rfl, hp⟩
    | panic =>
      rw [hr] at ih
      rcases ih with h | h
      · left; rw [h]; rfl
      · right; rw [h]; rfl
end

end Verif.Proof
