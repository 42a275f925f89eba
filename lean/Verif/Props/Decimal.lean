import Verif.Proof.Decimal
/-! C47-C49: DECIMAL values. -/
namespace Verif.Props
open Verif.Go Verif.Spec Verif.Model Verif.Proof

/-- The number in four 64 bit words, least significant first. -/
def wordsValue (x : Uint256) : Nat :=
  x.w0.toNat + x.w1.toNat * 2 ^ 64 + x.w2.toNat * 2 ^ 128 + x.w3.toNat * 2 ^ 192

theorem val256_words (x : Uint256) : val256 x = wordsValue x := by
  simp only [val256, wordsValue]; omega

/-- **C49.** `MulAdd(y, z)` is exact: together with the overflow word it returns, the words left in `x` are `x*y + z`. -/
theorem C49_mulAdd_exact (x : Uint256) (y z : BitVec 64) :
    wordsValue (x.mulAdd y z).1 + 2 ^ 256 * (x.mulAdd y z).2.toNat = wordsValue x * y.toNat + z.toNat := by
  rw [← val256_words, ← val256_words]; exact mulAdd_eq x y z

/-- **C49**, the two parts: the words hold the result modulo `2^256`, the returned word is the exact overflow. -/
theorem C49_mulAdd_parts (x : Uint256) (y z : BitVec 64) :
    wordsValue (x.mulAdd y z).1 = (wordsValue x * y.toNat + z.toNat) % 2 ^ 256 ∧
    (x.mulAdd y z).2.toNat = (wordsValue x * y.toNat + z.toNat) / 2 ^ 256 := by
  have h := C49_mulAdd_exact x y z
  have hlt : wordsValue (x.mulAdd y z).1 < 2 ^ 256 := by
    have h0 := (x.mulAdd y z).1.w0.isLt
    have h1 := (x.mulAdd y z).1.w1.isLt
    have h2 := (x.mulAdd y z).1.w2.isLt
    have h3 := (x.mulAdd y z).1.w3.isLt
    simp only [wordsValue]; omega
  omega

/-- The largest operands: `(2^256-1) * (2^64-1) + (2^64-1)` overflows into the returned word. -/
example : let m : BitVec 64 := -1
    ((Uint256.mk m m m m).mulAdd m m).2.toNat = 2 ^ 64 - 1 ∧ wordsValue ((Uint256.mk m m m m).mulAdd m m).1 = 0 := by
  decide +kernel

theorem digitsValue_lt (ds : List Nat) (hd : ∀ d ∈ ds, d ≤ 9) : digitsValue ds < 10 ^ ds.length := by
  induction ds with
  | nil => decide
  | cons d ds ih =>
    have h1 := hd d (.head _)
    have h2 := ih fun x h => hd x (.tail _ h)
    have : digitsValue (d :: ds) = d * 10 ^ ds.length + digitsValue ds := by
      show List.foldl _ (0 * 10 + d) ds = _
      rw [digitsValue_acc]; simp
    rw [this, List.length_cons, Nat.pow_succ]
    have : d * 10 ^ ds.length ≤ 9 * 10 ^ ds.length := Nat.mul_le_mul_right _ h1
    omega

/-- **C47.** `Decompose` of a DECIMAL of at most 77 digits gives form 0 (finite), the sign, the exact coefficient in
minimal big endian form, and minus the scale as exponent; whatever the padding nibble or following bytes are. -/
theorem C47_decompose_exact {scale : UInt8} {ds : List Nat} {sign pad : Nat} (rest : Bytes)
    (hd : ∀ d ∈ ds, d ≤ 9) (hl : ds.length ≤ 77) (hs : 10 ≤ sign ∧ sign < 16) (hp : pad < 16) :
    ∃ coef, decompose (wireDecimal scale ds sign pad ++ rest) = .ok (0, signNegative sign, coef, -(scale.toNat : Int)) ∧
      bigEndian coef = digitsValue ds ∧ Minimal coef := by
  have hlt := digitsValue_lt ds hd
  have hpow : 10 ^ ds.length ≤ 10 ^ 77 := Nat.pow_le_pow_right (by omega) hl
  have h77 : 10 ^ 77 < 2 ^ 256 := by decide
  obtain ⟨r, h1, h2⟩ := decomposeLoop_spec hs hp rest ds hd ⟨0, 0, 0, 0⟩ (by
    show digitsValue ds < 2 ^ 256
    omega)
  obtain ⟨b1, b2⟩ := bytes_spec r
  refine ⟨r.bytes, ?_, by rw [b1, h2]; rfl, b2⟩
  simp only [wireDecimal, List.cons_append, decompose, h1]

/-- −123.45 and the largest 77 digit number. -/
example : wireDecimal 2 [1, 2, 3, 4, 5] 13 0 = [2, 0x12, 0x34, 0x5d] ∧
    decompose [2, 0x12, 0x34, 0x5d] = .ok (0, true, [0x30, 0x39], -2) := ⟨by decide, rfl⟩
example : ∃ coef, decompose (wireDecimal 30 (List.replicate 77 9) 12 0 ++ []) = .ok (0, false, coef, -30) ∧
    bigEndian coef = 10 ^ 77 - 1 ∧ Minimal coef := by
  obtain ⟨c, h1, h2, h3⟩ := C47_decompose_exact (scale := 30) (ds := List.replicate 77 9) (sign := 12) (pad := 0) []
    (by simp) (by simp) (by decide) (by decide)
  exact ⟨c, h1, by rw [h2]; decide +kernel, h3⟩

/-- Beyond 77 digits exactness is lost: 10^77 · 10 + … does not fit (78 nines decompose to something else). So the bound
in `C47_decompose_exact` cannot be dropped. -/
theorem C47_bound_tight : ¬ ∃ coef, decompose (wireDecimal 0 (List.replicate 78 9) 12 0) = .ok (0, false, coef, 0) ∧
    bigEndian coef = digitsValue (List.replicate 78 9) := by
  rintro ⟨coef, h1, h2⟩
  have h3 : (decompose (wireDecimal 0 (List.replicate 78 9) 12 0)).toOption.map (fun x => bigEndian x.2.2.1) = some (bigEndian coef) := by
    rw [h1]; rfl
  rw [h2] at h3
  exact absurd h3 (by decide +kernel)

/-- What the English of C48 asks for: a literal with the encoded value for every digit string and scale. -/
def C48_full : Prop :=
  ∀ (scale : UInt8) (ds : List Nat) (sign pad : Nat), (∀ d ∈ ds, d ≤ 9) → 0 < ds.length → (10 ≤ sign ∧ sign < 16) → pad < 16 →
    ∃ text lit, decimalString (wireDecimal scale ds sign pad) = .ok text ∧ readLiteral text = some lit ∧
      SameNumber lit (signNegative sign, digitsValue ds, scale.toNat)

/-- **C48**, for values with at least as many digits as decimals (any number of digits, also beyond 77): the text is a
literal with the sign, the coefficient and the number of decimals of the value. -/
theorem C48_string_exact_partial {scale : UInt8} {ds : List Nat} {sign pad : Nat} (rest : Bytes)
    (hd : ∀ d ∈ ds, d ≤ 9) (hl : 0 < ds.length) (hsc : scale.toNat ≤ ds.length) (hs : 10 ≤ sign ∧ sign < 16) (hp : pad < 16) :
    ∃ text, decimalString (wireDecimal scale ds sign pad ++ rest) = .ok text ∧
      readLiteral text = some (signNegative sign, digitsValue ds, scale.toNat) := by
  obtain ⟨t, h1, h2, c, u, h3, h4⟩ := string_spec hs hp rest hd hl hsc
  refine ⟨_, h1, ?_⟩
  cases signNegative sign with
  | true => simp only [if_true, List.cons_append, List.nil_append, readLiteral, h2]; rfl
  | false =>
    rw [h3] at h2 ⊢
    simp only [Bool.false_eq_true, if_false, List.nil_append, readLiteral, h4, h2]; rfl

/-- "-123.45", ".05" -/
example : decimalString (wireDecimal 2 [1, 2, 3, 4, 5] 13 0) = .ok [45, 49, 50, 51, 46, 52, 53] ∧
    readLiteral [45, 49, 50, 51, 46, 52, 53] = some (true, 12345, 2) := ⟨rfl, by decide⟩
example : decimalString (wireDecimal 2 [0, 5] 12 0) = .ok [46, 48, 53] ∧ readLiteral [46, 48, 53] = some (false, 5, 2) := ⟨rfl, by decide⟩

/-- **C48**, agreement: where both are exact, `String` and `Decompose` describe the same number. -/
theorem C48_agrees_partial {scale : UInt8} {ds : List Nat} {sign pad : Nat} (rest : Bytes)
    (hd : ∀ d ∈ ds, d ≤ 9) (hl : 0 < ds.length) (h77 : ds.length ≤ 77) (hsc : scale.toNat ≤ ds.length) (hs : 10 ≤ sign ∧ sign < 16) (hp : pad < 16) :
    ∃ (text : Bytes) (neg : Bool) (coef : Bytes) (e : Nat), decimalString (wireDecimal scale ds sign pad ++ rest) = .ok text ∧
      decompose (wireDecimal scale ds sign pad ++ rest) = .ok (0, neg, coef, -(e : Int)) ∧
      readLiteral text = some (neg, bigEndian coef, e) := by
  obtain ⟨text, h1, h2⟩ := C48_string_exact_partial (sign := sign) (pad := pad) rest hd hl hsc hs hp
  obtain ⟨coef, h3, h4, _⟩ := C47_decompose_exact (scale := scale) rest hd h77 hs hp
  exact ⟨text, _, coef, _, h1, h3, by rw [h2, h4]⟩

/-- **C48 is false of the code**: 0.012 sent as the digits 12 with scale 3 becomes "12". -/
theorem C48_wrong : ¬ C48_full := by
  intro h
  obtain ⟨text, lit, h1, h2, h3⟩ := h 3 [1, 2] 12 0 (by simp) (by simp) (by decide) (by decide)
  have e1 : decimalString (wireDecimal 3 [1, 2] 12 0) = .ok [49, 50] := rfl
  rw [e1] at h1
  cases h1
  have e2 : readLiteral [49, 50] = some (false, 12, 0) := by decide
  rw [e2] at h2
  cases h2
  exact absurd h3.2 (by decide)

/-- The shape of the failure for all values: with more decimals than digits (and for negative values more than digits
plus one) the scale is dropped altogether. -/
theorem C48_scale_dropped {scale : UInt8} {ds : List Nat} {sign pad : Nat} (rest : Bytes)
    (hd : ∀ d ∈ ds, d ≤ 9) (hl : 0 < ds.length) (hs : 10 ≤ sign ∧ sign < 16) (hp : pad < 16)
    (hsc : ds.length + (if signNegative sign then 1 else 0) < scale.toNat) :
    ∃ text, decimalString (wireDecimal scale ds sign pad ++ rest) = .ok text ∧
      readLiteral text = some (signNegative sign, digitsValue ds, 0) := by
  obtain ⟨t, h1, h2, c, u, h3, h4⟩ := string_spec (scale := 0) hs hp rest hd hl (Nat.zero_le _)
  refine ⟨(if signNegative sign then [45] else []) ++ t, ?_, ?_⟩
  · simp only [wireDecimal, List.cons_append, decimalString] at h1 ⊢
    rw [if_neg (by decide)] at h1
    have h1 := Except.ok.inj h1
    rw [h1]
    have hb := stringLoop_spec hs hp rest ds hd [45] (by simp)
    rw [hb] at h1
    rw [if_pos (by omega), if_neg]
    rw [← h1]
    cases hn : signNegative sign <;> simp [hn, chars_length] at hsc ⊢ <;> omega
  · cases signNegative sign with
    | true => simp only [if_true, List.cons_append, List.nil_append, readLiteral, h2]; rfl
    | false =>
      rw [h3] at h2 ⊢
      simp only [Bool.false_eq_true, if_false, List.nil_append, readLiteral, h4, h2]; rfl

/-- −0.012 becomes ".-12", which is not a literal. -/
example : decimalString (wireDecimal 3 [1, 2] 13 0) = .ok [46, 45, 49, 50] ∧ readLiteral [46, 45, 49, 50] = none := ⟨rfl, by decide⟩
example : decimalString (wireDecimal 4 [1, 2] 13 0) = .ok [45, 49, 50] := rfl

end Verif.Props
