import Verif.Model.Decimal
import Verif.Spec.Decimal
namespace Verif.Proof
open Verif.Go Verif.Spec Verif.Model

/-- the number in a `Uint256` -/
def val256 (x : Uint256) : Nat := x.w0.toNat + 2 ^ 64 * (x.w1.toNat + 2 ^ 64 * (x.w2.toNat + 2 ^ 64 * x.w3.toNat))

theorem mul64_eq (x y : BitVec 64) : (mul64 x y).1.toNat * 2 ^ 64 + (mul64 x y).2.toNat = x.toNat * y.toNat := by
  have h1 := x.isLt
  have h2 := y.isLt
  have : x.toNat * y.toNat < 2 ^ 64 * 2 ^ 64 := Nat.mul_lt_mul'' h1 h2
  simp only [mul64, BitVec.toNat_ofNat]
  omega

theorem add64_eq (x y c : BitVec 64) (h : c.toNat ≤ 1) :
    (add64 x y c).2.toNat * 2 ^ 64 + (add64 x y c).1.toNat = x.toNat + y.toNat + c.toNat ∧ (add64 x y c).2.toNat ≤ 1 := by
  have h1 := x.isLt
  have h2 := y.isLt
  simp only [add64, BitVec.toNat_ofNat]
  omega

theorem mulAdd_eq (x : Uint256) (y z : BitVec 64) :
    val256 (x.mulAdd y z).1 + 2 ^ 256 * (x.mulAdd y z).2.toNat = val256 x * y.toNat + z.toNat := by
  obtain ⟨w0, w1, w2, w3⟩ := x
  simp only [Uint256.mulAdd]
  have m0 := mul64_eq w0 y
  have m1 := mul64_eq w1 y
  have m2 := mul64_eq w2 y
  have m3 := mul64_eq w3 y
  obtain ⟨a0, b0⟩ := add64_eq (mul64 w0 y).2 z 0 (by simp)
  obtain ⟨a1, b1⟩ := add64_eq (mul64 w1 y).2 (mul64 w0 y).1 _ b0
  obtain ⟨a2, b2⟩ := add64_eq (mul64 w2 y).2 (mul64 w1 y).1 _ b1
  obtain ⟨a3, b3⟩ := add64_eq (mul64 w3 y).2 (mul64 w2 y).1 _ b2
  generalize add64 (mul64 w0 y).2 z 0 = r0 at *
  generalize add64 (mul64 w1 y).2 (mul64 w0 y).1 r0.2 = r1 at *
  generalize add64 (mul64 w2 y).2 (mul64 w1 y).1 r1.2 = r2 at *
  generalize add64 (mul64 w3 y).2 (mul64 w2 y).1 r2.2 = r3 at *
  have hmul : val256 ⟨w0, w1, w2, w3⟩ * y.toNat = w0.toNat * y.toNat + 2 ^ 64 * (w1.toNat * y.toNat +
      2 ^ 64 * (w2.toNat * y.toNat + 2 ^ 64 * (w3.toNat * y.toNat))) := by
    simp only [val256]; grind
  have hy := y.isLt
  have l3 := w3.isLt
  have hprod : w3.toNat * y.toNat ≤ (2 ^ 64 - 1) * (2 ^ 64 - 1) := Nat.mul_le_mul (by omega) (by omega)
  have h4 : (mul64 w3 y).1.toNat + r3.2.toNat < 2 ^ 64 := by
    have := (mul64 w3 y).2.isLt
    omega
  rw [BitVec.toNat_add, Nat.mod_eq_of_lt h4, hmul]
  simp only [val256]
  rw [show (0 : BitVec 64).toNat = 0 from rfl] at a0
  generalize w0.toNat * y.toNat = p0 at *
  generalize w1.toNat * y.toNat = p1 at *
  generalize w2.toNat * y.toNat = p2 at *
  generalize w3.toNat * y.toNat = p3 at *
  omega

theorem bigEndian_acc (bs : Bytes) : ∀ n, bs.foldl (fun n b => n * 256 + b.toNat) n = n * 256 ^ bs.length + bigEndian bs := by
  induction bs with
  | nil => intro n; simp [bigEndian]
  | cons b bs ih =>
    intro n
    simp only [bigEndian, List.foldl_cons, List.length_cons]
    rw [ih, ih (0 * 256 + b.toNat)]
    rw [Nat.pow_succ]
    grind

theorem bigEndian_append (a b : Bytes) : bigEndian (a ++ b) = bigEndian a * 256 ^ b.length + bigEndian b := by
  rw [bigEndian, List.foldl_append, bigEndian_acc]; rfl

theorem be64_value (x : BitVec 64) : bigEndian (be64 x) = x.toNat ∧ (be64 x).length = 8 := by
  have h := x.isLt
  refine ⟨?_, rfl⟩
  simp only [be64, bigEndian, List.map_cons, List.map_nil, List.foldl_cons, List.foldl_nil, BitVec.toNat_ushiftRight,
    UInt8.toNat_ofNat', Nat.shiftRight_eq_div_pow]
  omega

theorem skipZeros_spec (f : Nat) : ∀ bs : Bytes, bs.length = f + 1 →
    bigEndian (skipZeros f bs) = bigEndian bs ∧ Minimal (skipZeros f bs) := by
  induction f with
  | zero => intro bs h; cases bs <;> exact ⟨rfl, .inl h⟩
  | succ f ih =>
    intro bs h
    cases bs with
    | nil => simp at h
    | cons b bs =>
      rw [skipZeros]
      split
      · rename_i hb
        obtain ⟨h1, h2⟩ := ih bs (by simpa using h)
        refine ⟨?_, h2⟩
        rw [h1, hb]; rfl
      · exact ⟨rfl, .inr ⟨b, bs, rfl, ‹_›⟩⟩

theorem bytes_spec (x : Uint256) : bigEndian x.bytes = val256 x ∧ Minimal x.bytes := by
  obtain ⟨v0, l0⟩ := be64_value x.w0
  obtain ⟨v1, l1⟩ := be64_value x.w1
  obtain ⟨v2, l2⟩ := be64_value x.w2
  obtain ⟨v3, l3⟩ := be64_value x.w3
  obtain ⟨h1, h2⟩ := skipZeros_spec 31 (be64 x.w3 ++ be64 x.w2 ++ be64 x.w1 ++ be64 x.w0) (by simp [l0, l1, l2, l3])
  refine ⟨?_, h2⟩
  rw [Uint256.bytes, h1, bigEndian_append, bigEndian_append, bigEndian_append, v0, v1, v2, v3, l0, l1, l2, val256]
  omega

/-! ### digits -/

theorem digitsValue_acc (ds : List Nat) : ∀ n, ds.foldl (fun n d => n * 10 + d) n = n * 10 ^ ds.length + digitsValue ds := by
  induction ds with
  | nil => intro n; simp [digitsValue]
  | cons b bs ih =>
    intro n
    simp only [digitsValue, List.foldl_cons, List.length_cons]
    rw [ih, ih (0 * 10 + b)]
    rw [Nat.pow_succ]
    grind

theorem nibbles {a b : Nat} (ha : a < 16) (hb : b < 16) :
    (UInt8.ofNat (16 * a + b) &&& 0x0F) = UInt8.ofNat b ∧ UInt8.ofNat (16 * a + b) >>> 4 = UInt8.ofNat a := by
  have : ∀ a b : Fin 16, (UInt8.ofNat (16 * a.val + b.val) &&& 0x0F) = UInt8.ofNat b.val ∧
    UInt8.ofNat (16 * a.val + b.val) >>> 4 = UInt8.ofNat a.val := by decide +kernel
  exact this ⟨a, ha⟩ ⟨b, hb⟩

theorem gt9 {a : Nat} (ha : a < 16) : (UInt8.ofNat a > 9) ↔ 9 < a := by
  have : ∀ a : Fin 16, (UInt8.ofNat a.val > 9) ↔ 9 < a.val := by decide +kernel
  exact this ⟨a, ha⟩

theorem minus_eq {a : Nat} (ha : a < 16) : minusNibble (UInt8.ofNat a) = signNegative a := by
  have : ∀ a : Fin 16, minusNibble (UInt8.ofNat a.val) = signNegative a.val := by decide +kernel
  exact this ⟨a, ha⟩

theorem mulAdd10 {x : Uint256} {d : Nat} (h : val256 x * 10 + d < 2 ^ 256) (hd : d < 16) :
    val256 (x.mulAdd 10 (BitVec.ofNat 64 d)).1 = val256 x * 10 + d := by
  have := mulAdd_eq x 10 (BitVec.ofNat 64 d)
  rw [show (BitVec.ofNat 64 d).toNat = d by simp; omega, show (10 : BitVec 64).toNat = 10 from rfl] at this
  omega

theorem packNibbles_cons2 (pad a b : Nat) (ns : List Nat) : packNibbles pad (a :: b :: ns) = UInt8.ofNat (16 * a + b) :: packNibbles pad ns := rfl

theorem decomposeLoop_spec {sign pad : Nat} (hs : 10 ≤ sign ∧ sign < 16) (hp : pad < 16) (rest : Bytes) :
    ∀ (ds : List Nat), (∀ d ∈ ds, d ≤ 9) → ∀ acc : Uint256, ds.foldl (fun n d => n * 10 + d) (val256 acc) < 2 ^ 256 →
      ∃ r, decomposeLoop acc (packNibbles pad (ds ++ [sign]) ++ rest) = (r, signNegative sign) ∧
        val256 r = ds.foldl (fun n d => n * 10 + d) (val256 acc)
  | [], _, acc, _ => by
    obtain ⟨_, n2⟩ := nibbles hs.2 hp
    refine ⟨acc, ?_, rfl⟩
    simp only [List.nil_append, packNibbles, List.cons_append, decomposeLoop]
    rw [n2, if_pos ((gt9 hs.2).mpr (by omega)), minus_eq hs.2]
  | [d], hd, acc, hv => by
    have hd := hd d (.head _)
    obtain ⟨n1, n2⟩ := nibbles (show d < 16 by omega) hs.2
    simp only [List.cons_append, List.nil_append, packNibbles, decomposeLoop]
    rw [n1, n2, if_neg (fun h => by have := (gt9 (show d < 16 by omega)).mp h; omega), if_pos ((gt9 hs.2).mpr (by omega)), minus_eq hs.2]
    refine ⟨_, rfl, ?_⟩
    rw [show (UInt8.ofNat d).toNat = d by simp; omega]
    exact mulAdd10 (by simpa using hv) (by omega)
  | d :: e :: ds, hd, acc, hv => by
    have h1 := hd d (.head _)
    have h2 := hd e (.tail _ (.head _))
    have h3 : ∀ x ∈ ds, x ≤ 9 := fun x hx => hd x (.tail _ (.tail _ hx))
    obtain ⟨n1, n2⟩ := nibbles (show d < 16 by omega) (show e < 16 by omega)
    simp only [List.foldl_cons] at hv ⊢
    have hle := digitsValue_acc ds ((val256 acc * 10 + d) * 10 + e)
    have hpos : 1 ≤ 10 ^ ds.length := Nat.one_le_pow _ _ (by omega)
    have hge : (val256 acc * 10 + d) * 10 + e ≤ ((val256 acc * 10 + d) * 10 + e) * 10 ^ ds.length := Nat.le_mul_of_pos_right _ hpos
    have a1 : val256 (acc.mulAdd 10 (BitVec.ofNat 64 d)).1 = val256 acc * 10 + d := mulAdd10 (by omega) (by omega)
    have a2 : val256 ((acc.mulAdd 10 (BitVec.ofNat 64 d)).1.mulAdd 10 (BitVec.ofNat 64 e)).1 = (val256 acc * 10 + d) * 10 + e := by
      rw [mulAdd10 (by rw [a1]; omega) (by omega), a1]
    obtain ⟨r, hr1, hr2⟩ := decomposeLoop_spec hs hp rest ds h3 ((acc.mulAdd 10 (BitVec.ofNat 64 d)).1.mulAdd 10 (BitVec.ofNat 64 e)).1
      (by rw [a2]; exact hv)
    refine ⟨r, ?_, by rw [hr2, a2]⟩
    simp only [List.cons_append, packNibbles, decomposeLoop]
    rw [n1, n2, if_neg (fun h => by have := (gt9 (show d < 16 by omega)).mp h; omega),
      if_neg (fun h => by have := (gt9 (show e < 16 by omega)).mp h; omega)]
    rw [show (UInt8.ofNat d).toNat = d by simp; omega, show (UInt8.ofNat e).toNat = e by simp; omega]
    exact hr1

/-! ### text -/

def chars (ds : List Nat) : Bytes := ds.map fun d => UInt8.ofNat (48 + d)

theorem digitChar_eq (d : Nat) : digitChar (UInt8.ofNat d) = UInt8.ofNat (48 + d) := by
  apply UInt8.toNat_inj.mp
  simp [digitChar]

theorem stringLoop_spec {sign pad : Nat} (hs : 10 ≤ sign ∧ sign < 16) (hp : pad < 16) (rest : Bytes) :
    ∀ (ds : List Nat), (∀ d ∈ ds, d ≤ 9) → ∀ b : Bytes, 0 < b.length →
      stringLoop b (packNibbles pad (ds ++ [sign]) ++ rest) =
        if signNegative sign then b ++ chars ds else (b ++ chars ds).drop 1
  | [], _, b, _ => by
    obtain ⟨_, n2⟩ := nibbles hs.2 hp
    simp only [List.nil_append, packNibbles, List.cons_append, stringLoop]
    rw [n2, if_pos ((gt9 hs.2).mpr (by omega)), minus_eq hs.2]
    simp [chars]
  | [d], hd, b, _ => by
    have hd := hd d (.head _)
    obtain ⟨n1, n2⟩ := nibbles (show d < 16 by omega) hs.2
    simp only [List.cons_append, List.nil_append, packNibbles, stringLoop]
    rw [n1, n2, if_neg (fun h => by have := (gt9 (show d < 16 by omega)).mp h; omega), if_pos ((gt9 hs.2).mpr (by omega)), minus_eq hs.2]
    rw [digitChar_eq]; rfl
  | d :: e :: ds, hd, b, hb => by
    have h1 := hd d (.head _)
    have h2 := hd e (.tail _ (.head _))
    have h3 : ∀ x ∈ ds, x ≤ 9 := fun x hx => hd x (.tail _ (.tail _ hx))
    obtain ⟨n1, n2⟩ := nibbles (show d < 16 by omega) (show e < 16 by omega)
    have ih := stringLoop_spec hs hp rest ds h3 (b ++ [digitChar (UInt8.ofNat d), digitChar (UInt8.ofNat e)]) (by simp)
    simp only [List.cons_append, packNibbles, stringLoop]
    rw [n1, n2, if_neg (fun h => by have := (gt9 (show d < 16 by omega)).mp h; omega),
      if_neg (fun h => by have := (gt9 (show e < 16 by omega)).mp h; omega), ih, digitChar_eq, digitChar_eq]
    simp [chars]

theorem literalDigits_chars (ds : List Nat) (hd : ∀ d ∈ ds, d ≤ 9) (rest : Bytes) : ∀ k n,
    literalDigits (chars ds ++ rest) k n = literalDigits rest (k + ds.length) (ds.foldl (fun n d => n * 10 + d) n) := by
  induction ds with
  | nil => intro k n; rfl
  | cons d ds ih =>
    intro k n
    have h1 := hd d (.head _)
    have ih := ih (fun x hx => hd x (.tail _ hx)) (k + 1) (n * 10 + d)
    have e : (UInt8.ofNat (48 + d)).toNat = 48 + d := by simp; omega
    simp only [chars, List.map_cons, List.cons_append, literalDigits]
    rw [e, if_pos (by omega), show 48 + d - 48 = d by omega]
    rw [show k + (d :: ds).length = k + 1 + ds.length by simp; omega]
    exact ih

theorem readUnsigned_int {ds : List Nat} (hd : ∀ d ∈ ds, d ≤ 9) (h : 0 < ds.length) : readUnsigned (chars ds) = some (digitsValue ds, 0) := by
  have := literalDigits_chars ds hd [] 0 0
  rw [List.append_nil] at this
  rw [readUnsigned, this]
  simp only [literalDigits]
  rw [if_neg (by omega)]; rfl

theorem readUnsigned_point {ds es : List Nat} (hd : ∀ d ∈ ds, d ≤ 9) (he : ∀ d ∈ es, d ≤ 9) (h : 0 < ds.length + es.length) :
    readUnsigned (chars ds ++ 46 :: chars es) = some (digitsValue (ds ++ es), es.length) := by
  have h1 := literalDigits_chars ds hd (46 :: chars es) 0 0
  have h2 := literalDigits_chars es he [] 0 (ds.foldl (fun n d => n * 10 + d) 0)
  rw [List.append_nil] at h2
  rw [readUnsigned, h1]
  simp only [literalDigits]
  rw [if_neg (by decide)]
  simp only [if_true, h2, literalDigits]
  rw [if_neg (by omega), digitsValue, List.foldl_append]
  simp

theorem chars_take (ds : List Nat) (n : Nat) : (chars ds).take n = chars (ds.take n) := by simp [chars]
theorem chars_drop (ds : List Nat) (n : Nat) : (chars ds).drop n = chars (ds.drop n) := by simp [chars]
theorem chars_length (ds : List Nat) : (chars ds).length = ds.length := by simp [chars]

theorem string_spec {scale : UInt8} {ds : List Nat} {sign pad : Nat} (hs : 10 ≤ sign ∧ sign < 16) (hp : pad < 16) (rest : Bytes)
    (hd : ∀ d ∈ ds, d ≤ 9) (hl : 0 < ds.length) (hsc : scale.toNat ≤ ds.length) :
    ∃ t, decimalString (wireDecimal scale ds sign pad ++ rest) = .ok ((if signNegative sign then [45] else []) ++ t) ∧
      readUnsigned t = some (digitsValue ds, scale.toNat) ∧ ∃ c u, t = c :: u ∧ c ≠ 45 := by
  have hb : stringLoop [45] (packNibbles pad (ds ++ [sign]) ++ rest) = (if signNegative sign then [45] else []) ++ chars ds := by
    rw [stringLoop_spec hs hp rest ds hd [45] (by simp)]
    split <;> rfl
  have hne : ∃ c u, chars ds = c :: u ∧ c ≠ 45 := by
    cases ds with
    | nil => simp at hl
    | cons d ds =>
      refine ⟨_, _, rfl, fun h => ?_⟩
      have h9 := hd d (.head _)
      have := congrArg UInt8.toNat h
      simp at this
      omega
  simp only [wireDecimal, List.cons_append, decimalString, hb]
  split
  · rename_i h0
    generalize hS : (if signNegative sign then [45] else ([] : Bytes)) = S
    rw [if_pos (by rw [List.length_append, chars_length]; omega)]
    have hi : (S ++ chars ds).length - scale.toNat = S.length + (ds.length - scale.toNat) := by
      rw [List.length_append, chars_length]; omega
    rw [hi, List.take_append, List.drop_append]
    refine ⟨chars (ds.take (ds.length - scale.toNat)) ++ 46 :: chars (ds.drop (ds.length - scale.toNat)), ?_, ?_, ?_⟩
    · simp [chars_take, chars_drop, List.take_of_length_le, List.drop_eq_nil_of_le]
    · rw [readUnsigned_point (fun d h => hd d (List.mem_of_mem_take h)) (fun d h => hd d (List.mem_of_mem_drop h)) (by simp; omega)]
      rw [List.take_append_drop, List.length_drop]
      congr 2; omega
    · obtain ⟨c, u, h1, h2⟩ := hne
      by_cases hz : ds.length - scale.toNat = 0
      · rw [hz]; exact ⟨46, _, rfl, by decide⟩
      · rw [← chars_take, h1]
        obtain ⟨m, hm⟩ : ∃ m, ds.length - scale.toNat = m + 1 := ⟨ds.length - scale.toNat - 1, by omega⟩
        rw [hm, List.take_succ_cons]
        exact ⟨c, _, rfl, h2⟩
  · refine ⟨chars ds, rfl, ?_, hne⟩
    rw [readUnsigned_int hd hl]
    congr 2; omega

end Verif.Proof
