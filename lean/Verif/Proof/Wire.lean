import Verif.Spec.Wire
import Verif.Model.Protobuf
/-! Canonical protobuf encoder and its round trip through `Spec.readFields`. -/
namespace Verif.Proof
open Verif.Go Verif.Spec

/-- canonical varint -/
def varint (x : Nat) : Bytes :=
  if h : x < 128 then [UInt8.ofNat x]
  else (UInt8.ofNat (x % 128 + 128)) :: varint (x / 128)
termination_by x

theorem varint_small {x : Nat} (h : x < 128) : varint x = [UInt8.ofNat x] := by
  rw [varint]; simp [h]

theorem varint_big {x : Nat} (h : ¬ x < 128) :
    varint x = UInt8.ofNat (x % 128 + 128) :: varint (x / 128) := by
  rw [varint]; simp [h]

theorem varint_ne_nil (x : Nat) : varint x ≠ [] := by
  rw [varint]; split <;> simp

theorem varint_length_pos (x : Nat) : 0 < (varint x).length := by
  have := varint_ne_nil x
  cases h : varint x <;> simp_all

theorem varint_length_le (k : Nat) : ∀ x, x < 128 ^ (k + 1) → (varint x).length ≤ k + 1 := by
  induction k with
  | zero => intro x hx; rw [varint_small (by simpa using hx)]; simp
  | succ k ih =>
    intro x hx
    by_cases h : x < 128
    · rw [varint_small h]; simp
    · rw [varint_big h]
      have := ih (x / 128) (by rw [Nat.div_lt_iff_lt_mul (by omega)]; rw [Nat.pow_succ] at hx; omega)
      simp; omega

theorem readVarintAux_varint (k : Nat) : ∀ x rest, x < 128 ^ (k + 1) →
    readVarintAux (k + 1) (varint x ++ rest) = some (x, rest) := by
  induction k with
  | zero =>
    intro x rest hx
    have hx : x < 128 := by simpa using hx
    rw [varint_small hx]
    have : x % 256 = x := by omega
    simp [readVarintAux, this, hx]
  | succ k ih =>
    intro x rest hx
    by_cases h : x < 128
    · rw [varint_small h]
      have : x % 256 = x := by omega
      simp [readVarintAux, this, h]
    · rw [varint_big h]
      have := ih (x / 128) rest (by rw [Nat.div_lt_iff_lt_mul (by omega)]; rw [Nat.pow_succ] at hx; omega)
      have h2 : (x % 128 + 128) % 256 = x % 128 + 128 := by omega
      rw [List.cons_append, readVarintAux, this]
      simp only [UInt8.toNat_ofNat', h2]
      rw [if_neg (by omega)]
      simp; omega

theorem readVarint_varint {x : Nat} (rest : Bytes) (hx : x < 2 ^ 64) :
    readVarint (varint x ++ rest) = some (x, rest) := by
  rw [readVarint, readVarintAux_varint 9 x rest (by omega)]
  simp [hx]

/-- little-endian -/
def fixed : Nat → Nat → Bytes
  | 0, _ => []
  | n + 1, x => UInt8.ofNat (x % 256) :: fixed n (x / 256)

theorem fixed_length (n x : Nat) : (fixed n x).length = n := by
  induction n generalizing x with
  | zero => rfl
  | succ n ih => simp [fixed, ih]

theorem readFixed_fixed (n : Nat) : ∀ x rest, x < 256 ^ n →
    readFixed n (fixed n x ++ rest) = some (x, rest) := by
  induction n with
  | zero => intro x rest h; simp at h; simp [fixed, readFixed, h]
  | succ n ih =>
    intro x rest h
    have := ih (x / 256) rest (by rw [Nat.div_lt_iff_lt_mul (by omega)]; rw [Nat.pow_succ] at h; omega)
    simp [fixed, readFixed, this]; omega

theorem readN_append (a rest : Bytes) : readN a.length (a ++ rest) = some (a, rest) := by
  simp [readN]

/-- encode one field -/
def encField : Field → Bytes
  | (t, .varint v) => varint (t * 8) ++ varint v
  | (t, .fixed64 v) => varint (t * 8 + 1) ++ fixed 8 v
  | (t, .bytes b) => varint (t * 8 + 2) ++ varint b.length ++ b
  | (t, .fixed32 v) => varint (t * 8 + 5) ++ fixed 4 v

def encFields : List Field → Bytes
  | [] => []
  | f :: fs => encField f ++ encFields fs

/-- representable fields -/
def FieldOK : Field → Prop
  | (t, .varint v) => 0 < t ∧ t < 2 ^ 29 ∧ v < 2 ^ 64
  | (t, .fixed64 v) => 0 < t ∧ t < 2 ^ 29 ∧ v < 2 ^ 64
  | (t, .bytes b) => 0 < t ∧ t < 2 ^ 29 ∧ b.length < 2 ^ 64
  | (t, .fixed32 v) => 0 < t ∧ t < 2 ^ 29 ∧ v < 2 ^ 32

theorem encField_ne_nil (f : Field) : encField f ≠ [] := by
  obtain ⟨t, v⟩ := f
  cases v <;> simp [encField, varint_ne_nil]

theorem encField_length_pos (f : Field) : 0 < (encField f).length := by
  have := encField_ne_nil f
  cases h : encField f <;> simp_all

theorem readField_encField (f : Field) (rest : Bytes) (h : FieldOK f) :
    readField (encField f ++ rest) = some (f, rest) := by
  obtain ⟨t, v⟩ := f
  cases v with
  | varint v =>
    obtain ⟨h1, h2, h3⟩ := h
    have hd : t * 8 / 8 = t := by omega
    have hm : t * 8 % 8 = 0 := by omega
    simp only [encField, List.append_assoc, readField, readVarint_varint _ (show t * 8 < 2 ^ 64 by omega), hd, hm]
    rw [if_neg (by omega)]
    simp [readVarint_varint _ h3]
  | fixed64 v =>
    obtain ⟨h1, h2, h3⟩ := h
    have hd : (t * 8 + 1) / 8 = t := by omega
    have hm : (t * 8 + 1) % 8 = 1 := by omega
    simp only [encField, List.append_assoc, readField, readVarint_varint _ (show t * 8 + 1 < 2 ^ 64 by omega), hd, hm]
    rw [if_neg (by omega)]
    simp [readFixed_fixed 8 v rest (by omega)]
  | bytes b =>
    obtain ⟨h1, h2, h3⟩ := h
    have hd : (t * 8 + 2) / 8 = t := by omega
    have hm : (t * 8 + 2) % 8 = 2 := by omega
    simp only [encField, List.append_assoc, readField, readVarint_varint _ (show t * 8 + 2 < 2 ^ 64 by omega), hd, hm]
    rw [if_neg (by omega)]
    simp [readVarint_varint _ h3, readN_append]
  | fixed32 v =>
    obtain ⟨h1, h2, h3⟩ := h
    have hd : (t * 8 + 5) / 8 = t := by omega
    have hm : (t * 8 + 5) % 8 = 5 := by omega
    simp only [encField, List.append_assoc, readField, readVarint_varint _ (show t * 8 + 5 < 2 ^ 64 by omega), hd, hm]
    rw [if_neg (by omega)]
    simp [readFixed_fixed 4 v rest (by omega)]

theorem readFieldsAux_encFields (fs : List Field) : ∀ fuel, (encFields fs).length ≤ fuel →
    (∀ f ∈ fs, FieldOK f) → readFieldsAux fuel (encFields fs) = some fs := by
  induction fs with
  | nil => intro fuel _ _; cases fuel <;> simp [encFields, readFieldsAux]
  | cons f fs ih =>
    intro fuel hf hok
    have hpos := encField_length_pos f
    have hr := readField_encField f (encFields fs) (hok f (by simp))
    simp only [encFields, List.length_append] at hf
    obtain ⟨b, bs, hb⟩ : ∃ b bs, encField f ++ encFields fs = b :: bs := by
      cases h : encField f ++ encFields fs with
      | nil => simp [encField_ne_nil] at h
      | cons b bs => exact ⟨b, bs, rfl⟩
    obtain ⟨k, rfl⟩ : ∃ k, fuel = k + 1 := ⟨fuel - 1, by omega⟩
    rw [encFields, hb, readFieldsAux, ← hb, hr]
    simp [ih k (by omega) (fun f hf => hok f (by simp [hf]))]

theorem readFields_encFields {fs : List Field} (h : ∀ f ∈ fs, FieldOK f) :
    readFields (encFields fs) = some fs :=
  readFieldsAux_encFields fs _ (Nat.le_refl _) h

theorem encFields_append (a b : List Field) : encFields (a ++ b) = encFields a ++ encFields b := by
  induction a with
  | nil => rfl
  | cons f a ih => simp [encFields, ih]

end Verif.Proof
