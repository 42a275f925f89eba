import Verif.Spec.Text
import Verif.Spec.Meaning
import Verif.Proof.AnyAll
/-! Printed numbers, durations and times are read back. -/
namespace Verif.Proof
open Verif.Go Verif.Spec Verif.Model

theorem digit_toNat (n : Nat) : (digit n).toNat = 48 + n % 10 := by
  unfold digit; simp; omega

theorem digitVal_digit (n : Nat) : digitVal (digit n) = some (n % 10) := by
  unfold digitVal
  rw [digit_toNat, if_pos (by omega)]
  simp

theorem readDigits_append (a b : Bytes) : ∀ acc, readDigits acc (a ++ b) = (readDigits acc a).bind fun x => readDigits x b := by
  induction a with
  | nil => intro acc; rfl
  | cons c a ih =>
    intro acc
    rw [List.cons_append, readDigits, readDigits]
    cases digitVal c with
    | none => rfl
    | some d => exact ih _

theorem readDigits_fixed (w n : Nat) : ∀ acc, readDigits acc (fixedDigits w n) = some (acc * 10 ^ w + n % 10 ^ w) := by
  induction w generalizing n with
  | zero => intro acc; simp [fixedDigits, readDigits, Nat.mod_one]
  | succ w ih =>
    intro acc
    rw [fixedDigits, readDigits_append, ih, Option.bind_some, readDigits, digitVal_digit]
    simp only [readDigits, Option.some.injEq]
    rw [Nat.pow_succ, Nat.mul_comm (10 ^ w) 10, Nat.mod_mul, Nat.add_mul]
    have : acc * 10 ^ w * 10 = acc * (10 * 10 ^ w) := by rw [Nat.mul_assoc, Nat.mul_comm 10]
    omega

theorem fixedDigits_ne {w n : Nat} (h : 0 < w) : fixedDigits w n ≠ [] := by
  intro h2
  have := congrArg List.length h2
  rw [fixedDigits_length] at this
  simp at this; omega

theorem readNat_fixed {w n : Nat} (h : 0 < w) (hn : n < 10 ^ w) : readNat (fixedDigits w n) = some n := by
  rw [readNat, if_neg (fixedDigits_ne h), readDigits_fixed, Nat.mod_eq_of_lt hn]
  simp

theorem decimal_ne (n : Nat) : decimal n ≠ [] := by
  rw [decimal]; split <;> simp

theorem readDigits_decimal (n : Nat) : readDigits 0 (decimal n) = some n := by
  induction n using Nat.strongRecOn with
  | ind n ih =>
    rw [decimal]
    split
    · rename_i h
      rw [readDigits, digitVal_digit]
      simp [readDigits]; omega
    · rename_i h
      rw [readDigits_append, ih (n / 10) (by omega), Option.bind_some, readDigits, digitVal_digit]
      simp [readDigits]; omega

theorem readNat_decimal (n : Nat) : readNat (decimal n) = some n := by
  rw [readNat, if_neg (decimal_ne n), readDigits_decimal]

/-- all bytes are digits -/
def AllDigits (bs : Bytes) : Prop := ∀ b ∈ bs, ∃ n, b = digit n

theorem decimal_digits (n : Nat) : AllDigits (decimal n) := by
  induction n using Nat.strongRecOn with
  | ind n ih =>
    rw [decimal]
    split
    · intro b hb; simp at hb; exact ⟨n, hb⟩
    · intro b hb
      rcases List.mem_append.mp hb with h | h
      · exact ih (n / 10) (by omega) b h
      · simp at h; exact ⟨n, h⟩

theorem fixed_digits (w n : Nat) : AllDigits (fixedDigits w n) := by
  induction w generalizing n with
  | zero => intro b hb; cases hb
  | succ w ih =>
    intro b hb
    rw [fixedDigits] at hb
    rcases List.mem_append.mp hb with h | h
    · exact ih _ b h
    · simp at h; exact ⟨n, h⟩

theorem splitOn_digits {c : UInt8} (hc : digitVal c = none) {a : Bytes} (ha : AllDigits a) (b : Bytes) :
    splitOn c (a ++ c :: b) = some (a, b) := by
  induction a with
  | nil => simp [splitOn]
  | cons x a ih =>
    obtain ⟨n, hn⟩ := ha x (by simp)
    have : x ≠ c := by
      intro h; subst h; rw [hn, digitVal_digit] at hc; cases hc
    rw [List.cons_append, splitOn, if_neg this, ih (fun b hb => ha b (by simp [hb]))]
    rfl

theorem readSign_digits {a : Bytes} (ha : AllDigits a) (hne : a ≠ []) (b : Bytes) : readSign (a ++ b) = (false, a ++ b) := by
  cases a with
  | nil => exact (hne rfl).elim
  | cons x a =>
    obtain ⟨n, hn⟩ := ha x (by simp)
    have hx : x ≠ 45 := by
      intro h
      have := congrArg UInt8.toNat h
      rw [hn, digit_toNat] at this
      simp at this; omega
    rw [List.cons_append]
    unfold readSign
    split
    · rename_i h; cases h; exact (hx rfl).elim
    · rfl

theorem readSign_neg (b : Bytes) : readSign (45 :: b) = (true, b) := rfl

theorem two_fixed {n : Nat} (h : n < 100) : two n = fixedDigits 2 n := by
  simp only [two, fixedDigits, digit, List.nil_append, List.cons_append]
  rw [show n / 10 % 10 = n / 10 by omega]

/-- Durations are read back in whole seconds. -/
theorem readDuration_text (ns : Int) : readDuration (durationText ns) = some (ns.tdiv 1000000000) := by
  have hm : (ns.natAbs / 1000000000) / 60 % 60 < 60 := Nat.mod_lt _ (by omega)
  have hs : (ns.natAbs / 1000000000) % 60 < 60 := Nat.mod_lt _ (by omega)
  have e : ∀ neg : Bool, ∀ bs, readSign bs = (neg, decimal (ns.natAbs / 1000000000 / 3600) ++ 58 ::
      (two (ns.natAbs / 1000000000 / 60 % 60) ++ 58 :: two (ns.natAbs / 1000000000 % 60))) →
      readDuration bs = some (if neg then -((ns.natAbs / 1000000000 : Nat) : Int) else (ns.natAbs / 1000000000 : Nat)) := by
    intro neg bs h
    rw [readDuration, h]
    dsimp only
    rw [splitOn_digits (by decide) (decimal_digits _)]
    rw [two_fixed (by omega), two_fixed (by omega)]
    dsimp only [Option.bind_eq_bind, Option.bind_some]
    rw [splitOn_digits (by decide) (fixed_digits _ _)]
    dsimp only [Option.bind_eq_bind, Option.bind_some]
    rw [readNat_decimal, exactly, exactly, fixedDigits_length, fixedDigits_length, if_pos rfl, if_pos rfl,
      readNat_fixed (by omega) (by omega), readNat_fixed (by omega) (by omega)]
    dsimp only [Option.bind_eq_bind, Option.bind_some]
    rw [if_pos ⟨hm, hs⟩]
    have : ns.natAbs / 1000000000 / 3600 * 3600 + ns.natAbs / 1000000000 / 60 % 60 * 60 + ns.natAbs / 1000000000 % 60 =
        ns.natAbs / 1000000000 := by omega
    rw [this]
  rw [durationText]
  by_cases h : ns < 0
  · rw [if_pos h, List.append_assoc, e true _ (by rw [List.singleton_append, readSign_neg])]
    simp only [if_true, Option.some.injEq]
    have : ns = -(ns.natAbs : Int) := by omega
    rw [this, Int.neg_tdiv]
    simp
  · rw [if_neg h, List.nil_append, e false _ (readSign_digits (decimal_digits _) (decimal_ne _) _)]
    simp only [Option.some.injEq]
    have : ns = (ns.natAbs : Int) := by omega
    conv => rhs; rw [this]
    rfl

theorem pad4_digits (n : Nat) : AllDigits (pad4 n) := by
  unfold pad4; split
  · exact fixed_digits _ _
  · exact decimal_digits _

theorem decimal_length_ge (k : Nat) : ∀ n, 10 ^ k ≤ n → k + 1 ≤ (decimal n).length := by
  induction k with
  | zero => intro n _; have := decimal_ne n; cases h : decimal n <;> simp_all
  | succ k ih =>
    intro n h
    rw [decimal]
    have : 10 ≤ n := by rw [Nat.pow_succ] at h; have := Nat.pow_pos (n := k) (show 0 < 10 by omega); omega
    rw [if_neg (by omega), List.length_append]
    have := ih (n / 10) (by rw [Nat.le_div_iff_mul_le (by omega)]; rw [Nat.pow_succ] at h; exact h)
    simp; omega

theorem pad4_length (n : Nat) : 4 ≤ (pad4 n).length := by
  unfold pad4; split
  · rw [fixedDigits_length]; omega
  · exact decimal_length_ge 3 n (by omega)

theorem readNat_pad4 (n : Nat) : readNat (pad4 n) = some n := by
  unfold pad4; split
  · rename_i h; exact readNat_fixed (by omega) h
  · exact readNat_decimal n

/-- Times are read back field by field. -/
theorem readDateTime_fmt (t : GoTime) : readDateTime (fmtTime t) =
    some (t.year.toInt, t.month.val, t.day.val, t.hour.val, t.min.val, t.sec.val, t.nsec.val) := by
  obtain ⟨year, month, day, hour, min, sec, nsec⟩ := t
  have e : ∀ neg : Bool, ∀ bs, readSign bs = (neg, pad4 year.toInt.natAbs ++ 45 :: (fixedDigits 2 month ++ 45 ::
      (fixedDigits 2 day ++ 32 :: (fixedDigits 2 hour ++ 58 :: (fixedDigits 2 min ++ 58 :: (fixedDigits 2 sec ++ 46 ::
      fixedDigits 9 nsec)))))) →
      readDateTime bs = some (if neg then -(year.toInt.natAbs : Int) else year.toInt.natAbs, month.val, day.val, hour.val,
        min.val, sec.val, nsec.val) := by
    intro neg bs h
    rw [readDateTime, h]
    dsimp only
    rw [splitOn_digits (by decide) (pad4_digits _)]
    dsimp only [Option.bind_eq_bind, Option.bind_some]
    rw [splitOn_digits (by decide) (fixed_digits _ _)]
    dsimp only [Option.bind_eq_bind, Option.bind_some]
    rw [splitOn_digits (by decide) (fixed_digits _ _)]
    dsimp only [Option.bind_eq_bind, Option.bind_some]
    rw [splitOn_digits (by decide) (fixed_digits _ _)]
    dsimp only [Option.bind_eq_bind, Option.bind_some]
    rw [splitOn_digits (by decide) (fixed_digits _ _)]
    dsimp only [Option.bind_eq_bind, Option.bind_some]
    rw [splitOn_digits (by decide) (fixed_digits _ _)]
    dsimp only [Option.bind_eq_bind, Option.bind_some]
    have := pad4_length year.toInt.natAbs
    rw [if_neg (by omega), readNat_pad4]
    have two : ∀ x : Fin 100, exactly 2 (fixedDigits 2 x.val) = some x.val := by
      intro x
      rw [exactly, fixedDigits_length, if_pos rfl, readNat_fixed (by omega) x.isLt]
    have nine : exactly 9 (fixedDigits 9 nsec.val) = some nsec.val := by
      rw [exactly, fixedDigits_length, if_pos rfl, readNat_fixed (by omega) nsec.isLt]
    simp [two, nine]
  rw [fmtTime, fmtYear]
  dsimp only
  split
  · rw [List.cons_append, e true _ (readSign_neg _)]
    simp; omega
  · have := pad4_length year.toInt.natAbs
    rw [e false _ (readSign_digits (pad4_digits _) (by intro h; rw [h] at this; simp at this) _)]
    simp; omega

end Verif.Proof
