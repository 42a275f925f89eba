import Verif.Spec.Calendar
import Verif.Proof.TextRead
import Verif.Proof.AnyAll
/-! The calendar is in order and has no gaps. -/
namespace Verif.Proof.Calendar
open Verif.Go Verif.Spec Verif.Model Verif.Spec.Calendar Verif.Proof

theorem months_year (y : Nat) : daysToMonth y 12 = yearDays y := by
  simp only [daysToMonth, monthDays, yearDays]
  cases leap y <;> rfl

theorem months_mono (y : Nat) : ∀ {m n : Nat}, m ≤ n → daysToMonth y m ≤ daysToMonth y n := by
  intro m n h
  induction h with
  | refl => exact Nat.le_refl _
  | step _ ih => simp only [daysToMonth]; omega

theorem years_mono : ∀ {y z : Nat}, y ≤ z → daysToYear y ≤ daysToYear z := by
  intro m n h
  induction h with
  | refl => exact Nat.le_refl _
  | step _ ih => simp only [daysToYear]; omega

/-- an earlier month ends before a later one begins -/
theorem month_end {y m n d : Nat} (hm : 1 ≤ m) (hmn : m < n) (hd : d ≤ monthDays y m) : daysToMonth y (m - 1) + d ≤ daysToMonth y (n - 1) := by
  have h := months_mono y (m := m) (n := n - 1) (by omega)
  obtain ⟨k, rfl⟩ : ∃ k, m = k + 1 := ⟨m - 1, by omega⟩
  simp only [daysToMonth, Nat.add_sub_cancel] at h ⊢
  omega

theorem year_end {y z m d : Nat} (hm : 1 ≤ m ∧ m ≤ 12) (hyz : y < z) (hd : d ≤ monthDays y m) :
    daysToYear y + daysToMonth y (m - 1) + d ≤ daysToYear z := by
  have h := years_mono (y := y + 1) (z := z) hyz
  have h2 := month_end (n := 13) hm.1 (by omega) hd
  rw [months_year] at h2
  simp only [daysToYear] at h
  omega

/-- The reading that comes first is the earlier one. -/
def Earlier : List Nat → List Nat → Prop
  | a :: as, b :: bs => a < b ∨ a = b ∧ Earlier as bs
  | _, _ => False

theorem earlier_lt {zone : Int} {y m d h mi s ns y' m' d' h' mi' s' ns' : Nat} (hp : Proper y m d h mi s ns) (hq : Proper y' m' d' h' mi' s' ns')
    (he : Earlier [y, m, d, h, mi, s, ns] [y', m', d', h', mi', s', ns']) :
    instant zone y m d h mi s ns < instant zone y' m' d' h' mi' s' ns' := by
  obtain ⟨p1, p2, p3, p4, p5, p6, p7⟩ := hp
  obtain ⟨q1, q2, q3, q4, q5, q6, q7⟩ := hq
  simp only [Earlier] at he
  simp only [instant, dayNumber]
  have key : daysToYear y + daysToMonth y (m - 1) + d < daysToYear y' + daysToMonth y' (m' - 1) + d' ∨
      (daysToYear y + daysToMonth y (m - 1) + d = daysToYear y' + daysToMonth y' (m' - 1) + d' ∧
        (h < h' ∨ h = h' ∧ (mi < mi' ∨ mi = mi' ∧ (s < s' ∨ s = s' ∧ ns < ns')))) := by
    rcases he with he | ⟨rfl, he⟩
    · have := year_end p2 he p3.2; omega
    rcases he with he | ⟨rfl, he⟩
    · have := month_end p2.1 he p3.2; omega
    rcases he with he | ⟨rfl, he⟩
    · omega
    · refine .inr ⟨rfl, ?_⟩
      simpa using he
  generalize daysToYear y + daysToMonth y (m - 1) + d = a at key ⊢
  generalize daysToYear y' + daysToMonth y' (m' - 1) + d' = b at key ⊢
  omega

theorem earlier_total : ∀ (a b : List Nat), a.length = b.length → Earlier a b ∨ a = b ∨ Earlier b a
  | [], [], _ => .inr (.inl rfl)
  | x :: xs, y :: ys, h => by
    rcases Nat.lt_trichotomy x y with hx | rfl | hx
    · exact .inl (.inl hx)
    · rcases earlier_total xs ys (by simpa using h) with h | h | h
      · exact .inl (.inr ⟨rfl, h⟩)
      · exact .inr (.inl (by rw [h]))
      · exact .inr (.inr (.inr ⟨rfl, h⟩))
    · exact .inr (.inr (.inl hx))

theorem earlier_iff {zone : Int} {y m d h mi s ns y' m' d' h' mi' s' ns' : Nat} (hp : Proper y m d h mi s ns) (hq : Proper y' m' d' h' mi' s' ns') :
    (Earlier [y, m, d, h, mi, s, ns] [y', m', d', h', mi', s', ns'] ↔
      instant zone y m d h mi s ns < instant zone y' m' d' h' mi' s' ns') ∧
    ([y, m, d, h, mi, s, ns] = [y', m', d', h', mi', s', ns'] ↔ instant zone y m d h mi s ns = instant zone y' m' d' h' mi' s' ns') := by
  rcases earlier_total [y, m, d, h, mi, s, ns] [y', m', d', h', mi', s', ns'] rfl with e | e | e
  · have := earlier_lt (zone := zone) hp hq e
    refine ⟨⟨fun _ => this, fun _ => e⟩, ⟨fun h => ?_, fun h => by omega⟩⟩
    simp only [List.cons.injEq] at h
    obtain ⟨rfl, rfl, rfl, rfl, rfl, rfl, rfl, -⟩ := h
    omega
  · simp only [List.cons.injEq] at e
    obtain ⟨rfl, rfl, rfl, rfl, rfl, rfl, rfl, -⟩ := e
    refine ⟨⟨fun h => ?_, fun h => by omega⟩, by simp⟩
    exact absurd (earlier_lt (zone := zone) hp hq h) (Int.lt_irrefl _)
  · have := earlier_lt (zone := zone) hq hp e
    refine ⟨⟨fun h => ?_, fun h => by omega⟩, ⟨fun h => ?_, fun h => by omega⟩⟩
    · have := earlier_lt (zone := zone) hp hq h; omega
    · simp only [List.cons.injEq] at h
      obtain ⟨rfl, rfl, rfl, rfl, rfl, rfl, rfl, -⟩ := h
      omega

/-! ### every day has a date -/

theorem monthDays_pos (y m : Nat) : 1 ≤ monthDays y m := by
  unfold monthDays
  repeat' split
  all_goals decide

/-- every day of a year is in one of its months -/
theorem month_of (y : Nat) : ∀ (k n : Nat), n < daysToMonth y k →
    ∃ m d, 1 ≤ m ∧ m ≤ k ∧ 1 ≤ d ∧ d ≤ monthDays y m ∧ n + 1 = daysToMonth y (m - 1) + d
  | 0, n, h => by simp [daysToMonth] at h
  | k + 1, n, h => by
    rcases Nat.lt_or_ge n (daysToMonth y k) with hk | hk
    · obtain ⟨m, d, h1, h2, h3⟩ := month_of y k n hk
      exact ⟨m, d, h1, by omega, h3⟩
    · simp only [daysToMonth] at h
      exact ⟨k + 1, n + 1 - daysToMonth y k, by omega, by omega, by omega, by omega, by simp only [Nat.add_sub_cancel]; omega⟩

theorem year_of : ∀ (k n : Nat), n < daysToYear k →
    ∃ y m d, y < k ∧ (1 ≤ m ∧ m ≤ 12) ∧ (1 ≤ d ∧ d ≤ monthDays y m) ∧ n + 1 = daysToYear y + daysToMonth y (m - 1) + d
  | 0, n, h => by simp [daysToYear] at h
  | k + 1, n, h => by
    rcases Nat.lt_or_ge n (daysToYear k) with hk | hk
    · obtain ⟨y, m, d, h1, h2⟩ := year_of k n hk
      exact ⟨y, m, d, by omega, h2⟩
    · simp only [daysToYear] at h
      obtain ⟨m, d, h1, h2, h3, h4, h5⟩ := month_of k 12 (n - daysToYear k) (by rw [months_year]; omega)
      exact ⟨k, m, d, by omega, ⟨h1, h2⟩, ⟨h3, h4⟩, by omega⟩

/-- an instant within years 0 - 9999 (by the clocks of the zone) has a reading -/
theorem reading (zone «at» : Int) (h1 : -719528 * 86400 * 1000000000 ≤ «at» + zone * 1000000000)
    (h2 : «at» + zone * 1000000000 < ((daysToYear 10000 : Nat) - 719528) * 86400 * 1000000000) :
    ∃ y m d h mi s ns, Proper y m d h mi s ns ∧ «at» = instant zone y m d h mi s ns := by
  generalize hL : daysToYear 10000 = L at h2
  let n : Int := «at» + zone * 1000000000 + 719528 * 86400 * 1000000000
  have hn : 0 ≤ n := by simp only [n]; omega
  obtain ⟨k, hk⟩ := Int.eq_ofNat_of_zero_le hn
  have hkk : (k : Int) = «at» + zone * 1000000000 + 719528 * 86400 * 1000000000 := by rw [← show n = (k : Int) from hk]
  obtain ⟨y, m, d, g1, g2, g3, g4⟩ := year_of 10000 (k / 86400000000000) (by rw [hL]; omega)
  refine ⟨y, m, d, k / 3600000000000 % 24, k / 60000000000 % 60, k / 1000000000 % 60, k % 1000000000,
    ⟨by omega, g2, g3, by omega, by omega, by omega, by omega⟩, ?_⟩
  simp only [instant, dayNumber]
  rw [← g4]
  omega

/-! ### the texts are in order, too -/

theorem textLess_append : ∀ {a b : Bytes} {x y : Bytes}, a.length = b.length →
    (textLess (a ++ x) (b ++ y) = true ↔ textLess a b = true ∨ a = b ∧ textLess x y = true)
  | [], [], x, y, _ => by cases x <;> simp [textLess]
  | a :: as, b :: bs, x, y, h => by
    have ih := textLess_append (a := as) (b := bs) (x := x) (y := y) (by simpa using h)
    simp only [List.cons_append, textLess, Bool.or_eq_true, Bool.and_eq_true, decide_eq_true_eq, beq_iff_eq, List.cons.injEq, ih]
    grind

theorem fixed_less : ∀ {w n m : Nat}, n < 10 ^ w → m < 10 ^ w →
    ((textLess (fixedDigits w n) (fixedDigits w m) = true ↔ n < m) ∧ (fixedDigits w n = fixedDigits w m ↔ n = m))
  | 0, n, m, hn, hm => by
    simp only [Nat.pow_zero] at hn hm
    simp [fixedDigits, textLess]; omega
  | w + 1, n, m, hn, hm => by
    rw [Nat.pow_succ] at hn hm
    obtain ⟨ih1, ih2⟩ := fixed_less (w := w) (n := n / 10) (m := m / 10) (by omega) (by omega)
    have hl : (fixedDigits w (n / 10)).length = (fixedDigits w (m / 10)).length := by simp only [fixedDigits_length]
    have hd : (digit n).toNat < (digit m).toNat ↔ n % 10 < m % 10 := by rw [digit_toNat, digit_toNat]; omega
    have he : digit n = digit m ↔ n % 10 = m % 10 := by rw [← UInt8.toNat_inj, digit_toNat, digit_toNat]; omega
    constructor
    · simp only [fixedDigits]
      rw [textLess_append hl, ih1, ih2]
      simp only [textLess, decide_eq_true_eq, hd, Bool.and_false, Bool.or_false]
      omega
    · simp only [fixedDigits]
      constructor
      · intro h
        obtain ⟨h1, h2⟩ := List.append_inj h hl
        rw [ih2] at h1
        simp only [List.cons.injEq, and_true] at h2
        rw [he] at h2
        omega
      · rintro rfl; rfl

/-- a number and what follows it -/
theorem field_less {w n m : Nat} {x y : Bytes} (hn : n < 10 ^ w) (hm : m < 10 ^ w) :
    textLess (fixedDigits w n ++ x) (fixedDigits w m ++ y) = true ↔ n < m ∨ n = m ∧ textLess x y = true := by
  obtain ⟨h1, h2⟩ := fixed_less hn hm
  rw [textLess_append (by simp only [fixedDigits_length]), h1, h2]

theorem sep_less {b : UInt8} {x y : Bytes} : textLess (b :: x) (b :: y) = textLess x y := by
  simp [textLess]

/-- the texts of two times are in the order of the readings -/
theorem fmt_less {t u : GoTime} {y z : Nat} (ht : t.year.toInt = y) (hu : u.year.toInt = z) (hy : y ≤ 9999) (hz : z ≤ 9999) :
    textLess (fmtTime t) (fmtTime u) = true ↔
      Earlier [y, t.month, t.day, t.hour, t.min, t.sec, t.nsec] [z, u.month, u.day, u.hour, u.min, u.sec, u.nsec] := by
  have e1 : ∀ n : Nat, n ≤ 9999 → fmtYear (n : Int) = fixedDigits 4 n := by
    intro n hn
    simp only [fmtYear, pad4, Int.natAbs_natCast]
    rw [if_neg (by omega), if_pos (by omega)]
  simp only [fmtTime, ht, hu, e1 y hy, e1 z hz, Earlier]
  have h2 : ∀ a : Fin 100, a.val < 10 ^ 2 := fun a => a.isLt
  rw [field_less (by omega) (by omega), sep_less, field_less (h2 _) (h2 _), sep_less, field_less (h2 _) (h2 _), sep_less, field_less (h2 _) (h2 _),
    sep_less, field_less (h2 _) (h2 _), sep_less, field_less (h2 _) (h2 _), sep_less, (fixed_less (w := 9) t.nsec.isLt u.nsec.isLt).1]
  simp

end Verif.Proof.Calendar
