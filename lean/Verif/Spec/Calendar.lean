import Verif.Spec.Text
import Verif.Model.Value
/-! Instants and the Gregorian calendar, and what a server makes of the text of a time. -/
namespace Verif.Spec.Calendar
open Verif.Go Verif.Model

def leap (y : Nat) : Bool := y % 4 == 0 && (y % 100 != 0 || y % 400 == 0)

def yearDays (y : Nat) : Nat := if leap y then 366 else 365

def monthDays (y m : Nat) : Nat :=
  if m = 2 then (if leap y then 29 else 28) else if m = 4 ∨ m = 6 ∨ m = 9 ∨ m = 11 then 30 else 31

/-- The days of the years before `y`. -/
def daysToYear : Nat → Nat
  | 0 => 0
  | y + 1 => daysToYear y + yearDays y

/-- The days of the year before its month number `m + 1`. -/
def daysToMonth (y : Nat) : Nat → Nat
  | 0 => 0
  | m + 1 => daysToMonth y m + monthDays y (m + 1)

/-- A date and a time of day that a calendar and a clock can show. -/
structure Proper (y m d h mi s ns : Nat) : Prop where
  year : y ≤ 9999
  month : 1 ≤ m ∧ m ≤ 12
  day : 1 ≤ d ∧ d ≤ monthDays y m
  hour : h < 24
  min : mi < 60
  sec : s < 60
  nsec : ns < 1000000000

/-- The days from 1970-01-01. -/
def dayNumber (y m d : Nat) : Int := (daysToYear y + daysToMonth y (m - 1) + d : Nat) - 719529

/-- The instant (in nanoseconds since 1970-01-01 00:00:00 UTC) at which clocks `zone` seconds ahead of UTC show the reading. -/
def instant (zone : Int) (y m d h mi s ns : Nat) : Int :=
  (((dayNumber y m d * 24 + h) * 60 + mi) * 60 + s - zone) * 1000000000 + ns

/-- The `time.Time` is the instant `at`, in a location whose clocks are `zone` seconds ahead of UTC; its year is one that a
DATETIME can have. -/
def Shows (t : GoTime) («at» zone : Int) : Prop :=
  ∃ y : Nat, t.year.toInt = y ∧ Proper y t.month t.day t.hour t.min t.sec t.nsec ∧
    «at» = instant zone y t.month t.day t.hour t.min t.sec t.nsec

/-- The instant a server takes the text for, in a session whose time zone is `zone` seconds ahead of UTC. -/
def understood (zone : Int) (text : Bytes) : Option Int :=
  match readDateTime text with
  | some (.ofNat y, m, d, h, mi, s, ns) =>
    if y ≤ 9999 ∧ (1 ≤ m ∧ m ≤ 12) ∧ (1 ≤ d ∧ d ≤ monthDays y m) ∧ h < 24 ∧ mi < 60 ∧ s < 60 then some (instant zone y m d h mi s ns) else none
  | _ => none

/-- The time span (in nanoseconds) a server takes the text for, if it is one that a TIME can have: -838:59:59 to 838:59:59. -/
def span (text : Bytes) : Option Int :=
  match readDuration text with
  | some s => if -3020399 ≤ s ∧ s ≤ 3020399 then some (s * 1000000000) else none
  | none => none

/-- Texts in the order of their bytes. -/
def textLess : Bytes → Bytes → Bool
  | _, [] => false
  | [], _ :: _ => true
  | a :: as, b :: bs => a.toNat < b.toNat || (a == b && textLess as bs)

end Verif.Spec.Calendar
