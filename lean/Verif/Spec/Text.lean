import Verif.Go.Slice
/-! Readers for the texts a server gets for numbers, durations and times. -/
namespace Verif.Spec
open Verif.Go

def digitVal (b : UInt8) : Option Nat := if 48 ≤ b.toNat ∧ b.toNat ≤ 57 then some (b.toNat - 48) else none

/-- value of a non-empty digit string with accumulator -/
def readDigits (acc : Nat) : Bytes → Option Nat
  | [] => some acc
  | b :: bs =>
    match digitVal b with
    | some d => readDigits (acc * 10 + d) bs
    | none => none

/-- A non-empty string of decimal digits. -/
def readNat (bs : Bytes) : Option Nat := if bs = [] then none else readDigits 0 bs

/-- Split at the first occurrence of `c`. -/
def splitOn (c : UInt8) : Bytes → Option (Bytes × Bytes)
  | [] => none
  | b :: bs => if b = c then some ([], bs) else (splitOn c bs).map fun x => (b :: x.1, x.2)

/-- optional minus sign -/
def readSign : Bytes → Bool × Bytes
  | 45 :: bs => (true, bs)
  | bs => (false, bs)

def exactly (n : Nat) (bs : Bytes) : Option Nat := if bs.length = n then readNat bs else none

/-- `[-]H...:MM:SS` as a number of seconds (MySQL TIME literal). -/
def readDuration (bs : Bytes) : Option Int := do
  let (neg, bs) := readSign bs
  let (h, bs) ← splitOn 58 bs
  let (m, s) ← splitOn 58 bs
  let h ← readNat h
  let m ← exactly 2 m
  let s ← exactly 2 s
  if m < 60 ∧ s < 60 then
    let t : Int := (h * 3600 + m * 60 + s : Nat)
    some (if neg then -t else t)
  else none

/-- `[-]YYYY...-MM-DD hh:mm:ss.nnnnnnnnn`: year, month, day, hour, minute, second, nanosecond. -/
def readDateTime (bs : Bytes) : Option (Int × Nat × Nat × Nat × Nat × Nat × Nat) := do
  let (neg, bs) := readSign bs
  let (y, bs) ← splitOn 45 bs
  let (mo, bs) ← splitOn 45 bs
  let (d, bs) ← splitOn 32 bs
  let (h, bs) ← splitOn 58 bs
  let (mi, bs) ← splitOn 58 bs
  let (s, ns) ← splitOn 46 bs
  let y ← if y.length < 4 then none else readNat y
  let mo ← exactly 2 mo
  let d ← exactly 2 d
  let h ← exactly 2 h
  let mi ← exactly 2 mi
  let s ← exactly 2 s
  let ns ← exactly 9 ns
  some (if neg then -(y : Int) else y, mo, d, h, mi, s, ns)

end Verif.Spec
