import Verif.Spec.Text
import Verif.Go.Strconv
/-! Reading the text of an error of the server. -/
namespace Verif.Spec
open Verif.Go

/-- What the severity says: a name, or a number in decimals that fits an int32; the result is the number modulo 2^32. -/
def readSeverity (w : Bytes) : Option Nat :=
  if w = ascii "ERROR" then some 0
  else if w = ascii "FATAL" then some 1
  else
    match readSign w with
    | (false, d) => (readNat d).bind fun n => if n < 2 ^ 31 then some n else none
    | (true, d) => (readNat d).bind fun n => if 0 < n ∧ n ≤ 2 ^ 31 then some (2 ^ 32 - n) else none

/-- `severity code (state): message`: severity, code, state, message. -/
def readError (bs : Bytes) : Option (Nat × Nat × Bytes × Bytes) := do
  let (sev, bs) ← splitOn 32 bs
  let (code, bs) ← splitOn 32 bs
  let sev ← readSeverity sev
  let code ← readNat code
  match bs with
  | 40 :: bs =>
    let (state, bs) ← splitOn 41 bs
    match bs with
    | 58 :: 32 :: msg => some (sev, code, state, msg)
    | _ => none
  | _ => none

/-- An SQL state as the standard has it: five digits or capital letters. -/
def IsState (s : Bytes) : Prop := s.length = 5 ∧ ∀ c ∈ s, (48 ≤ c.toNat ∧ c.toNat ≤ 57) ∨ (65 ≤ c.toNat ∧ c.toNat ≤ 90)

end Verif.Spec
