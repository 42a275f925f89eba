import Verif.Go.Slice
/-! DECIMAL values on the wire (mysqlx_resultset.proto, `scale | BCD+ sign [0x0]?`), numbers and literals. -/
namespace Verif.Spec
open Verif.Go

/-- The number written by decimal digits. -/
def digitsValue (ds : List Nat) : Nat := ds.foldl (fun n d => n * 10 + d) 0

/-- Two nibbles a byte. The last byte is filled up with `pad`. -/
def packNibbles (pad : Nat) : List Nat → Bytes
  | [] => []
  | [a] => [UInt8.ofNat (16 * a + pad)]
  | a :: b :: ns => UInt8.ofNat (16 * a + b) :: packNibbles pad ns

/-- The wire form of a DECIMAL: scale, digits, sign nibble, padding. -/
def wireDecimal (scale : UInt8) (ds : List Nat) (sign pad : Nat) : Bytes := scale :: packNibbles pad (ds ++ [sign])

/-- Codes of the sign: 0xb and 0xd are minus, 0xa, 0xc, 0xe and 0xf plus. -/
def signNegative (sign : Nat) : Bool := sign == 11 || sign == 13

/-- Big endian numbers. -/
def bigEndian (bs : Bytes) : Nat := bs.foldl (fun n b => n * 256 + b.toNat) 0

/-- No superfluous leading byte. -/
def Minimal (bs : Bytes) : Prop := bs.length = 1 ∨ ∃ b rest, bs = b :: rest ∧ b ≠ 0

/-- Digits of a literal: their number, what they say, and what follows. -/
def literalDigits : Bytes → Nat → Nat → Nat × Nat × Bytes
  | [], k, n => (k, n, [])
  | b :: bs, k, n => if 48 ≤ b.toNat ∧ b.toNat ≤ 57 then literalDigits bs (k + 1) (n * 10 + (b.toNat - 48)) else (k, n, b :: bs)

/-- Unsigned literal `digits [. digits]` with at least one digit: (coefficient, number of decimals). -/
def readUnsigned (bs : Bytes) : Option (Nat × Nat) :=
  match literalDigits bs 0 0 with
  | (k, n, []) => if k = 0 then none else some (n, 0)
  | (k, n, b :: rest) =>
    if b = 46 then
      match literalDigits rest 0 n with
      | (j, m, []) => if k + j = 0 then none else some (m, j)
      | _ => none
    else none

/-- A decimal literal: (negative, coefficient, number of decimals), standing for ± coefficient / 10 ^ decimals. -/
def readLiteral : Bytes → Option (Bool × Nat × Nat)
  | [] => none
  | b :: bs => if b = 45 then (readUnsigned bs).map fun x => (true, x) else (readUnsigned (b :: bs)).map fun x => (false, x)

/-- The same number. -/
def SameNumber (a b : Bool × Nat × Nat) : Prop := a.1 = b.1 ∧ a.2.1 * 10 ^ b.2.2 = b.2.1 * 10 ^ a.2.2

end Verif.Spec
