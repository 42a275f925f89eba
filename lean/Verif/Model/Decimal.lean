import Verif.Go.Slice
/-! Model of /repo/types/decimal.go. -/
namespace Verif.Model
open Verif.Go

/-- decimal.go:8 `Uint256`, least significant word first. -/
structure Uint256 where
  w0 : BitVec 64
  w1 : BitVec 64
  w2 : BitVec 64
  w3 : BitVec 64

/-- `bits.Mul64`: high and low word of the product (contract of math/bits). -/
def mul64 (x y : BitVec 64) : BitVec 64 × BitVec 64 :=
  (BitVec.ofNat 64 (x.toNat * y.toNat / 2 ^ 64), BitVec.ofNat 64 (x.toNat * y.toNat))

/-- `bits.Add64`: sum and carry; the carry in is 0 or 1 (contract of math/bits). -/
def add64 (x y c : BitVec 64) : BitVec 64 × BitVec 64 :=
  (BitVec.ofNat 64 (x.toNat + y.toNat + c.toNat), BitVec.ofNat 64 ((x.toNat + y.toNat + c.toNat) / 2 ^ 64))

/-- decimal.go:27-40 -/
def Uint256.mulAdd (x : Uint256) (y z : BitVec 64) : Uint256 × BitVec 64 :=
  let (h1, x0) := mul64 x.w0 y
  let (h2, x1) := mul64 x.w1 y
  let (h3, x2) := mul64 x.w2 y
  let (h4, x3) := mul64 x.w3 y
  let (x0, c) := add64 x0 z 0
  let (x1, c) := add64 x1 h1 c
  let (x2, c) := add64 x2 h2 c
  let (x3, c) := add64 x3 h3 c
  (⟨x0, x1, x2, x3⟩, h4 + c)

/-- `binary.BigEndian.PutUint64` -/
def be64 (x : BitVec 64) : Bytes :=
  [x >>> 56, x >>> 48, x >>> 40, x >>> 32, x >>> 24, x >>> 16, x >>> 8, x].map fun v => UInt8.ofNat v.toNat

/-- The loop decimal.go:20-22 followed by `b[i:]`; `fuel` counts down from 31. -/
def skipZeros : Nat → Bytes → Bytes
  | f + 1, b :: bs => if b = 0 then skipZeros f bs else b :: bs
  | _, bs => bs

/-- decimal.go:11-24; the result of appending to the empty slice `buf[:0]` (decimal.go:64). -/
def Uint256.bytes (x : Uint256) : Bytes := skipZeros 31 (be64 x.w3 ++ be64 x.w2 ++ be64 x.w1 ++ be64 x.w0)

/-- decimal.go:54, 59 -/
def minusNibble (x : UInt8) : Bool := x == 0xB || x == 0xD

/-- The loop decimal.go:50-63: the accumulated number and `negative`. -/
def decomposeLoop (acc : Uint256) : Bytes → Uint256 × Bool
  | [] => (acc, false)
  | b :: bs =>
    let y := b &&& 0x0F
    let x := b >>> 4
    if x > 9 then (acc, minusNibble x)
    else
      let (acc, _) := acc.mulAdd 10 (BitVec.ofNat 64 x.toNat)
      if y > 9 then (acc, minusNibble y)
      else
        let (acc, _) := acc.mulAdd 10 (BitVec.ofNat 64 y.toNat)
        decomposeLoop acc bs

/-- decimal.go:44-66 (form, negative, coefficient, exponent). `d[0]` panics on an empty slice. -/
def decompose (d : Bytes) : M (UInt8 × Bool × Bytes × Int) :=
  match d with
  | [] => .error .panic
  | s :: bs =>
    let (acc, neg) := decomposeLoop ⟨0, 0, 0, 0⟩ bs
    .ok (0, neg, acc.bytes, -(s.toNat : Int))

/-- `digits[x]` -/
def digitChar (x : UInt8) : UInt8 := 48 + x

/-- The loop decimal.go:76-93; `b` is the text so far, beginning with the minus sign. (The local array is not
shared with anything, so a list of bytes models the slice.) -/
def stringLoop (b : Bytes) : Bytes → Bytes
  | [] => b
  | c :: cs =>
    let y := c &&& 0x0F
    let x := c >>> 4
    if x > 9 then (if minusNibble x then b else b.drop 1)
    else if y > 9 then
      let b := b ++ [digitChar x]
      if minusNibble y then b else b.drop 1
    else stringLoop (b ++ [digitChar x, digitChar y]) cs

/-- decimal.go:68-105.  Lines 99-101 insert the point before the last `s` bytes. -/
def decimalString (d : Bytes) : M Bytes :=
  match d with
  | [] => .error .panic
  | s :: bs =>
    let b := stringLoop [45] bs
    if s.toNat > 0 then
      if s.toNat ≤ b.length then
        let i := b.length - s.toNat
        .ok (b.take i ++ 46 :: b.drop i)
      else .ok b
    else .ok b

end Verif.Model
