import Verif.Model.SlicePkg
/-! Model of /repo/xproto/protobuf.go and the hand-unrolled varints used throughout xproto. -/
namespace Verif.Model
open Verif.Go

/-- xproto/protobuf.go:35-40 -/
def encodeBool (b : Bool) : UInt8 := if b then 1 else 0

/-- xproto/protobuf.go:42-46 and 60-62 `sizeVarint`/`sizeVarint64` of a 64-bit value (also the inlined
copies at any.go:70, expr.go:58,72). The Go argument is a `uint`, so at most 2^64-1; a larger number (the
length of a list that cannot be a Go slice) counts as 2^64-1. -/
def sizeVarint (x : Nat) : Nat := (9 * bitLen (min x (2 ^ 64 - 1)) + 64) / 64

/-- xproto/protobuf.go:52-54 `sizeVarint16` (also any.go:44). -/
def sizeVarint16 (x : Nat) : Nat := (9 * bitLen (x % 2 ^ 16) + 64) / 64

/-- xproto/protobuf.go:56-58 `sizeVarint32` (also any.go:56). -/
def sizeVarint32 (x : Nat) : Nat := (9 * bitLen (x % 2 ^ 32) + 64) / 64

/-- xproto/protobuf.go:64-70 `putUvarint(s[i:], uint64(x))`; returns the slice and the number of bytes
written.  The single byte fast path is the first iteration of the loop. -/
def putUvarint (s : Slice) (i : Nat) (x : Nat) : M (Slice × Nat) := do
  let x := x % 2 ^ 64
  if x < 0x80 then
    let s ← setAt s i (UInt8.ofNat x)
    .ok (s, 1)
  else
    let (s, j) ← putUvarintLoop 10 s i x
    .ok (s, j - i)

/-- `byte(x>>k)|0x80` -/
def cont (x k : Nat) : UInt8 := UInt8.ofNat (x >>> k) ||| 0x80

/-- The ten bytes `byte(x)|0x80, .., byte(x>>49)|0x80, byte(x>>56), 1` of any.go:75-76, 133-134,
expr.go:63-64, 77-78, 430-431. -/
def unrolled64 (x : Nat) : Bytes :=
  [cont x 0, cont x 7, cont x 14, cont x 21, cont x 28, cont x 35, cont x 42, cont x 49,
   UInt8.ofNat (x >>> 56), 1]

/-- The ten bytes `byte(x)|0x80, .., byte(x>>56)|0x80, 1` of protobuf.go:75-76, 85-86, xproto.go:31-32. -/
def unrolled64' (x : Nat) : Bytes :=
  [cont x 0, cont x 7, cont x 14, cont x 21, cont x 28, cont x 35, cont x 42, cont x 49,
   cont x 56, 1]

/-- The five bytes of any.go:61, 118, expr.go:419, prepare.go:53, 75, expect.go:44, 48. -/
def unrolled32 (x : Nat) : Bytes :=
  [cont x 0, cont x 7, cont x 14, cont x 21, UInt8.ofNat (x >>> 28)]

/-- The three bytes of any.go:49, 105. -/
def unrolled16 (x : Nat) : Bytes :=
  [cont x 0, cont x 7, UInt8.ofNat (x >>> 14)]

/-- `tag<<3|wireBytes` (wireBytes = 2, protobuf.go:12). -/
def keyBytes (tag : UInt8) : UInt8 := tag <<< 3 ||| 2

/-- `tag<<3|wireVarint` (wireVarint = 0, protobuf.go:10). -/
def keyVarint (tag : UInt8) : UInt8 := tag <<< 3 ||| 0

/-- `tag<<3|wireFixed64` (wireFixed64 = 1, protobuf.go:11). -/
def keyFixed64 (tag : UInt8) : UInt8 := tag <<< 3 ||| 1

/-- `tag<<3|wireFixed32` (wireFixed32 = 5, protobuf.go:15). -/
def keyFixed32 (tag : UInt8) : UInt8 := tag <<< 3 ||| 5

/-- xproto/protobuf.go:72-80 `appendWireString`; lines 82-90 `appendWireBytes` are the same code for
`[]byte`. -/
def appendWireString (g : Grow) (p : Slice) (tag : UInt8) (value : Bytes) : M Slice := do
  let x := value.length
  let n := sizeVarint x
  let p ← append g p (keyBytes tag :: unrolled64' x)
  let n := n + p.len - 10
  let p ← setAnd p (n - 1) 0x7F
  let p ← reslice p n
  append g p value

end Verif.Model
