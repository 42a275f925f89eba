import Verif.Model.Value
/-! Model of /repo/xproto/any.go (encoding of statement arguments as `mysqlx_datatypes.Any`). -/
namespace Verif.Model
open Verif.Go

/-- The first eight bytes of the integer encodings, any.go:30-34, 45-49, ...:
`tag<<3|2, total, Any.type, SCALAR(1), Any.scalar, n, Scalar.type, scalarType, Scalar.<field>`. -/
def anyHead (tag : UInt8) (total inner scalarType fieldKey : UInt8) : Bytes :=
  [keyBytes tag, total, keyVarint 1, 1, keyBytes 2, inner, keyVarint 1, scalarType, fieldKey]

/-- any.go:28-41 -/
def appendAnyUint8 (g : Grow) (p : Slice) (tag : UInt8) (x : BitVec 8) : M Slice :=
  if x.toNat < 0x80 then
    append g p (anyHead tag 8 4 2 (keyVarint 3) ++ [UInt8.ofNat x.toNat])
  else
    append g p (anyHead tag 9 5 2 (keyVarint 3) ++ [UInt8.ofNat x.toNat, 1])

/-- any.go:43-53 -/
def appendAnyUint16 (g : Grow) (p : Slice) (tag : UInt8) (x : BitVec 16) : M Slice := do
  let n := sizeVarint16 x.toNat
  let p ← append g p (anyHead tag (7 + UInt8.ofNat n) (3 + UInt8.ofNat n) 2 (keyVarint 3) ++ unrolled16 x.toNat)
  let n := n + p.len - 3
  let p ← setAnd p (n - 1) 0x7F
  reslice p n

/-- any.go:55-65 -/
def appendAnyUint32 (g : Grow) (p : Slice) (tag : UInt8) (x : BitVec 32) : M Slice := do
  let n := sizeVarint32 x.toNat
  let p ← append g p (anyHead tag (7 + UInt8.ofNat n) (3 + UInt8.ofNat n) 2 (keyVarint 3) ++ unrolled32 x.toNat)
  let n := n + p.len - 5
  let p ← setAnd p (n - 1) 0x7F
  reslice p n

/-- any.go:69-80 -/
def appendAnyUint64 (g : Grow) (p : Slice) (tag : UInt8) (x : BitVec 64) : M Slice := do
  let n := sizeVarint x.toNat
  let p ← append g p (anyHead tag (7 + UInt8.ofNat n) (3 + UInt8.ofNat n) 2 (keyVarint 3) ++ unrolled64 x.toNat)
  let n := n + p.len - 10
  let p ← setAnd p (n - 1) 0x7F
  reslice p n

/-- any.go:82-96 -/
def appendAnyInt8 (g : Grow) (p : Slice) (tag : UInt8) (v : BitVec 8) : M Slice :=
  let x := zigzag v
  if x.toNat < 0x80 then
    append g p (anyHead tag 8 4 1 (keyVarint 2) ++ [UInt8.ofNat x.toNat])
  else
    append g p (anyHead tag 9 5 1 (keyVarint 2) ++ [UInt8.ofNat x.toNat, 1])

/-- any.go:98-109 -/
def appendAnyInt16 (g : Grow) (p : Slice) (tag : UInt8) (v : BitVec 16) : M Slice := do
  let x := zigzag v
  let n := sizeVarint16 x.toNat
  let p ← append g p (anyHead tag (7 + UInt8.ofNat n) (3 + UInt8.ofNat n) 1 (keyVarint 2) ++ unrolled16 x.toNat)
  let n := n + p.len - 3
  let p ← setAnd p (n - 1) 0x7F
  reslice p n

/-- any.go:111-122 -/
def appendAnyInt32 (g : Grow) (p : Slice) (tag : UInt8) (v : BitVec 32) : M Slice := do
  let x := zigzag v
  let n := sizeVarint32 x.toNat
  let p ← append g p (anyHead tag (7 + UInt8.ofNat n) (3 + UInt8.ofNat n) 1 (keyVarint 2) ++ unrolled32 x.toNat)
  let n := n + p.len - 5
  let p ← setAnd p (n - 1) 0x7F
  reslice p n

/-- any.go:126-138 -/
def appendAnyInt64 (g : Grow) (p : Slice) (tag : UInt8) (v : BitVec 64) : M Slice := do
  let x := zigzag v
  let n := sizeVarint x.toNat
  let p ← append g p (anyHead tag (7 + UInt8.ofNat n) (3 + UInt8.ofNat n) 1 (keyVarint 2) ++ unrolled64 x.toNat)
  let n := n + p.len - 10
  let p ← setAnd p (n - 1) 0x7F
  reslice p n

/-- any.go:335-340 -/
def appendAnyNull (g : Grow) (p : Slice) (tag : UInt8) : M Slice :=
  append g p [keyBytes tag, 6, keyVarint 1, 1, keyBytes 2, 2, keyVarint 1, 3]

/-- The common body of any.go:146-181 (`AppendAnyBytes`, non-nil), 187-222 (`AppendAnyBytesString`) and
228-260 (`AppendAnyString`): same statements, the scalar's type byte, its field and the meaning of the
optional extra varint (content type / collation) differ.  `b` is `p[o:]`. `extra` is the content type or
collation, zero meaning none. -/
def appendAnyText (p : Slice) (tag : UInt8) (s : Bytes) (extra : Nat) (scalarType fieldKey : UInt8) :
    M Slice := do
  let n := s.length
  let n0 := 1 + sizeVarint n + n
  let n0 := if extra ≠ 0 then n0 + (1 + sizeVarint extra) else n0
  let n1 := 3 + sizeVarint n0 + n0
  let n2 := 3 + sizeVarint n1 + n1
  let o := p.len
  let p ← forAppend p (1 + sizeVarint n2 + n2)
  let (p, i) ← putUvarint p (o + 1) n2
  let p ← setAt p o (keyBytes tag)
  let o := o + (1 + i)
  -- Any
  let (p, i) ← putUvarint p (o + 3) n1
  let p ← setAt p o (keyVarint 1)
  let p ← setAt p (o + 1) 1
  let p ← setAt p (o + 2) (keyBytes 2)
  let o := o + (3 + i)
  -- Scalar
  let (p, i) ← putUvarint p (o + 3) n0
  let p ← setAt p o (keyVarint 1)
  let p ← setAt p (o + 1) scalarType
  let p ← setAt p (o + 2) fieldKey
  let o := o + (3 + i)
  -- Scalar_Octets / Scalar_String
  let (p, o) ← if extra ≠ 0 then do
      let (p, i) ← putUvarint p (o + 1) extra
      let p ← setAt p o (keyVarint 2)
      pure (p, o + (1 + i))
    else pure (p, o)
  let (p, i) ← putUvarint p (o + 1) n
  let p ← setAt p o (keyBytes 1)
  let (p, _) ← copyAt p (o + (1 + i)) s
  .ok p

/-- any.go:142-182 `AppendAnyBytes` (V_OCTETS = 4, field 5) -/
def appendAnyBytes (g : Grow) (p : Slice) (tag : UInt8) (b : Option Bytes) (contentType : Nat) : M Slice :=
  match b with
  | none => appendAnyNull g p tag
  | some b => appendAnyText p tag b contentType 4 (keyBytes 5)

/-- any.go:186-223 `AppendAnyBytesString` -/
def appendAnyBytesString (p : Slice) (tag : UInt8) (s : Bytes) (contentType : Nat) : M Slice :=
  appendAnyText p tag s contentType 4 (keyBytes 5)

/-- any.go:227-261 `AppendAnyString` (V_STRING = 8, field 9) -/
def appendAnyString (p : Slice) (tag : UInt8) (s : Bytes) (collation : Nat) : M Slice :=
  appendAnyText p tag s collation 8 (keyBytes 9)

/-- The twelve bytes of any.go:267-272, 286-291. -/
def anyOctetsHead (tag : UInt8) : Bytes :=
  [keyBytes tag, 10, keyVarint 1, 1, keyBytes 2, 6, keyVarint 1, 4, keyBytes 5, 2, keyBytes 1, 0]

/-- any.go:293-297 (and 277-281, expr.go:116-120, 132-136): add the text length to the four lengths. -/
def patchLengths (p : Slice) (i n : Nat) : M Slice := do
  let p ← setAdd p (i + 11) (UInt8.ofNat n)
  let p ← setAdd p (i + 9) (UInt8.ofNat n)
  let p ← setAdd p (i + 5) (UInt8.ofNat n)
  setAdd p (i + 1) (UInt8.ofNat n)

/-- any.go:263-282 -/
def appendAnyTime (g : Grow) (p : Slice) (tag : UInt8) (t : GoTime) : M Slice := do
  let i := p.len
  let p ← append g p (anyOctetsHead tag)
  let p ← append g p (fmtTime t)
  let n := p.len - i - 12
  if n ≥ 0x80 - 10 then .error .panic
  else patchLengths p i n

/-- any.go:284-298 -/
def appendAnyDuration (g : Grow) (p : Slice) (tag : UInt8) (d : BitVec 64) : M Slice := do
  let i := p.len
  let p ← append g p (anyOctetsHead tag)
  let p ← appendDuration g p d
  let n := p.len - i - 12
  patchLengths p i n

/-- any.go:302-310; `byte(x), byte(x>>8), ...` -/
def appendAnyFloat64 (g : Grow) (p : Slice) (tag : UInt8) (bits : BitVec 64) : M Slice :=
  let x := bits.toNat
  append g p ([keyBytes tag, 15, keyVarint 1, 1, keyBytes 2, 11, keyVarint 1, 5, keyFixed64 6,
    UInt8.ofNat x, UInt8.ofNat (x >>> 8), UInt8.ofNat (x >>> 16), UInt8.ofNat (x >>> 24),
    UInt8.ofNat (x >>> 32), UInt8.ofNat (x >>> 40), UInt8.ofNat (x >>> 48), UInt8.ofNat (x >>> 56)])

/-- any.go:314-321 -/
def appendAnyFloat32 (g : Grow) (p : Slice) (tag : UInt8) (bits : BitVec 32) : M Slice :=
  let x := bits.toNat
  append g p ([keyBytes tag, 11, keyVarint 1, 1, keyBytes 2, 7, keyVarint 1, 6, keyFixed32 7,
    UInt8.ofNat x, UInt8.ofNat (x >>> 8), UInt8.ofNat (x >>> 16), UInt8.ofNat (x >>> 24)])

/-- any.go:325-331 -/
def appendAnyBool (g : Grow) (p : Slice) (tag : UInt8) (b : Bool) : M Slice :=
  append g p [keyBytes tag, 8, keyVarint 1, 1, keyBytes 2, 4, keyVarint 1, 7, keyVarint 8, encodeBool b]

/-- Go `return f(..), nil` -/
def noErr (r : M Slice) : M (Slice × Option Err) := do
  let p ← r
  .ok (p, none)

/-- any.go:350-410, the type switch (reached with a nil interface only through a `*interface{}`). The
value-receiver methods of expr.go:16-82 (`AppendAny`) are inlined; content types are GEOMETRY = 1,
JSON = 2, XML = 3 (scalar.go:12-17). -/
def appendAnySwitch (g : Grow) (p : Slice) (tag : UInt8) : Val → M (Slice × Option Err)
  | .int v => noErr (appendAnyInt64 g p tag v)
  | .int8 v => noErr (appendAnyInt8 g p tag v)
  | .int16 v => noErr (appendAnyInt16 g p tag v)
  | .int32 v => noErr (appendAnyInt32 g p tag v)
  | .int64 v => noErr (appendAnyInt64 g p tag v)
  | .uint v => noErr (appendAnyUint64 g p tag v)
  | .uint8 v => noErr (appendAnyUint8 g p tag v)
  | .uint16 v => noErr (appendAnyUint16 g p tag v)
  | .uint32 v => noErr (appendAnyUint32 g p tag v)
  | .uint64 v => noErr (appendAnyUint64 g p tag v)
  | .str s => noErr (appendAnyString p tag s 0)
  | .bytes b => noErr (appendAnyBytes g p tag b 0)
  | .bool b => noErr (appendAnyBool g p tag b)
  | .float32 x => noErr (appendAnyFloat32 g p tag x)
  | .float64 x => noErr (appendAnyFloat64 g p tag x)
  | .time t => noErr (appendAnyTime g p tag t)
  | .duration d => noErr (appendAnyDuration g p tag d)
  -- default: AppendAny implementations of expr.go
  | .strColl s c => noErr (appendAnyString p tag s c.toNat)
  | .xml b => noErr (appendAnyBytes g p tag b 3)
  | .xmlStr s => noErr (appendAnyBytesString p tag s 3)
  | .json b => noErr (appendAnyBytes g p tag b 2)
  | .jsonStr s => noErr (appendAnyBytesString p tag s 2)
  | .geometry b => noErr (appendAnyBytes g p tag b 1)
  -- default: reflect.Ptr.  A nil pointer whose type implements AppendAny through a value receiver is
  -- caught by the interface test first and panics when the method is called.
  | .nilPtr true => .error .panic
  | .nilPtr false => noErr (appendAnyNull g p tag)
  | .ptr v => appendAnySwitch g p tag v
  -- default: anything else
  | .nil | .column _ | .op _ _ | .call _ _ | .variable _ | .placeholder _ | .nilFn | .other =>
    .ok (Slice.nil, some .unsupportedType)

/-- any.go:346-411 `appendAny` -/
def appendAny (g : Grow) (p : Slice) (tag : UInt8) (v : Val) : M (Slice × Option Err) :=
  match v with
  | .nil => noErr (appendAnyNull g p tag)
  | v => appendAnySwitch g p tag v

end Verif.Model
