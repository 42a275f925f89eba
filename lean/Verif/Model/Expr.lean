import Verif.Model.Any
/-! Model of /repo/xproto/expr.go (encoding of `mysqlx_expr.Expr`). -/
namespace Verif.Model
open Verif.Go

/-- expr.go:42-47 -/
def appendExprNull (g : Grow) (p : Slice) (tag : UInt8) : M Slice :=
  append g p [keyBytes tag, 6, keyVarint 1, 2, keyBytes 4, 2, keyVarint 1, 3]

/-- expr.go:49-55 -/
def appendExprBool (g : Grow) (p : Slice) (tag : UInt8) (b : Bool) : M Slice :=
  append g p [keyBytes tag, 8, keyVarint 1, 2, keyBytes 4, 4, keyVarint 1, 7, keyVarint 8, encodeBool b]

/-- expr.go:57-68 -/
def appendExprUint64 (g : Grow) (p : Slice) (tag : UInt8) (x : BitVec 64) : M Slice := do
  let n := sizeVarint x.toNat
  let p ← append g p ([keyBytes tag, 7 + UInt8.ofNat n, keyVarint 1, 2, keyBytes 4, 3 + UInt8.ofNat n,
    keyVarint 1, 2, keyVarint 3] ++ unrolled64 x.toNat)
  let n := n + p.len - 10
  let p ← setAnd p (n - 1) 0x7F
  reslice p n

/-- expr.go:70-82 -/
def appendExprInt64 (g : Grow) (p : Slice) (tag : UInt8) (v : BitVec 64) : M Slice := do
  let x := zigzag v
  let n := sizeVarint x.toNat
  let p ← append g p ([keyBytes tag, 7 + UInt8.ofNat n, keyVarint 1, 2, keyBytes 4, 3 + UInt8.ofNat n,
    keyVarint 1, 1, keyVarint 2] ++ unrolled64 x.toNat)
  let n := n + p.len - 10
  let p ← setAnd p (n - 1) 0x7F
  reslice p n

/-- expr.go:84-91 -/
def appendExprFloat32 (g : Grow) (p : Slice) (tag : UInt8) (bits : BitVec 32) : M Slice :=
  let x := bits.toNat
  append g p ([keyBytes tag, 11, keyVarint 1, 2, keyBytes 4, 7, keyVarint 1, 6, keyFixed32 7,
    UInt8.ofNat x, UInt8.ofNat (x >>> 8), UInt8.ofNat (x >>> 16), UInt8.ofNat (x >>> 24)])

/-- expr.go:93-101 -/
def appendExprFloat64 (g : Grow) (p : Slice) (tag : UInt8) (bits : BitVec 64) : M Slice :=
  let x := bits.toNat
  append g p ([keyBytes tag, 15, keyVarint 1, 2, keyBytes 4, 11, keyVarint 1, 5, keyFixed64 6,
    UInt8.ofNat x, UInt8.ofNat (x >>> 8), UInt8.ofNat (x >>> 16), UInt8.ofNat (x >>> 24),
    UInt8.ofNat (x >>> 32), UInt8.ofNat (x >>> 40), UInt8.ofNat (x >>> 48), UInt8.ofNat (x >>> 56)])

/-- The twelve bytes of expr.go:106-111, 125-130. -/
def exprOctetsHead (tag : UInt8) : Bytes :=
  [keyBytes tag, 10, keyVarint 1, 2, keyBytes 4, 6, keyVarint 1, 4, keyBytes 5, 2, keyBytes 1, 0]

/-- expr.go:103-121 -/
def appendExprTime (g : Grow) (p : Slice) (tag : UInt8) (t : GoTime) : M Slice := do
  let i := p.len
  let p ← append g p (exprOctetsHead tag)
  let p ← append g p (fmtTime t)
  let n := p.len - i - 12
  if n + 10 ≥ 0x80 then .error .panic
  else patchLengths p i n

/-- expr.go:123-137 -/
def appendExprDuration (g : Grow) (p : Slice) (tag : UInt8) (d : BitVec 64) : M Slice := do
  let i := p.len
  let p ← append g p (exprOctetsHead tag)
  let p ← appendDuration g p d
  let n := p.len - i - 12
  patchLengths p i n

/-- The common body of expr.go:140-174 (`AppendExprString`), 181-216 (`AppendExprBytes`, non-nil) and
220-255 (`AppendExprBytesString`).  (Lines 171-172 set the key before the length; the order of the two
writes to disjoint bytes is the only other difference.) `b` is `p[o:]`. -/
def appendExprText (p : Slice) (tag : UInt8) (s : Bytes) (extra : Nat) (scalarType fieldKey : UInt8) :
    M Slice := do
  let n := s.length
  let n0 := 1 + sizeVarint n + n
  let n0 := if extra ≠ 0 then n0 + (1 + sizeVarint extra) else n0
  let n1 := 3 + sizeVarint n0 + n0
  let n2 := 3 + sizeVarint n1 + n1
  let o := p.len
  let p ← forAppend p (1 + sizeVarint n2 + n2)
  let (p, i) ← putUvarint p (o + 1) n2
  let p ← setAt p o (keyBytes tag)
  let o := o + (1 + i)
  -- Expr
  let (p, i) ← putUvarint p (o + 3) n1
  let p ← setAt p o (keyVarint 1)
  let p ← setAt p (o + 1) 2
  let p ← setAt p (o + 2) (keyBytes 4)
  let o := o + (3 + i)
  -- Scalar
  let (p, i) ← putUvarint p (o + 3) n0
  let p ← setAt p o (keyVarint 1)
  let p ← setAt p (o + 1) scalarType
  let p ← setAt p (o + 2) fieldKey
  let o := o + (3 + i)
  -- Scalar_String / Scalar_Octets
  let (p, o) ← if extra ≠ 0 then do
      let (p, i) ← putUvarint p (o + 1) extra
      let p ← setAt p o (keyVarint 2)
      pure (p, o + (1 + i))
    else pure (p, o)
  let (p, i) ← putUvarint p (o + 1) n
  let p ← setAt p o (keyBytes 1)
  let (p, _) ← copyAt p (o + (1 + i)) s
  .ok p

/-- expr.go:139-175 -/
def appendExprString (p : Slice) (tag : UInt8) (s : Bytes) (collation : Nat) : M Slice :=
  appendExprText p tag s collation 8 (keyBytes 9)

/-- expr.go:177-217 -/
def appendExprBytes (g : Grow) (p : Slice) (tag : UInt8) (b : Option Bytes) (contentType : Nat) : M Slice :=
  match b with
  | none => appendExprNull g p tag
  | some b => appendExprText p tag b contentType 4 (keyBytes 5)

/-- expr.go:219-256 -/
def appendExprBytesString (p : Slice) (tag : UInt8) (s : Bytes) (contentType : Nat) : M Slice :=
  appendExprText p tag s contentType 4 (keyBytes 5)

/-- expr.go:326-344, the part of `AppendExprOperator` after the parameters were appended at `p[i:]`. -/
def wrapOperator (g : Grow) (p : Slice) (i : Nat) (tag : UInt8) (name : Bytes) : M Slice := do
  let nParams := p.len - i
  let nOperator := 1 + sizeVarint name.length + name.length + nParams
  let nExpr := 3 + sizeVarint nOperator + nOperator
  let p ← sliceInsert g p i (1 + sizeVarint nExpr + nExpr - nParams)
  let p ← setAt p i (keyBytes tag)
  let i := i + 1
  let (p, k) ← putUvarint p i nExpr
  let i := i + k
  let p ← setAt p i (keyVarint 1)
  let i := i + 1
  let p ← setAt p i 5
  let i := i + 1
  let p ← setAt p i (keyBytes 6)
  let i := i + 1
  let (p, k) ← putUvarint p i nOperator
  let i := i + k
  let p ← setAt p i (keyBytes 1)
  let i := i + 1
  let (p, k) ← putUvarint p i name.length
  let i := i + k
  let (p, _) ← copyAt p i name
  .ok p

/-- expr.go:366-390, the part of `AppendExprFunctionCall` after the parameters were appended. -/
def wrapFunctionCall (g : Grow) (p : Slice) (i : Nat) (tag : UInt8) (name : Bytes) : M Slice := do
  let nParams := p.len - i
  let nIdentifier := 1 + sizeVarint name.length + name.length
  let nFuncCall := 1 + sizeVarint nIdentifier + nIdentifier + nParams
  let nExpr := 3 + sizeVarint nFuncCall + nFuncCall
  let p ← sliceInsert g p i (1 + sizeVarint nExpr + nExpr - nParams)
  let p ← setAt p i (keyBytes tag)
  let i := i + 1
  let (p, k) ← putUvarint p i nExpr
  let i := i + k
  let p ← setAt p i (keyVarint 1)
  let i := i + 1
  let p ← setAt p i 4
  let i := i + 1
  let p ← setAt p i (keyBytes 5)
  let i := i + 1
  let (p, k) ← putUvarint p i nFuncCall
  let i := i + k
  let p ← setAt p i (keyBytes 1)
  let i := i + 1
  let (p, k) ← putUvarint p i nIdentifier
  let i := i + k
  let p ← setAt p i (keyBytes 1)
  let i := i + 1
  let (p, k) ← putUvarint p i name.length
  let i := i + k
  let (p, _) ← copyAt p i name
  .ok p

/-- expr.go:393-413 -/
def appendExprColumn (p : Slice) (tag : UInt8) (name : Bytes) : M Slice := do
  let n := name.length
  let n0 := 1 + sizeVarint n + n
  let n1 := 3 + sizeVarint n0 + n0
  let o := p.len
  let p ← forAppend p (1 + sizeVarint n1 + n1)
  let p ← setAt p o (keyBytes tag)
  let (p, k) ← putUvarint p (o + 1) n1
  let i := o + 1 + k
  let p ← setAt p i (keyVarint 1)
  let i := i + 1
  let p ← setAt p i 1
  let i := i + 1
  let p ← setAt p i (keyBytes 2)
  let i := i + 1
  let (p, k) ← putUvarint p i n0
  let i := i + k
  let p ← setAt p i (keyBytes 2)
  let i := i + 1
  let (p, k) ← putUvarint p i n
  let i := i + k
  let (p, _) ← copyAt p i name
  .ok p

/-- expr.go:415-423 -/
def appendExprPlaceholder (g : Grow) (p : Slice) (tag : UInt8) (pos : BitVec 32) : M Slice := do
  let n := sizeVarint32 pos.toNat
  let p ← append g p ([keyBytes tag, 3 + UInt8.ofNat n, keyVarint 1, 6, keyVarint 7] ++ unrolled32 pos.toNat)
  let n := n + p.len - 5
  let p ← setAnd p (n - 1) 0x7F
  reslice p n

/-- expr.go:425-435; `byte(n+x)` truncates. -/
def appendExprVariable (g : Grow) (p : Slice) (tag : UInt8) (name : Bytes) : M Slice := do
  let x := name.length
  let n := sizeVarint x
  let p ← append g p ([keyBytes tag, 3 + UInt8.ofNat (n + x), keyVarint 1, 3, keyBytes 3] ++ unrolled64 x)
  let n := n + p.len - 10
  let p ← setAnd p (n - 1) 0x7F
  let p ← reslice p n
  append g p name

mutual

/-- expr.go:264-311 `appendExpr`. Closures of type `AppendExprFunc` are called (line 304): operators and
function calls are expr.go:317-345 and 351-391. The value-receiver `AppendExpr` methods of
/repo/expr.go:20-86 are inlined. -/
def appendExpr (g : Grow) (p : Slice) (tag : UInt8) : Val → M (Slice × Option Err)
  | .nil => noErr (appendExprNull g p tag)
  | .bool b => noErr (appendExprBool g p tag b)
  | .int8 v => noErr (appendExprInt64 g p tag (v.signExtend 64))
  | .int16 v => noErr (appendExprInt64 g p tag (v.signExtend 64))
  | .int32 v => noErr (appendExprInt64 g p tag (v.signExtend 64))
  | .int64 v => noErr (appendExprInt64 g p tag v)
  | .int v => noErr (appendExprInt64 g p tag v)
  | .uint8 v => noErr (appendExprUint64 g p tag (v.zeroExtend 64))
  | .uint16 v => noErr (appendExprUint64 g p tag (v.zeroExtend 64))
  | .uint32 v => noErr (appendExprUint64 g p tag (v.zeroExtend 64))
  | .uint64 v => noErr (appendExprUint64 g p tag v)
  | .uint v => noErr (appendExprUint64 g p tag v)
  | .str s => noErr (appendExprString p tag s 0)
  | .bytes b => noErr (appendExprBytes g p tag b 0)
  | .float32 x => noErr (appendExprFloat32 g p tag x)
  | .float64 x => noErr (appendExprFloat64 g p tag x)
  | .time t => noErr (appendExprTime g p tag t)
  | .duration d => noErr (appendExprDuration g p tag d)
  -- case AppendExprFunc
  | .column name => noErr (appendExprColumn p tag name)
  | .variable name => noErr (appendExprVariable g p tag name)
  | .placeholder pos => noErr (appendExprPlaceholder g p tag pos)
  | .op name ps => do
    let i := p.len
    let (p, err) ← appendParams g p 0 ps
    match err with
    | some e => .ok (p, some e)
    | none => noErr (wrapOperator g p i tag name)
  | .call name ps => do
    let i := p.len
    let (p, err) ← appendParams g p 0 ps
    match err with
    | some e => .ok (p, some e)
    | none => noErr (wrapFunctionCall g p i tag name)
  | .nilFn => .error .panic
  -- default: AppendExpr implementations of /repo/expr.go, also through a pointer
  | .strColl s c => noErr (appendExprString p tag s c.toNat)
  | .xml b => noErr (appendExprBytes g p tag b 3)
  | .xmlStr s => noErr (appendExprBytesString p tag s 3)
  | .json b => noErr (appendExprBytes g p tag b 2)
  | .jsonStr s => noErr (appendExprBytesString p tag s 2)
  | .geometry b => noErr (appendExprBytes g p tag b 1)
  | .ptr v => if v.isAppender then appendExpr g p tag v else .ok (p, some .unknownType)
  | .nilPtr true => .error .panic
  | .nilPtr false => .ok (p, some .unknownType)
  | .other => .ok (p, some .unknownType)

/-- The loops expr.go:319-325 and 359-365 (both with tag 2), from parameter `j` on. -/
def appendParams (g : Grow) (p : Slice) (j : Nat) : List Val → M (Slice × Option Err)
  | [] => .ok (p, none)
  | v :: vs => do
    let (p, err) ← appendExpr g p 2 v
    match err with
    | some e => .ok (p, some (.param j e))
    | none => appendParams g p (j + 1) vs

end

end Verif.Model
