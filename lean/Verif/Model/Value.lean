import Verif.Go.Strconv
import Verif.Model.Protobuf
/-! Go values that can be handed to the builder, and textual formatting of times and durations. -/
namespace Verif.Model
open Verif.Go

/-- A `time.Time` as seen by `AppendFormat` with layout "2006-01-02 15:04:05.000000000" (any.go:264,
expr.go:104): its civil date and clock reading in its own location.  Go guarantees 1 ≤ month ≤ 12 etc.;
the model only uses that the fields have at most two digits and the nanoseconds at most nine. The
location itself is not transmitted. -/
structure GoTime where
  year : BitVec 64
  month : Fin 100
  day : Fin 100
  hour : Fin 100
  min : Fin 100
  sec : Fin 100
  nsec : Fin 1000000000
  deriving DecidableEq, Repr

/-- Go values (`interface{}`) reaching `appendAny`/`appendExpr`.  Integers of Go type `int`/`uint` are
64 bit.  Floats are their IEEE bits.  `none` is a nil slice.

* `ptr v` is a non-nil pointer to a variable holding `v` (`ptr nil` is a `*interface{}` pointing to a
  nil interface).
* `nilPtr b` is a nil pointer; `b` tells whether the pointee type is one of the xtorm types with
  value-receiver `AppendAny`/`AppendExpr` methods (expr.go:16-86), which makes the pointer type
  implement the interfaces, too.
* `column`..`placeholder` are the `AppendExprFunc` closures built by expr.go, builder.go:151-153 and
  `xproto.AppendExprPlaceholder`; `nilFn` is a nil `AppendExprFunc`. Closures written by the user are not
  modelled.
* `other` is a value of any other type (named integer types, maps, ...). -/
inductive Val where
  | nil
  | bool (b : Bool)
  | int8 (v : BitVec 8)
  | int16 (v : BitVec 16)
  | int32 (v : BitVec 32)
  | int64 (v : BitVec 64)
  | int (v : BitVec 64)
  | uint8 (v : BitVec 8)
  | uint16 (v : BitVec 16)
  | uint32 (v : BitVec 32)
  | uint64 (v : BitVec 64)
  | uint (v : BitVec 64)
  | str (s : Bytes)
  | bytes (b : Option Bytes)
  | float32 (bits : BitVec 32)
  | float64 (bits : BitVec 64)
  | time (t : GoTime)
  | duration (d : BitVec 64)
  | strColl (s : Bytes) (collation : BitVec 64)
  | xml (b : Option Bytes)
  | xmlStr (s : Bytes)
  | json (b : Option Bytes)
  | jsonStr (s : Bytes)
  | geometry (b : Option Bytes)
  | column (name : Bytes)
  | op (name : Bytes) (params : List Val)
  | call (name : Bytes) (params : List Val)
  | variable (name : Bytes)
  | placeholder (pos : BitVec 32)
  | nilFn
  | ptr (v : Val)
  | nilPtr (appender : Bool)
  | other

/-- Go error values produced by the modelled code. -/
inductive Err where
  /-- any.go:408 -/
  | unsupportedType
  /-- expr.go:310 -/
  | unknownType
  /-- expr.go:323, 363 -/
  | param (j : Nat) (e : Err)
  /-- insert.go:68 -/
  | column (j : Nat) (e : Err)
  /-- builder.go:121 -/
  | rowLen (i expected got : Nat)
  /-- builder.go:212 -/
  | isolation
  /-- an error made by user code (returned from a callback) -/
  | user (n : Nat)
  deriving DecidableEq, Repr

/-- Does the (non-pointer) type of the value have `AppendAny`/`AppendExpr` methods (expr.go:11-86)? -/
def Val.isAppender : Val → Bool
  | .strColl .. | .xml _ | .xmlStr _ | .json _ | .jsonStr _ | .geometry _ => true
  | _ => false

/-- `n` in exactly `w` digits (library contract of `time.AppendFormat` for fields of fixed width). -/
def fixedDigits : Nat → Nat → Bytes
  | 0, _ => []
  | w + 1, n => fixedDigits w (n / 10) ++ [digit n]

/-- `n` with at least 4 digits, zero padded. -/
def pad4 (n : Nat) : Bytes := if n < 10000 then fixedDigits 4 n else decimal n

/-- The year as `time.AppendFormat` prints "2006": at least four digits, sign in front. -/
def fmtYear (y : Int) : Bytes :=
  if y < 0 then 45 :: pad4 y.natAbs else pad4 y.natAbs

/-- `t.AppendFormat(nil, "2006-01-02 15:04:05.000000000")` (library contract). -/
def fmtTime (t : GoTime) : Bytes :=
  fmtYear t.year.toInt ++ 45 :: (fixedDigits 2 t.month ++ 45 :: (fixedDigits 2 t.day ++ 32 ::
    (fixedDigits 2 t.hour ++ 58 :: (fixedDigits 2 t.min ++ 58 :: (fixedDigits 2 t.sec ++ 46 ::
      fixedDigits 9 t.nsec)))))

/-- scalar.go:40-45 `smallsString` -/
def smalls : Bytes := (List.range 60).flatMap fun k => [digit (k / 10), digit k]

/-- `smallsString[i]`; panics out of range. -/
def smallsAt (i : Nat) : M UInt8 :=
  match smalls[i]? with
  | some b => .ok b
  | none => .error .panic

/-- scalar.go:47-55 `AppendDuration`.  `d/time.Minute` etc. are signed (truncated) divisions of int64,
converted to unsigned; negation wraps. -/
def appendDuration (g : Grow) (p : Slice) (d : BitVec 64) : M Slice := do
  let (p, d) ← if d.toInt < 0 then do
      let p ← append g p [45]
      pure (p, -d)
    else pure (p, d)
  let i := 2 * ((d.sdiv 60000000000#64).toNat % 60)
  let j := 2 * ((d.sdiv 1000000000#64).toNat % 60)
  let p ← append g p (decimal (d.sdiv 3600000000000#64).toNat)
  let a ← smallsAt i
  let b ← smallsAt (i + 1)
  let c ← smallsAt j
  let e ← smallsAt (j + 1)
  append g p [58, a, b, 58, c, e]

/-- `(uintN(v) << 1) ^ uintN(v >> (N-1))`: any.go:83, 99, 112, 127, expr.go:71. -/
def zigzag {w : Nat} (v : BitVec w) : BitVec w := (v <<< 1) ^^^ v.sshiftRight (w - 1)

end Verif.Model
