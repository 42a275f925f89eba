import Verif.Spec.Mysqlx
import Verif.Model.Value
/-! What the Go values mean, independent of the encoders. -/
namespace Verif.Spec
open Verif.Go Verif.Model

/-- Two decimal digits. -/
def two (n : Nat) : Bytes := [UInt8.ofNat (48 + n / 10), UInt8.ofNat (48 + n % 10)]

/-- MySQL TIME literal `[-]H:MM:SS` of a duration in nanoseconds, truncated toward zero to whole seconds.  Negative durations shorter than a
second keep their sign, as `-0:00:00`. -/
def durationText (ns : Int) : Bytes :=
  let a := ns.natAbs / 1000000000
  (if ns < 0 then [45] else []) ++ decimal (a / 3600) ++ 58 :: (two (a / 60 % 60) ++ 58 :: two (a % 60))

/-- Collation / content type: zero means not transmitted. -/
def optNonZero (n : Nat) : Option Nat := if n = 0 then none else some n

/-- Octets with optional content type; a nil slice is NULL. -/
def octetsOrNull (b : Option Bytes) (ct : Nat) : PScalar :=
  match b with
  | none => .null
  | some b => .octets b (optNonZero ct)

/-- The scalar a Go value stands for (values that are neither pointers nor expressions). The text of
durations and times is a parameter. -/
def plainScalar (dt : BitVec 64 → Bytes) (tt : GoTime → Bytes) : Val → Option PScalar
  | .nil => some .null
  | .bool b => some (.bool b)
  | .int8 v => some (.sint v.toInt)
  | .int16 v => some (.sint v.toInt)
  | .int32 v => some (.sint v.toInt)
  | .int64 v => some (.sint v.toInt)
  | .int v => some (.sint v.toInt)
  | .uint8 v => some (.uint v.toNat)
  | .uint16 v => some (.uint v.toNat)
  | .uint32 v => some (.uint v.toNat)
  | .uint64 v => some (.uint v.toNat)
  | .uint v => some (.uint v.toNat)
  | .str s => some (.string s none)
  | .bytes b => some (octetsOrNull b 0)
  | .float32 x => some (.float x.toNat)
  | .float64 x => some (.double x.toNat)
  | .time t => some (.octets (tt t) none)
  | .duration d => some (.octets (dt d) none)
  | .strColl s c => some (.string s (optNonZero c.toNat))
  | .xml b => some (octetsOrNull b 3)
  | .xmlStr s => some (.octets s (some 3))
  | .json b => some (octetsOrNull b 2)
  | .jsonStr s => some (.octets s (some 2))
  | .geometry b => some (octetsOrNull b 1)
  | _ => none

/-- The scalar a statement argument stands for. Pointers stand for what they point to, nil pointers for
NULL; a pointer to a nil interface is not supported by the library (`none`), nor is a nil pointer to one of
the library's own wrapper types. -/
def argScalarOf (dt : BitVec 64 → Bytes) (tt : GoTime → Bytes) : Val → Option PScalar
  | .ptr .nil => none
  | .ptr v => argScalarOf dt tt v
  | .nilPtr false => some .null
  | v => plainScalar dt tt v

/-- Nil pointers to the library's own wrapper types (at any pointer depth): the library panics on them. -/
def argPanics : Val → Bool
  | .nilPtr b => b
  | .ptr v => argPanics v
  | _ => false

/-- The library's own wrapper types (expr.go:11-86); pointers to them are accepted as expressions. -/
def isWrapper : Val → Bool
  | .strColl .. | .xml _ | .xmlStr _ | .json _ | .jsonStr _ | .geometry _ => true
  | _ => false

mutual
/-- The expression a Go value stands for. -/
def exprOf (dt : BitVec 64 → Bytes) (tt : GoTime → Bytes) : Val → Option PExpr
  | .column name => some (.ident name)
  | .variable name => some (.variable name)
  | .placeholder pos => some (.placeholder pos.toNat)
  | .op name ps => (exprsOf dt tt ps).map (.operator name)
  | .call name ps => (exprsOf dt tt ps).map (.funcCall name)
  | .ptr v => if isWrapper v then exprOf dt tt v else none
  | v => (plainScalar dt tt v).map .literal
def exprsOf (dt : BitVec 64 → Bytes) (tt : GoTime → Bytes) : List Val → Option (List PExpr)
  | [] => some []
  | v :: vs =>
    match exprOf dt tt v, exprsOf dt tt vs with
    | some e, some es => some (e :: es)
    | _, _ => none
end

/-- What the library sends for a duration: its text, except that the smallest duration (-2^63 ns, about -292
years, text "-2562047:47:16") is garbled (C07). -/
def libDur (d : BitVec 64) : Bytes :=
  if d = BitVec.intMin 64 then ascii "-18446744073706989569:29:00" else durationText d.toInt

/-- What the library's arguments and expressions stand for on the wire. -/
def argMeaning : Val → Option PScalar := argScalarOf libDur fmtTime
def exprMeaning : Val → Option PExpr := exprOf libDur fmtTime

end Verif.Spec
