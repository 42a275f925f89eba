import Verif.Go.Slice
/-!
Protobuf wire format reader, written from the protobuf encoding documentation
(https://protobuf.dev/programming-guides/encoding/), independent of the encoders in /repo.
-/
namespace Verif.Spec
open Verif.Go

/-- Base-128 varint, least significant group first, at most `fuel` bytes. -/
def readVarintAux : Nat → Bytes → Option (Nat × Bytes)
  | 0, _ => none
  | _, [] => none
  | f + 1, b :: bs =>
    if b.toNat < 128 then some (b.toNat, bs)
    else
      match readVarintAux f bs with
      | some (v, rest) => some (b.toNat - 128 + 128 * v, rest)
      | none => none

/-- A varint: at most ten bytes and a value that fits 64 bits. -/
def readVarint (bs : Bytes) : Option (Nat × Bytes) :=
  match readVarintAux 10 bs with
  | some (v, rest) => if v < 2 ^ 64 then some (v, rest) else none
  | none => none

/-- Little-endian number of exactly `n` bytes. -/
def readFixed : Nat → Bytes → Option (Nat × Bytes)
  | 0, bs => some (0, bs)
  | _ + 1, [] => none
  | n + 1, b :: bs =>
    match readFixed n bs with
    | some (v, rest) => some (b.toNat + 256 * v, rest)
    | none => none

/-- Exactly `n` bytes. -/
def readN (n : Nat) (bs : Bytes) : Option (Bytes × Bytes) :=
  if n ≤ bs.length then some (bs.take n, bs.drop n) else none

inductive WireVal where
  | varint (v : Nat)
  | fixed64 (v : Nat)
  | bytes (b : Bytes)
  | fixed32 (v : Nat)
  deriving DecidableEq, Repr

/-- Field number and value. -/
abbrev Field := Nat × WireVal

/-- One field: key varint (number <<3 | wire type) and value. Groups are rejected. -/
def readField (bs : Bytes) : Option (Field × Bytes) :=
  match readVarint bs with
  | none => none
  | some (key, bs) =>
    if key / 8 = 0 ∨ 2 ^ 29 ≤ key / 8 then none
    else
      match key % 8 with
      | 0 => match readVarint bs with
             | some (v, rest) => some ((key / 8, .varint v), rest)
             | none => none
      | 1 => match readFixed 8 bs with
             | some (v, rest) => some ((key / 8, .fixed64 v), rest)
             | none => none
      | 2 => match readVarint bs with
             | some (n, rest) =>
               match readN n rest with
               | some (b, rest) => some ((key / 8, .bytes b), rest)
               | none => none
             | none => none
      | 5 => match readFixed 4 bs with
             | some (v, rest) => some ((key / 8, .fixed32 v), rest)
             | none => none
      | _ => none

def readFieldsAux : Nat → Bytes → Option (List Field)
  | _, [] => some []
  | 0, _ :: _ => none
  | f + 1, b :: bs =>
    match readField (b :: bs) with
    | none => none
    | some (fld, rest) =>
      match readFieldsAux f rest with
      | none => none
      | some fs => some (fld :: fs)

/-- All fields of a message, in order, nothing left over. (Every field takes at least one byte, so the
length is enough fuel.) -/
def readFields (bs : Bytes) : Option (List Field) := readFieldsAux bs.length bs

/-- The zigzag mapping of sint64. -/
def unzigzag (n : Nat) : Int := if n % 2 = 0 then (n / 2 : Int) else -((n / 2 : Int) + 1)

/-- Every field number occurring is one of `ts`. -/
def onlyTags (ts : List Nat) (fs : List Field) : Bool := fs.all fun f => ts.contains f.1

/-- Values of the fields numbered `t`, in order. -/
def many (fs : List Field) (t : Nat) : List WireVal :=
  (fs.filter fun f => f.1 == t).map Prod.snd

/-- The value of a field that must not be repeated: `none` if it is, `some none` if absent. -/
def single (fs : List Field) (t : Nat) : Option (Option WireVal) :=
  match many fs t with
  | [] => some none
  | [v] => some (some v)
  | _ => none

/-- A required length-delimited field. -/
def reqBytes (fs : List Field) (t : Nat) : Option Bytes :=
  match single fs t with
  | some (some (.bytes b)) => some b
  | _ => none

/-- A required varint field. -/
def reqVarint (fs : List Field) (t : Nat) : Option Nat :=
  match single fs t with
  | some (some (.varint v)) => some v
  | _ => none

/-- An optional varint field. -/
def optVarint (fs : List Field) (t : Nat) : Option (Option Nat) :=
  match single fs t with
  | some none => some none
  | some (some (.varint v)) => some (some v)
  | _ => none

/-- An optional length-delimited field. -/
def optBytes (fs : List Field) (t : Nat) : Option (Option Bytes) :=
  match single fs t with
  | some none => some none
  | some (some (.bytes b)) => some (some b)
  | _ => none

/-- All values must be length-delimited. -/
def allBytes : List WireVal → Option (List Bytes)
  | [] => some []
  | .bytes b :: vs => match allBytes vs with
    | some bs => some (b :: bs)
    | none => none
  | _ :: _ => none

/-- A repeated length-delimited field. -/
def repBytes (fs : List Field) (t : Nat) : Option (List Bytes) := allBytes (many fs t)

end Verif.Spec
