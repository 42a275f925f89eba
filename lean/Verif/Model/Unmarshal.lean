import Verif.Model.Connection
/-! `proto.Unmarshal` of github.com/golang/protobuf v1.4.0 (go.mod:7) for the three messages that `Read` looks into
(/repo/netx/connection/connection.go:157, 165, 193).  The library is not part of /repo; this is its contract, written
from its documentation, as a value of the parameter `Codec` of the connection model.  Nothing in Verif.Model depends on
it; it serves to discharge the hypotheses on `Codec`. -/
namespace Verif.Model.Pb
open Verif.Go

/-- protowire.ConsumeVarint: groups of seven bits, least significant first; the tenth byte must be 0 or 1. -/
def varintFrom (i acc : Nat) : Bytes → Option (Nat × Bytes)
  | [] => none
  | b :: bs =>
    if i = 9 then if b.toNat < 2 then some (acc + b.toNat <<< 63, bs) else none
    else if b.toNat < 128 then some (acc + b.toNat <<< (7 * i), bs)
    else varintFrom (i + 1) (acc + (b.toNat - 128) <<< (7 * i)) bs

def consumeVarint (bs : Bytes) : Option (Nat × Bytes) := varintFrom 0 0 bs

/-- protowire.ConsumeBytes -/
def consumeBytes (bs : Bytes) : Option (Bytes × Bytes) :=
  match consumeVarint bs with
  | none => none
  | some (n, bs) => if n ≤ bs.length then some (bs.take n, bs.drop n) else none

mutual
/-- protowire.ConsumeFieldValue: skips the value of an unknown field of wire type `wt`.  The fuel bounds the nesting and
the number of fields; the length of the bytes is enough. -/
def skip : Nat → Nat → Nat → Bytes → Option Bytes
  | 0, _, _, _ => none
  | f + 1, num, wt, bs =>
    if wt = 0 then (consumeVarint bs).map Prod.snd
    else if wt = 1 then if 8 ≤ bs.length then some (bs.drop 8) else none
    else if wt = 2 then (consumeBytes bs).map Prod.snd
    else if wt = 3 then skipGroup f num bs
    else if wt = 5 then if 4 ≤ bs.length then some (bs.drop 4) else none
    else none
/-- The fields of a group up to its end. -/
def skipGroup : Nat → Nat → Bytes → Option Bytes
  | 0, _, _ => none
  | f + 1, num, bs =>
    match consumeVarint bs with
    | none => none
    | some (key, bs) =>
      if key / 8 = 0 ∨ 2 ^ 31 ≤ key / 8 then none
      else if key % 8 = 4 then if key / 8 = num then some bs else none
      else
        match skip f (key / 8) (key % 8) bs with
        | none => none
        | some bs => skipGroup f num bs
end

/-- A value stored in a field of the Go struct. -/
inductive Stored where
  | varint (n : Nat)
  | bytes (b : Bytes)
  deriving DecidableEq, Repr

/-- The assignments to fields that decoding makes, in order.  `known` gives the wire type of the declared fields (0 or
2 here; a field that comes with another one is treated as unknown).  Unknown fields are skipped (their bytes are kept,
which nothing looks at). -/
def scan (known : Nat → Option Nat) : Nat → Bytes → Option (List (Nat × Stored))
  | _, [] => some []
  | 0, _ :: _ => none
  | f + 1, b :: bs =>
    match consumeVarint (b :: bs) with
    | none => none
    | some (key, bs) =>
      if key / 8 = 0 ∨ 2 ^ 29 ≤ key / 8 then none
      else if known (key / 8) = some (key % 8) ∧ key % 8 = 0 then
        match consumeVarint bs with
        | none => none
        | some (v, bs) => (scan known f bs).map ((key / 8, .varint v) :: ·)
      else if known (key / 8) = some (key % 8) ∧ key % 8 = 2 then
        match consumeBytes bs with
        | none => none
        | some (v, bs) => (scan known f bs).map ((key / 8, .bytes v) :: ·)
      else
        match skip (bs.length + 1) (key / 8) (key % 8) bs with
        | none => none
        | some bs => scan known f bs

/-- The last assignment to a field. -/
def last (num : Nat) (fs : List (Nat × Stored)) : Option Stored := (fs.reverse.lookup num)

/-- mysqlx.proto:266-285: severity 1 (an enumeration), code 2, msg 3, sql_state 4. -/
def errorFields : Nat → Option Nat
  | 1 | 2 => some 0
  | 3 | 4 => some 2
  | _ => none

/-- mysqlx_resultset.proto:489-578 -/
def metaFields : Nat → Option Nat
  | 1 | 8 | 9 | 10 | 11 | 12 => some 0
  | 2 | 3 | 4 | 5 | 6 | 7 => some 2
  | _ => none

/-- mysqlx_session.proto:84-90 -/
def continueFields : Nat → Option Nat
  | 1 => some 2
  | _ => none

/-- Error: code, sql_state and msg are required; `GetSeverity` defaults to ERROR (0); numbers are cut to 32 bits. -/
def unmarshalError (bs : Bytes) : Option SrvError :=
  match scan errorFields bs.length bs with
  | none => none
  | some fs =>
    match last 2 fs, last 4 fs, last 3 fs with
    | some (.varint code), some (.bytes state), some (.bytes msg) =>
      let sev := match last 1 fs with
        | some (.varint s) => s % 2 ^ 32
        | _ => 0
      some ⟨sev, code % 2 ^ 32, state, msg⟩
    | _, _, _ => none

/-- ColumnMetaData: type is required. -/
def unmarshalMeta (bs : Bytes) : Bool :=
  match scan metaFields bs.length bs with
  | none => false
  | some fs => (last 1 fs).isSome

/-- AuthenticateContinue: auth_data is required. -/
def unmarshalContinue (bs : Bytes) : Option Bytes :=
  match scan continueFields bs.length bs with
  | none => none
  | some fs =>
    match last 1 fs with
    | some (.bytes b) => some b
    | _ => none

/-- golang/protobuf as decoder. -/
def codec : Codec := ⟨unmarshalError, unmarshalMeta, unmarshalContinue⟩

end Verif.Model.Pb
