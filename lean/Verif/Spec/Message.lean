import Verif.Spec.Mysqlx
/-! Strict readers for whole client messages and for the frame stream, written from the .proto files in
/repo/protobuf and the X Protocol framing (length including the type byte, little endian; type byte). -/
namespace Verif.Spec
open Verif.Go

/-- Client messages. `dataModel`: DOCUMENT = 1, TABLE = 2, absent. -/
inductive ClientMsg where
  | stmtExecute (stmt : Bytes) (args : List PScalar)
  | prepare (id : Nat) (stmt : Bytes)
  | execute (id : Nat) (args : List PScalar)
  | deallocate (id : Nat)
  | insert (table : Bytes) (dataModel : Option Nat) (columns : List Bytes) (rows : List (List PExpr))
  | update (table : Bytes) (dataModel : Option Nat) (criteria : Option PExpr) (sets : List (Bytes × PExpr))
  | delete (table : Bytes) (dataModel : Option Nat) (criteria : Option PExpr)
  | expectOpen (op : Nat) (conds : List (Nat × Bytes))
  | expectClose
  | reset (keepOpen : Option Bool)
  | authStart (mechanism : Bytes) (data : Option Bytes)
  | authContinue (data : Bytes)
  | capabilitiesSet (caps : List (Bytes × PScalar))
  deriving Repr

/-- mysqlx_sql.StmtExecute {stmt = 1, args = 2, namespace = 3, compact_metadata = 4}; only SQL text and
arguments are accepted, so the default namespace "sql" applies. -/
def decodeStmtExecute (bs : Bytes) : Option ClientMsg :=
  match readFields bs with
  | none => none
  | some fs =>
    if onlyTags [1, 2] fs then
      match reqBytes fs 1, (repBytes fs 2).bind (decodeAll decodeAny) with
      | some s, some as => some (.stmtExecute s as)
      | _, _ => none
    else none

/-- A uint32 field. -/
def reqUint32 (fs : List Field) (t : Nat) : Option Nat :=
  match reqVarint fs t with
  | some n => if n < 2 ^ 32 then some n else none
  | none => none

/-- The statement of a Prepare.OneOfMessage {type = 1, ..., stmt_execute = 6} of type STMT = 5 without
arguments. -/
def decodeOneOf (bs : Bytes) : Option Bytes :=
  match readFields bs with
  | none => none
  | some fs =>
    if onlyTags [1, 6] fs && reqVarint fs 1 == some 5 then
      match (reqBytes fs 6).bind decodeStmtExecute with
      | some (.stmtExecute s []) => some s
      | _ => none
    else none

/-- mysqlx_prepare.Prepare {stmt_id = 1, stmt = 2} -/
def decodePrepare (bs : Bytes) : Option ClientMsg :=
  match readFields bs with
  | none => none
  | some fs =>
    if onlyTags [1, 2] fs then
      match reqUint32 fs 1, (reqBytes fs 2).bind decodeOneOf with
      | some id, some s => some (.prepare id s)
      | _, _ => none
    else none

/-- mysqlx_prepare.Execute {stmt_id = 1, args = 2, compact_metadata = 3} -/
def decodeExecute (bs : Bytes) : Option ClientMsg :=
  match readFields bs with
  | none => none
  | some fs =>
    if onlyTags [1, 2] fs then
      match reqUint32 fs 1, (repBytes fs 2).bind (decodeAll decodeAny) with
      | some id, some as => some (.execute id as)
      | _, _ => none
    else none

/-- mysqlx_prepare.Deallocate {stmt_id = 1} -/
def decodeDeallocate (bs : Bytes) : Option ClientMsg :=
  match readFields bs with
  | none => none
  | some fs => if onlyTags [1] fs then (reqUint32 fs 1).map .deallocate else none

/-- A message with the single field `name = 1`: Collection without schema, Column without alias and
document path. -/
def decodeName (bs : Bytes) : Option Bytes :=
  match readFields bs with
  | none => none
  | some fs => if onlyTags [1] fs then reqBytes fs 1 else none

/-- DataModel -/
def optDataModel (fs : List Field) (t : Nat) : Option (Option Nat) :=
  match optVarint fs t with
  | some none => some none
  | some (some n) => if n = 1 ∨ n = 2 then some (some n) else none
  | none => none

/-- An optional expression. -/
def optExpr (fs : List Field) (t : Nat) : Option (Option PExpr) :=
  match optBytes fs t with
  | some none => some none
  | some (some b) => (decodeExpr b).map some
  | none => none

/-- mysqlx_crud.Insert.TypedRow {field = 1} -/
def decodeRow (bs : Bytes) : Option (List PExpr) :=
  match readFields bs with
  | none => none
  | some fs => if onlyTags [1] fs then (repBytes fs 1).bind (decodeAll decodeExpr) else none

/-- mysqlx_crud.Insert {collection = 1, data_model = 2, projection = 3, row = 4, ...} -/
def decodeInsert (bs : Bytes) : Option ClientMsg :=
  match readFields bs with
  | none => none
  | some fs =>
    if onlyTags [1, 2, 3, 4] fs then
      match (reqBytes fs 1).bind decodeName, optDataModel fs 2,
        (repBytes fs 3).bind (decodeAll decodeName), (repBytes fs 4).bind (decodeAll decodeRow) with
      | some t, some dm, some cs, some rs => some (.insert t dm cs rs)
      | _, _, _, _ => none
    else none

/-- mysqlx_crud.UpdateOperation {source = 1, operation = 2, value = 3} of type SET = 1. -/
def decodeSet (bs : Bytes) : Option (Bytes × PExpr) :=
  match readFields bs with
  | none => none
  | some fs =>
    if onlyTags [1, 2, 3] fs && reqVarint fs 2 == some 1 then
      match (reqBytes fs 1).bind decodeColumnIdentifier, (reqBytes fs 3).bind decodeExpr with
      | some c, some e => some (c, e)
      | _, _ => none
    else none

/-- mysqlx_crud.Update {collection = 2, data_model = 3, criteria = 4, operation = 7, ...} -/
def decodeUpdate (bs : Bytes) : Option ClientMsg :=
  match readFields bs with
  | none => none
  | some fs =>
    if onlyTags [2, 3, 4, 7] fs then
      match (reqBytes fs 2).bind decodeName, optDataModel fs 3, optExpr fs 4,
        (repBytes fs 7).bind (decodeAll decodeSet) with
      | some t, some dm, some c, some ops => some (.update t dm c ops)
      | _, _, _, _ => none
    else none

/-- mysqlx_crud.Delete {collection = 1, data_model = 2, criteria = 3, ...} -/
def decodeDelete (bs : Bytes) : Option ClientMsg :=
  match readFields bs with
  | none => none
  | some fs =>
    if onlyTags [1, 2, 3] fs then
      match (reqBytes fs 1).bind decodeName, optDataModel fs 2, optExpr fs 3 with
      | some t, some dm, some c => some (.delete t dm c)
      | _, _, _ => none
    else none

/-- mysqlx_expect.Open.Condition {condition_key = 1, condition_value = 2, op = 3}; the default operation
(set) only. -/
def decodeCond (bs : Bytes) : Option (Nat × Bytes) :=
  match readFields bs with
  | none => none
  | some fs =>
    if onlyTags [1, 2] fs then
      match reqUint32 fs 1, reqBytes fs 2 with
      | some k, some v => some (k, v)
      | _, _ => none
    else none

/-- mysqlx_expect.Open {op = 1 (COPY_PREV = 0, EMPTY = 1), cond = 2} -/
def decodeExpectOpen (bs : Bytes) : Option ClientMsg :=
  match readFields bs with
  | none => none
  | some fs =>
    if onlyTags [1, 2] fs then
      match reqVarint fs 1, (repBytes fs 2).bind (decodeAll decodeCond) with
      | some op, some cs => if op ≤ 1 then some (.expectOpen op cs) else none
      | _, _ => none
    else none

/-- mysqlx_session.Reset {keep_open = 1} -/
def decodeReset (bs : Bytes) : Option ClientMsg :=
  match readFields bs with
  | none => none
  | some fs =>
    if onlyTags [1] fs then
      match optVarint fs 1 with
      | some none => some (.reset none)
      | some (some 0) => some (.reset (some false))
      | some (some 1) => some (.reset (some true))
      | _ => none
    else none

/-- mysqlx_session.AuthenticateStart {mech_name = 1, auth_data = 2, initial_response = 3} -/
def decodeAuthStart (bs : Bytes) : Option ClientMsg :=
  match readFields bs with
  | none => none
  | some fs =>
    if onlyTags [1, 2] fs then
      match reqBytes fs 1, optBytes fs 2 with
      | some m, some d => some (.authStart m d)
      | _, _ => none
    else none

/-- mysqlx_session.AuthenticateContinue {auth_data = 1} -/
def decodeAuthContinue (bs : Bytes) : Option ClientMsg :=
  match readFields bs with
  | none => none
  | some fs => if onlyTags [1] fs then (reqBytes fs 1).map .authContinue else none

/-- mysqlx_connection.Capability {name = 1, value = 2} -/
def decodeCapability (bs : Bytes) : Option (Bytes × PScalar) :=
  match readFields bs with
  | none => none
  | some fs =>
    if onlyTags [1, 2] fs then
      match reqBytes fs 1, (reqBytes fs 2).bind decodeAny with
      | some n, some v => some (n, v)
      | _, _ => none
    else none

/-- mysqlx_connection.Capabilities {capabilities = 1} -/
def decodeCapabilities (bs : Bytes) : Option (List (Bytes × PScalar)) :=
  match readFields bs with
  | none => none
  | some fs => if onlyTags [1] fs then (repBytes fs 1).bind (decodeAll decodeCapability) else none

/-- mysqlx_connection.CapabilitiesSet {capabilities = 1} -/
def decodeCapabilitiesSet (bs : Bytes) : Option ClientMsg :=
  match readFields bs with
  | none => none
  | some fs =>
    if onlyTags [1] fs then ((reqBytes fs 1).bind decodeCapabilities).map .capabilitiesSet else none

/-- ClientMessages.Type of /repo/protobuf/mysqlx/mysqlx.pb.go -/
def decodeMsg (type : UInt8) (bs : Bytes) : Option ClientMsg :=
  match type.toNat with
  | 2 => decodeCapabilitiesSet bs
  | 4 => decodeAuthStart bs
  | 5 => decodeAuthContinue bs
  | 6 => decodeReset bs
  | 12 => decodeStmtExecute bs
  | 18 => decodeInsert bs
  | 19 => decodeUpdate bs
  | 20 => decodeDelete bs
  | 24 => decodeExpectOpen bs
  | 25 => match bs with
    | [] => some .expectClose
    | _ => none
  | 40 => decodePrepare bs
  | 41 => decodeExecute bs
  | 42 => decodeDeallocate bs
  | _ => none

/-- One frame: 4 byte length of type and payload, type, payload. -/
def readFrame (bs : Bytes) : Option ((UInt8 × Bytes) × Bytes) :=
  match readFixed 4 bs with
  | none => none
  | some (n, bs) =>
    match readN n bs with
    | some (t :: payload, rest) => some ((t, payload), rest)
    | _ => none

def readFramesAux : Nat → Bytes → Option (List (UInt8 × Bytes))
  | _, [] => some []
  | 0, _ :: _ => none
  | f + 1, b :: bs =>
    match readFrame (b :: bs) with
    | none => none
    | some (fr, rest) =>
      match readFramesAux f rest with
      | none => none
      | some frs => some (fr :: frs)

/-- The frames of a byte stream, nothing left over. -/
def readFrames (bs : Bytes) : Option (List (UInt8 × Bytes)) := readFramesAux bs.length bs

/-- The messages of a byte stream. -/
def decodeStream (bs : Bytes) : Option (List ClientMsg) :=
  (readFrames bs).bind fun frs =>
    frs.foldr (fun fr acc =>
      match decodeMsg fr.1 fr.2, acc with
      | some m, some ms => some (m :: ms)
      | _, _ => none) (some [])

end Verif.Spec
