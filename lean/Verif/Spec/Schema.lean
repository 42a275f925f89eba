import Verif.Spec.Message
import Verif.Spec.SchemaTable
/-! A reader of protobuf messages that knows nothing of this library: it follows the declarations of the .proto files
(`SchemaTable`) and yields the values under the names given there. -/
namespace Verif.Spec.Schema
open Verif.Go Verif.Spec

/-- What a message says: values under names.  Floating point values as their IEEE bits. -/
inductive Tree where
  | nat (n : Nat)
  | int (i : Int)
  | bool (b : Bool)
  | bits (n : Nat)
  | bytes (b : Bytes)
  | enum (name : String)
  | msg (fs : List (String × List Tree))

/-- A message with these fields; a field without value is absent. -/
def record (fs : List (String × List Tree)) : Tree := .msg (fs.filter fun f => !f.2.isEmpty)

/-- `f` of each, if all have one. -/
def each {α β : Type} (f : α → Option β) : List α → Option (List β)
  | [] => some []
  | a :: as =>
    match f a, each f as with
    | some b, some bs => some (b :: bs)
    | _, _ => none

/-- A value of a type; `sub` reads messages.  The reader of varints has already rejected more than 64 bits.  Strings are
not checked to be UTF-8 (the server's proto2 parser does not). -/
def readValue (sub : Msg → Bytes → Option Tree) : Ty → WireVal → Option Tree
  | .uint64, .varint n => some (.nat n)
  | .uint32, .varint n => if n < 2 ^ 32 then some (.nat n) else none
  | .sint64, .varint n => some (.int (unzigzag n))
  | .bool, .varint n => if n = 0 then some (.bool false) else if n = 1 then some (.bool true) else none
  | .double, .fixed64 n => some (.bits n)
  | .float, .fixed32 n => some (.bits n)
  | .string, .bytes b => some (.bytes b)
  | .bytes, .bytes b => some (.bytes b)
  | .enum e, .varint n => ((values e).lookup n).map .enum
  | .msg m, .bytes b => sub m b
  | _, _ => none

/-- How often a field may occur.  (A field that is not repeated must not occur twice; protobuf would take the last.) -/
def allowed : Label → Nat → Bool
  | .required, n => n == 1
  | .optional, n => n ≤ 1
  | .repeated, _ => true

/-- The values of a declared field. -/
def readDecl (sub : Msg → Bytes → Option Tree) (fs : List Field) (d : Decl) : Option (String × List Tree) :=
  match each (readValue sub d.ty) (many fs d.num) with
  | some vs => if allowed d.label vs.length then some (d.name, vs) else none
  | none => none

/-- A message: declared fields only, each of its type and as often as its label allows.  The fuel bounds the nesting. -/
def readTree : Nat → Msg → Bytes → Option Tree
  | 0, _, _ => none
  | fuel + 1, m, bs =>
    match readFields bs with
    | none => none
    | some fs =>
      if onlyTags ((fields m).map Decl.num) fs then (each (readDecl (readTree fuel) fs) (fields m)).map record else none

/-- A client message of a type, by its type number.  A message is nested less deeply than it is long. -/
def readMessage (type : UInt8) (bs : Bytes) : Option (Msg × Tree) :=
  match clientMessage type.toNat with
  | some m => (readTree (bs.length + 1) m bs).map (m, ·)
  | none => none

/-- The messages of a byte stream. -/
def readStream (bs : Bytes) : Option (List (Msg × Tree)) := (readFrames bs).bind (each fun fr => readMessage fr.1 fr.2)

/-! ### what the messages say, in terms of the names of the .proto files -/

/-- mysqlx_datatypes.proto:38-73 -/
def scalarTree : PScalar → Tree
  | .sint v => record [("type", [.enum "V_SINT"]), ("v_signed_int", [.int v])]
  | .uint v => record [("type", [.enum "V_UINT"]), ("v_unsigned_int", [.nat v])]
  | .null => record [("type", [.enum "V_NULL"])]
  | .octets v ct => record [("type", [.enum "V_OCTETS"]), ("v_octets", [record [("value", [.bytes v]), ("content_type", ct.toList.map .nat)]])]
  | .double n => record [("type", [.enum "V_DOUBLE"]), ("v_double", [.bits n])]
  | .float n => record [("type", [.enum "V_FLOAT"]), ("v_float", [.bits n])]
  | .bool b => record [("type", [.enum "V_BOOL"]), ("v_bool", [.bool b])]
  | .string v c => record [("type", [.enum "V_STRING"]), ("v_string", [record [("value", [.bytes v]), ("collation", c.toList.map .nat)]])]

/-- mysqlx_datatypes.proto:97-109 -/
def anyTree (s : PScalar) : Tree := record [("type", [.enum "SCALAR"]), ("scalar", [scalarTree s])]

mutual
/-- mysqlx_expr.proto:73-95 -/
def exprTree : PExpr → Tree
  | .ident name => record [("type", [.enum "IDENT"]), ("identifier", [record [("name", [.bytes name])]])]
  | .literal s => record [("type", [.enum "LITERAL"]), ("literal", [scalarTree s])]
  | .variable name => record [("type", [.enum "VARIABLE"]), ("variable", [.bytes name])]
  | .funcCall name ps =>
    record [("type", [.enum "FUNC_CALL"]), ("function_call", [record [("name", [record [("name", [.bytes name])]]), ("param", exprTrees ps)]])]
  | .operator name ps => record [("type", [.enum "OPERATOR"]), ("operator", [record [("name", [.bytes name]), ("param", exprTrees ps)]])]
  | .placeholder n => record [("type", [.enum "PLACEHOLDER"]), ("position", [.nat n])]
def exprTrees : List PExpr → List Tree
  | [] => []
  | e :: es => exprTree e :: exprTrees es
end

/-- mysqlx_crud.proto:70-73 -/
def modelTree : Option Nat → List Tree
  | some 1 => [.enum "DOCUMENT"]
  | some 2 => [.enum "TABLE"]
  | _ => []

/-- mysqlx_expect.proto:74-80 -/
def opTree : Nat → Tree
  | 0 => .enum "EXPECT_CTX_COPY_PREV"
  | _ => .enum "EXPECT_CTX_EMPTY"

/-- The message and what it says. -/
def messageTree : ClientMsg → Msg × Tree
  | .stmtExecute stmt args => (.Sql_StmtExecute, record [("stmt", [.bytes stmt]), ("args", args.map anyTree)])
  | .prepare id stmt => (.Prepare_Prepare, record [("stmt_id", [.nat id]),
      ("stmt", [record [("type", [.enum "STMT"]), ("stmt_execute", [record [("stmt", [.bytes stmt])]])]])])
  | .execute id args => (.Prepare_Execute, record [("stmt_id", [.nat id]), ("args", args.map anyTree)])
  | .deallocate id => (.Prepare_Deallocate, record [("stmt_id", [.nat id])])
  | .insert table dm cols rows => (.Crud_Insert, record [("collection", [record [("name", [.bytes table])]]), ("data_model", modelTree dm),
      ("projection", cols.map fun c => record [("name", [.bytes c])]), ("row", rows.map fun r => record [("field", r.map exprTree)])])
  | .update table dm crit sets => (.Crud_Update, record [("collection", [record [("name", [.bytes table])]]), ("data_model", modelTree dm),
      ("criteria", crit.toList.map exprTree),
      ("operation", sets.map fun s => record [("source", [record [("name", [.bytes s.1])]]), ("operation", [.enum "SET"]), ("value", [exprTree s.2])])])
  | .delete table dm crit => (.Crud_Delete, record [("collection", [record [("name", [.bytes table])]]), ("data_model", modelTree dm),
      ("criteria", crit.toList.map exprTree)])
  | .expectOpen op conds => (.Expect_Open, record [("op", [opTree op]),
      ("cond", conds.map fun c => record [("condition_key", [.nat c.1]), ("condition_value", [.bytes c.2])])])
  | .expectClose => (.Expect_Close, record [])
  | .reset keep => (.Session_Reset, record [("keep_open", keep.toList.map .bool)])
  | .authStart mech data => (.Session_AuthenticateStart, record [("mech_name", [.bytes mech]), ("auth_data", data.toList.map .bytes)])
  | .authContinue data => (.Session_AuthenticateContinue, record [("auth_data", [.bytes data])])
  | .capabilitiesSet caps => (.Connection_CapabilitiesSet, record [("capabilities",
      [record [("capabilities", caps.map fun c => record [("name", [.bytes c.1]), ("value", [anyTree c.2])])]])])

end Verif.Spec.Schema
