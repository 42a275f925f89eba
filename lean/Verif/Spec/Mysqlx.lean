import Verif.Spec.Wire
/-!
Strict readers for the X Protocol messages, written from the .proto files in /repo/protobuf (not from the
encoders): unknown fields, repeated singular fields, missing required fields, value fields not belonging
to the declared type, out of range enums/bools and trailing bytes are all rejected.  Field order is free.
-/
namespace Verif.Spec
open Verif.Go

/-- mysqlx_datatypes.Scalar. Strings carry an optional collation, octets an optional content type, floats
their IEEE bits. -/
inductive PScalar where
  | sint (v : Int)
  | uint (v : Nat)
  | null
  | octets (value : Bytes) (contentType : Option Nat)
  | double (bits : Nat)
  | float (bits : Nat)
  | bool (b : Bool)
  | string (value : Bytes) (collation : Option Nat)
  deriving DecidableEq, Repr

/-- mysqlx_datatypes.Scalar.String {value = 1 required, collation = 2} -/
def decodeString (bs : Bytes) : Option PScalar :=
  match readFields bs with
  | some fs =>
    if onlyTags [1, 2] fs then
      match reqBytes fs 1, optVarint fs 2 with
      | some v, some c => some (.string v c)
      | _, _ => none
    else none
  | none => none

/-- mysqlx_datatypes.Scalar.Octets {value = 1 required, content_type = 2 (uint32)} -/
def decodeOctets (bs : Bytes) : Option PScalar :=
  match readFields bs with
  | some fs =>
    if onlyTags [1, 2] fs then
      match reqBytes fs 1, optVarint fs 2 with
      | some v, some none => some (.octets v none)
      | some v, some (some c) => if c < 2 ^ 32 then some (.octets v (some c)) else none
      | _, _ => none
    else none
  | none => none

/-- mysqlx_datatypes.Scalar {type = 1, v_signed_int = 2, v_unsigned_int = 3, v_octets = 5, v_double = 6,
v_float = 7, v_bool = 8, v_string = 9}; types V_SINT = 1 .. V_STRING = 8. -/
def decodeScalar (bs : Bytes) : Option PScalar :=
  match readFields bs with
  | none => none
  | some fs =>
    match reqVarint fs 1 with
    | some 1 => if onlyTags [1, 2] fs then (reqVarint fs 2).map fun n => .sint (unzigzag n) else none
    | some 2 => if onlyTags [1, 3] fs then (reqVarint fs 3).map .uint else none
    | some 3 => if onlyTags [1] fs then some .null else none
    | some 4 => if onlyTags [1, 5] fs then (reqBytes fs 5).bind decodeOctets else none
    | some 5 => if onlyTags [1, 6] fs then
        match single fs 6 with
        | some (some (.fixed64 v)) => some (.double v)
        | _ => none
      else none
    | some 6 => if onlyTags [1, 7] fs then
        match single fs 7 with
        | some (some (.fixed32 v)) => some (.float v)
        | _ => none
      else none
    | some 7 => if onlyTags [1, 8] fs then
        match reqVarint fs 8 with
        | some 0 => some (.bool false)
        | some 1 => some (.bool true)
        | _ => none
      else none
    | some 8 => if onlyTags [1, 9] fs then (reqBytes fs 9).bind decodeString else none
    | _ => none

/-- mysqlx_datatypes.Any {type = 1, scalar = 2, ...} holding a SCALAR(1). -/
def decodeAny (bs : Bytes) : Option PScalar :=
  match readFields bs with
  | none => none
  | some fs =>
    if onlyTags [1, 2] fs && reqVarint fs 1 == some 1 then (reqBytes fs 2).bind decodeScalar else none

/-- mysqlx_expr.Expr, the kinds this library can produce. An identifier is a column name without
document path, table or schema; a function name is without schema. -/
inductive PExpr where
  | ident (name : Bytes)
  | literal (s : PScalar)
  | variable (name : Bytes)
  | funcCall (name : Bytes) (params : List PExpr)
  | operator (name : Bytes) (params : List PExpr)
  | placeholder (pos : Nat)
  deriving Repr

/-- Apply a reader to every element. -/
def decodeAll {α : Type} (d : Bytes → Option α) : List Bytes → Option (List α)
  | [] => some []
  | b :: bs =>
    match d b, decodeAll d bs with
    | some x, some xs => some (x :: xs)
    | _, _ => none

/-- mysqlx_expr.ColumnIdentifier {document_path = 1, name = 2, table_name = 3, schema_name = 4} with
nothing but a name. -/
def decodeColumnIdentifier (bs : Bytes) : Option Bytes :=
  match readFields bs with
  | none => none
  | some fs => if onlyTags [2] fs then reqBytes fs 2 else none

/-- mysqlx_expr.Identifier {name = 1, schema_name = 2} with nothing but a name. -/
def decodeIdentifier (bs : Bytes) : Option Bytes :=
  match readFields bs with
  | none => none
  | some fs => if onlyTags [1] fs then reqBytes fs 1 else none

/-- mysqlx_expr.Expr {type = 1, identifier = 2, variable = 3, literal = 4, function_call = 5, operator = 6,
position = 7, ...}; types IDENT = 1, LITERAL = 2, VARIABLE = 3, FUNC_CALL = 4, OPERATOR = 5,
PLACEHOLDER = 6.  FunctionCall {name = 1 Identifier, param = 2}; Operator {name = 1, param = 2}.
The fuel bounds the nesting depth. -/
def decodeExprAux : Nat → Bytes → Option PExpr
  | 0, _ => none
  | fuel + 1, bs =>
    match readFields bs with
    | none => none
    | some fs =>
      match reqVarint fs 1 with
      | some 1 => if onlyTags [1, 2] fs then
          ((reqBytes fs 2).bind decodeColumnIdentifier).map .ident else none
      | some 2 => if onlyTags [1, 4] fs then ((reqBytes fs 4).bind decodeScalar).map .literal else none
      | some 3 => if onlyTags [1, 3] fs then (reqBytes fs 3).map .variable else none
      | some 4 => if onlyTags [1, 5] fs then
          match (reqBytes fs 5).bind readFields with
          | none => none
          | some gs =>
            if onlyTags [1, 2] gs then
              match (reqBytes gs 1).bind decodeIdentifier,
                    (repBytes gs 2).bind (decodeAll (decodeExprAux fuel)) with
              | some name, some ps => some (.funcCall name ps)
              | _, _ => none
            else none
        else none
      | some 5 => if onlyTags [1, 6] fs then
          match (reqBytes fs 6).bind readFields with
          | none => none
          | some gs =>
            if onlyTags [1, 2] gs then
              match reqBytes gs 1, (repBytes gs 2).bind (decodeAll (decodeExprAux fuel)) with
              | some name, some ps => some (.operator name ps)
              | _, _ => none
            else none
        else none
      | some 6 => if onlyTags [1, 7] fs then
          match reqVarint fs 7 with
          | some n => if n < 2 ^ 32 then some (.placeholder n) else none
          | none => none
        else none
      | _ => none

/-- The nesting depth is less than the number of bytes. -/
def decodeExpr (bs : Bytes) : Option PExpr := decodeExprAux (bs.length + 1) bs

mutual
/-- All variable names of an expression are shorter than 124 bytes (what the library can encode, C24). -/
def varsShort : PExpr → Bool
  | .variable name => decide (name.length < 124)
  | .funcCall _ ps => varsShorts ps
  | .operator _ ps => varsShorts ps
  | _ => true
def varsShorts : List PExpr → Bool
  | [] => true
  | e :: es => varsShort e && varsShorts es
end

end Verif.Spec
