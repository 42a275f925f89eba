import Verif.Spec.Mysqlx
import Verif.Model.Value
/-! What it means that an encoder has written one value. -/
namespace Verif.Spec
open Verif.Go Verif.Model

/-- `bs` is one protobuf field with number `tag` holding a mysqlx Any that is the scalar `s`. -/
def AnyField (tag : Nat) (bs : Bytes) (s : PScalar) : Prop :=
  ∃ body, readFields bs = some [(tag, .bytes body)] ∧ decodeAny body = some s

/-- `bs` is one protobuf field with number `tag` holding the mysqlx expression `e`. -/
def ExprField (tag : Nat) (bs : Bytes) (e : PExpr) : Prop :=
  ∃ body, readFields bs = some [(tag, .bytes body)] ∧ decodeExpr body = some e

/-- The call neither panics nor reports an error: unless memory runs out it leaves the buffer's contents in
place and appends some bytes `bs` with property `P`. -/
def Writes (r : M (Slice × Option Err)) (p : Slice) (P : Bytes → Prop) : Prop :=
  r = .error .oom ∨ ∃ bs sp, r = .ok (⟨p.data ++ bs, sp⟩, none) ∧ P bs

/-- The bytes written, if the call succeeded (for examples). -/
def written (r : M (Slice × Option Err)) : Option Bytes :=
  match r with
  | .ok (q, none) => some q.data
  | _ => none

/-- Field numbers whose key is one byte (the only ones the library uses). -/
def SmallTag (tag : UInt8) : Prop := 1 ≤ tag.toNat ∧ tag.toNat ≤ 15

end Verif.Spec
