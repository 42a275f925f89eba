import Verif.Model.Messages
/-! Model of `CapabilitySet`, /repo/xproto/authentication.go:22-46. -/
namespace Verif.Model
open Verif.Go

/-- Base-128 varints as golang/protobuf writes them (library contract, trusted). -/
def pbVarint (x : Nat) : Bytes :=
  if x < 128 then [UInt8.ofNat x] else UInt8.ofNat (x % 128 + 128) :: pbVarint (x / 128)
termination_by x

/-- What a generated message holds: its set fields by field number. -/
inductive PbVal where
  | varint (n : Nat)
  | bytes (b : Bytes)
  | message (fields : List (Nat × PbVal))

mutual
/-- `proto.Marshal` of golang/protobuf: the set fields in ascending order (library contract, trusted). -/
def pbMarshal : List (Nat × PbVal) → Bytes
  | [] => []
  | f :: fs => pbField f ++ pbMarshal fs
def pbField : Nat × PbVal → Bytes
  | (t, .varint n) => pbVarint (t * 8) ++ pbVarint n
  | (t, .bytes b) => pbVarint (t * 8 + 2) ++ (pbVarint b.length ++ b)
  | (t, .message fs) => pbVarint (t * 8 + 2) ++ (pbVarint (pbMarshal fs).length ++ pbMarshal fs)
end

/-- The message built in authentication.go:23-35. Field numbers from the struct tags of the generated code
(/repo/protobuf/mysqlx_connection, mysqlx_datatypes): CapabilitiesSet.capabilities = 1,
Capabilities.capabilities = 1, Capability {name = 1, value = 2}, Any {type = 1, scalar = 2},
Scalar {type = 1, v_bool = 8}; Any_SCALAR = 1, Scalar_V_BOOL = 7. -/
def capabilitiesMessage (name : Bytes) (enable : Bool) : List (Nat × PbVal) :=
  [(1, .message [(1, .message [(1, .bytes name), (2, .message [(1, .varint 1),
    (2, .message [(1, .varint 7), (8, .varint (if enable then 1 else 0))])])])])]

/-- authentication.go:37-45.  `proto.Size` is the length of what `Marshal` writes (library contract).  `Marshal` appends
to `b[:5]`, which writes into `b` if the capacity suffices; if it did not, `b` would keep its zeroes.  `make` beyond the
allocation limit panics; counted as running out of memory.  The marshalling error cannot happen (all required fields
are set, proto2 strings are not validated). -/
def capabilitySet (name : Bytes) (enable : Bool) : M Bytes := do
  let m := pbMarshal (capabilitiesMessage name enable)
  let n := m.length
  if maxAlloc < 5 + n then .error .oom
  else
    let b : Slice := ⟨List.replicate (5 + n) 0, []⟩
    let b ← putUint32 b 0 (n + 1)
    let b ← setAt b 4 2
    let head ← reslice b 5
    if m.length ≤ head.spare.length then .ok (head.data ++ m ++ head.spare.drop m.length)
    else .ok b.data

end Verif.Model
