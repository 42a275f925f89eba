import Verif.Spec.Wire
/-! Messages of the protobuf wire format with groups (wire types 3 and 4), which `readFields` refuses. -/
namespace Verif.Spec
open Verif.Go

/-- `bs`, what follows the start of group `num`: its fields, groups among them, and its end; then `rest`. -/
inductive Group : Nat → Bytes → Bytes → Prop
  | stop {num : Nat} {bs rest : Bytes} (h : readVarint bs = some (num * 8 + 4, rest)) : Group num bs rest
  | field {num : Nat} {bs bs' rest : Bytes} {f : Field} (h : readField bs = some (f, bs')) (hg : Group num bs' rest) : Group num bs rest
  | group {num m : Nat} {bs bs' bs'' rest : Bytes} (h : readVarint bs = some (m * 8 + 3, bs')) (hm : 0 < m ∧ m < 2 ^ 29)
      (hi : Group m bs' bs'') (hg : Group num bs'' rest) : Group num bs rest

/-- A message with the fields `fs`, and groups of any numbers between them. -/
inductive Mixed : Bytes → List Field → Prop
  | nil : Mixed [] []
  | field {bs bs' : Bytes} {f : Field} {fs : List Field} (h : readField bs = some (f, bs')) (hs : Mixed bs' fs) : Mixed bs (f :: fs)
  | group {m : Nat} {bs bs' bs'' : Bytes} {fs : List Field} (h : readVarint bs = some (m * 8 + 3, bs')) (hm : 0 < m ∧ m < 2 ^ 29)
      (hi : Group m bs' bs'') (hs : Mixed bs'' fs) : Mixed bs fs

end Verif.Spec
