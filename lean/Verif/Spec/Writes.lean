import Verif.Model.Connection
/-! Counting calls of `Write`. -/
namespace Verif.Spec
open Verif.Model

/-- How often something was handed to the network. -/
def writes : List Event → Nat
  | [] => 0
  | .wrote .. :: l => writes l + 1
  | _ :: l => writes l

end Verif.Spec
