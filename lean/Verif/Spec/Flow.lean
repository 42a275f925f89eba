import Verif.Model.Flow
import Verif.Spec.Message
/-! When a `Send` gets through. -/
namespace Verif.Spec.Flow
open Verif.Model.Flow Verif.Go

/-- The length of the answers to these messages. -/
def answers (ms : Request) : Nat := (ms.map Prod.snd).sum

/-- Wherever the request is cut between two messages: the answers to the messages before the cut fit into the network on the
way back, or the messages after it fit on the way there. -/
def Fits (up down : Nat) (ms : Request) : Prop := ∀ pre post, ms = pre ++ post → answers pre ≤ down ∨ size post ≤ up

/-- A state in which nothing can move. -/
def Stuck (up down : Nat) (ms : Request) (s : State) : Prop := ∀ s', ¬Step up down ms s s'

/-- The messages of a request in bytes, with the answers they get. -/
def request (fs : List (UInt8 × Bytes)) (as : List Bytes) : Request := (fs.zip as).map fun x => (5 + x.1.2.length, x.2.length)

end Verif.Spec.Flow
