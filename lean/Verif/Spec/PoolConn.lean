import Verif.Spec.Server
import Verif.Model.PoolConn
/-! Who gets which answers. -/
namespace Verif.Spec.PoolConn
open Verif.Go Verif.Model Verif.Spec Verif.Model.PoolConn

/-- The calls whose `conn.Send` on connection `c` returned no error, in order, with the responses it returned. -/
def served (c : Nat) (l : List Act) : List (Nat × List Response) := l.filterMap fun
  | .finish t c' rs none => if c' = c then some (t, rs) else none
  | _ => none

/-- The stream of bytes `p` starts with complete answers to the messages of the requests of these calls, one request after
the other, which stand for these responses; `q` follows. -/
inductive Exchange (cd : Codec) (req : Nat → Bytes) : Bytes → List (Nat × List Response) → Bytes → Prop where
  | nil (p : Bytes) : Exchange cd req p [] p
  | cons {p p' q : Bytes} {t : Nat} {rs : List Response} {fs : List (UInt8 × Bytes)} {hist : List (Nat × List Response)}
      (hf : readFrames (req t) = some fs) (ha : AnsweredAll cd (fs.map Prod.fst) p rs p') (h : Exchange cd req p' hist q) :
      Exchange cd req p ((t, rs) :: hist) q

/-- The connection failed in a call. -/
def Failed (c : Nat) (l : List Act) : Prop := ∃ t rs e, Act.finish t c rs (some e) ∈ l

/-- The connection was closed. -/
def Closed (c : Nat) (l : List Act) : Prop := ∃ t, Act.other (.close t c) ∈ l

end Verif.Spec.PoolConn
