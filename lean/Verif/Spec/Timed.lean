import Verif.Model.Timed
/-! When a call begins, and whether it is over. -/
namespace Verif.Spec.Timed
open Verif.Model.Timed

/-- A call begins at `t0`: a `Send` on a connection that earlier calls have left with any deadline, or one that dials. -/
def Begins (t0 : Nat) (s : State) : Prop := (∃ old, s = sending t0 old) ∨ s = dialling t0

/-- The call has not returned. -/
def Pending (s : State) : Prop := ∀ r, s.pc ≠ .done r

/-- On its way from `s` to `s'` in `n` steps the call has been at `q`. -/
def Passed (cfg : Config) (x : Ctx) (s : State) (n : Nat) (s' : State) (q : Pc) : Prop :=
  ∃ (m k : Nat) (s1 : State), n = m + k ∧ Run cfg x s m s1 ∧ Run cfg x s1 k s' ∧ s1.pc = q

/-- The exchange the call is in. -/
def exchange : Pc → Option Kind
  | .deadline k | .write k | .read k => some k
  | _ => none

end Verif.Spec.Timed
