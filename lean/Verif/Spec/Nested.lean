import Verif.Spec.Plugin
/-! Client programs that leave transactions to `Tx`. -/
namespace Verif.Spec
open Verif.Go
open Verif.Model (Prog Call)

/-- The statements by which transactions are begun and ended. -/
def txTexts : List Bytes :=
  [ascii "START TRANSACTION", ascii "START TRANSACTION WITH CONSISTENT SNAPSHOT", ascii "COMMIT", ascii "ROLLBACK"]

/-- The program does not itself issue such statements; `tx`: it may call `Tx`. -/
inductive Leaves (tx : Bool) : Prog → Prop
  | ret {err out} : Leaves tx (.ret err out)
  | call {c k} (hc : ∀ t args, c = Call.stmtExecute t args → t ∉ txTexts) (hk : ∀ r, Leaves tx (k r)) : Leaves tx (.call c k)
  | tx {level body k} (h : tx = true) (hb : Leaves tx body) (hk : ∀ o, Leaves tx (k o)) : Leaves tx (.tx level body k)
  | expect {op body k} (hb : Leaves tx body) (hk : ∀ o, Leaves tx (k o)) : Leaves tx (.expect op body k)
  | insertF {t cols body err k} (hk : Leaves tx k) : Leaves tx (.insertF t cols body err k)
  | updateF {t crit body err k} (hk : Leaves tx k) : Leaves tx (.updateF t crit body err k)
  | outer {d c k} (hk : Leaves tx k) : Leaves tx (.outer d c k)

/-- Statements whose text the library does not know (CALL, BEGIN, CREATE TABLE, ...) do not touch the transaction either. -/
def Decent (script : Nat → Fate) (ms : List ClientMsg) : Prop :=
  ∀ (i : Nat) m, ms[i]? = some m → fixedKind m = none → (script i).kind = .change ∨ (script i).kind = .session

/-- The session after all of the messages have been executed with success. -/
def applied : (Nat → Fate) → List ClientMsg → Session → Session
  | _, [], s => s
  | script, m :: ms, s => applied (fun i => script (i + 1)) ms (s.effect m ((script 0).of m))

end Verif.Spec
