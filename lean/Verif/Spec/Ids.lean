import Verif.Spec.Plugin
/-! Variables of a session: LAST_INSERT_ID() and user variables, as far as the ids of inserted rows are concerned (MySQL
manual, "Information Functions", "User-Defined Variables").  What the statements do whose effect on variables is not
fixed here is up to a script. -/
namespace Verif.Spec
open Verif.Go

/-- Characters of the names of user variables. -/
def nameChar (c : UInt8) : Bool :=
  (48 ≤ c && c ≤ 57) || (65 ≤ c && c ≤ 90) || (97 ≤ c && c ≤ 122) || c == 95 || c == 36 || c == 46

/-- `@name` -/
def isVariable : Bytes → Bool
  | 64 :: n => !n.isEmpty && n.all nameChar
  | _ => false

/-- The variable that the statement sets to LAST_INSERT_ID(), if this is what it does. -/
def captured : ClientMsg → Option Bytes
  | .stmtExecute t [] =>
    let v := (t.drop 4).take (t.length - 23)
    if t = ascii "SET " ++ v ++ ascii " = LAST_INSERT_ID()" ∧ isVariable v then some v else none
  | _ => none

structure Vars where
  /-- LAST_INSERT_ID() -/
  last : Nat
  user : Bytes → Option Nat

/-- What the script says about a message: the id generated if it inserts a row; whatever else it does to the
variables (triggers, statements of the user, statements that fail). -/
structure IdFate where
  generated : Nat
  wild : Vars → Vars

/-- The variables after a message that was answered with `a`. -/
def Vars.after (f : IdFate) (m : ClientMsg) (a : Answer) (x : Vars) : Vars :=
  match a, m with
  | .skipped, _ => x
  | .failed, _ => f.wild x
  | .ok, .insert .. => { f.wild x with last := f.generated }
  | .ok, m =>
    match captured m with
    | some v => { x with user := fun u => if u = v then some x.last else x.user u }
    | none => f.wild x

def varsAfter : (Nat → IdFate) → List (ClientMsg × Answer) → Vars → Vars
  | _, [], x => x
  | f, (m, a) :: rest, x => varsAfter (fun i => f (i + 1)) rest (x.after (f 0) m a)

/-- The variables when the session gets to message number `n` of `ms`. -/
def varsAt (spreads : Bool) (script : Nat → Fate) (ids : Nat → IdFate) (ms : List ClientMsg) (s : Session) (x : Vars) (n : Nat) : Vars :=
  varsAfter ids ((ms.zip (serve spreads script ms s).1).take n) x

/-- The names the library generates. -/
def isIdName (v : Bytes) : Bool := (ascii "@id$").isPrefixOf v

/-- Nothing else touches these variables. -/
def LeavesIds (ids : Nat → IdFate) : Prop := ∀ i x v, isIdName v = true → ((ids i).wild x).user v = x.user v

/-- The program does not itself issue the statement by which the library captures ids. -/
inductive NoCapture : Model.Prog → Prop
  | ret {err out} : NoCapture (.ret err out)
  | call {c k} (hc : ∀ v, isIdName v = true → ∀ args, c ≠ .stmtExecute (ascii "SET " ++ v ++ ascii " = LAST_INSERT_ID()") args)
      (hk : ∀ r, NoCapture (k r)) : NoCapture (.call c k)
  | tx {level body k} (hb : NoCapture body) (hk : ∀ o, NoCapture (k o)) : NoCapture (.tx level body k)
  | expect {op body k} (hb : NoCapture body) (hk : ∀ o, NoCapture (k o)) : NoCapture (.expect op body k)
  | insertF {t cols body err k} (hk : NoCapture k) : NoCapture (.insertF t cols body err k)
  | updateF {t crit body err k} (hk : NoCapture k) : NoCapture (.updateF t crit body err k)
  | outer {d c k} (hk : NoCapture k) : NoCapture (.outer d c k)

end Verif.Spec
