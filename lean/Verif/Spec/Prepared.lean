import Verif.Spec.Plugin
import Verif.Spec.Pool
/-! Prepared statements of a session (mysqlx_prepare.proto): the client chooses the numbers. -/
namespace Verif.Spec
open Verif.Go

/-- The statement behind each number. -/
abbrev Table := Nat → Option Bytes

def Table.put (x : Table) (id : Nat) (t : Option Bytes) : Table := fun i => if i = id then t else x i

/-- The table after a message that was answered with `a`.  `drops`: whether a Prepare that fails has removed the statement
that had its number (the protocol leaves it open). -/
def Table.after (drops : Bool) (m : ClientMsg) (a : Answer) (x : Table) : Table :=
  match a, m with
  | .ok, .prepare id t => x.put id (some t)
  | .failed, .prepare id _ => if drops then x.put id none else x
  | .ok, .deallocate id => x.put id none
  | _, _ => x

def tableAfter (drops : Bool) : List (ClientMsg × Answer) → Table → Table
  | [], x => x
  | (m, a) :: rest, x => tableAfter drops rest (x.after drops m a)

/-- The table when the session gets to message number `n` of `ms`. -/
def tableAt (spreads drops : Bool) (script : Nat → Fate) (ms : List ClientMsg) (s : Session) (x : Table) (n : Nat) : Table :=
  tableAfter drops ((ms.zip (serve spreads script ms s).1).take n) x

/-- What the messages say last about a number: nothing, a statement, or that there is none. -/
def lastWord (id : Nat) (ms : List ClientMsg) : Option (Option Bytes) :=
  match ms.reverse.find? fun | .prepare i _ => i == id | .deallocate i => i == id | _ => false with
  | some (.prepare _ t) => some (some t)
  | some _ => some none
  | none => none

/-- The tables of the sessions behind the connections of a pool, all messages being answered with OK; `unit t` is sent by
call `t`. -/
def poolTables (unit : Nat → List ClientMsg) (l : List Model.Pool.Ev) : Nat → Table :=
  l.foldl (fun xs e =>
    match e with
    | .opened _ c => fun c' => if c' = c then fun _ => none else xs c'
    | .begin t c => fun c' => if c' = c then tableAfter true ((unit t).map fun m => (m, .ok)) (xs c) else xs c'
    | _ => xs) fun _ _ => none

/-- The calls whose messages were sent, in order. -/
def begun (l : List Model.Pool.Ev) : List Nat := l.filterMap fun | .begin t _ => some t | _ => none

/-- The calls whose messages were sent over connection `c`, in order. -/
def begunOn (c : Nat) (l : List Model.Pool.Ev) : List Nat := l.filterMap fun | .begin t c' => if c' = c then some t else none | _ => none

/-- No `Send` is called before the calls made earlier have returned. -/
def OneByOne (l : List Model.Pool.Ev) : Prop := ∀ l1 t l2, l = l1 ++ .callSend t :: l2 → Pool.unfinished l1 = []

/-- The messages say nothing about a number. -/
def Silent (id : Nat) (ms : List ClientMsg) : Prop := lastWord id ms = none

end Verif.Spec
