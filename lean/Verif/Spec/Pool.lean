import Verif.Model.Pool
/-! What is asked of the uses of connections, in terms of the events (calls of `connector.New`, of `conn.Send`, of
`conn.Close`, and of the pool's own functions) of an execution. -/
namespace Verif.Spec.Pool
open Verif.Model.Pool

/-- The life of a connection. -/
inductive Stage where
  | absent
  | idle
  /-- in use by the call -/
  | busy (t : Nat)
  /-- its `Send` failed, in the call -/
  | broken (t : Nat)
  | closed
  deriving DecidableEq, Repr

/-- What an event does to connection `c`; `none` if it must not happen: a connection is used by one call at a time, not
after it failed or was closed, and it is closed only once and not while in use. -/
def advance (c : Nat) (st : Stage) (e : Ev) : Option Stage :=
  match e with
  | .opened _ c' => if c' = c then (if st = .absent then some .idle else none) else some st
  | .begin t c' => if c' = c then (if st = .idle then some (.busy t) else none) else some st
  | .finish t c' ok => if c' = c then (if st = .busy t then some (if ok then .idle else .broken t) else none) else some st
  | .close t c' => if c' = c then (if st = .idle ∨ st = .broken t then some .closed else none) else some st
  | _ => some st

/-- The stage of a connection after the events, or `none` if it was misused. -/
def stage (c : Nat) (l : List Ev) : Option Stage := l.foldl (fun st e => st.bind (advance c · e)) (some .absent)

/-- The connections put into the pool, in order. -/
def puts (l : List Ev) : List Nat := l.filterMap fun | .put _ c => some c | _ => none

/-- The connections taken from the pool, in order. -/
def takes (l : List Ev) : List Nat := l.filterMap fun | .take _ c => some c | _ => none

/-- The number of connections made. -/
def made (l : List Ev) : Nat := (l.filterMap fun | .opened _ c => some c | _ => none).length

/-- The call has started, and has neither returned nor panicked. -/
def running : Pc → Prop
  | .idle | .done _ | .panicked _ => False
  | _ => True

/-- The connection a call has in its hands (after a panic: had). -/
def holds : Pc → Option Nat
  | .got c | .busy c | .bad c | .put c | .full c | .drop c => some c
  | .panicked c => c
  | _ => none

/-- The call has returned. -/
def returned (t : Nat) (l : List Ev) : Bool := l.any fun | .ret t' _ => t' == t | _ => false

/-- The calls made that have not returned. -/
def unfinished (l : List Ev) : List Nat := l.filterMap fun
  | .callSend t | .callClose t => if returned t l then none else some t
  | _ => none

/-- The connection was made and is not closed. -/
def isOpen (c : Nat) (l : List Ev) : Prop := ∃ st, stage c l = some st ∧ st ≠ .absent ∧ st ≠ .closed

/-- What the call did, in order, apart from starting, returning and what nobody else sees. -/
def deeds (t : Nat) (l : List Ev) : List Ev := l.filter fun
  | .take t' _ | .miss t' | .opened t' _ | .begin t' _ | .finish t' _ _ | .close t' _ | .put t' _ | .shut t' => t' == t
  | _ => false

/-- A `Send` that has connection `c` from the pool, or a new one. -/
inductive Got (t c : Nat) : List Ev → Prop where
  | old : Got t c [.take t c]
  | new : Got t c [.miss t, .opened t c]

/-- What a `Send` is to have done, by what it returns. -/
inductive SendDeeds (t : Nat) : Res → List Ev → Prop where
  /-- the command was sent once, and the connection put into the pool or closed -/
  | ok {c : Nat} {g : List Ev} {e : Ev} (h : Got t c g) (he : e = .put t c ∨ e = .close t c) :
      SendDeeds t .ok (g ++ [.begin t c, .finish t c true, e])
  /-- the connection failed, and was closed -/
  | send {c : Nat} {g : List Ev} (h : Got t c g) : SendDeeds t .send (g ++ [.begin t c, .finish t c false, .close t c])
  /-- no connection could be made -/
  | connector : SendDeeds t .connector [.miss t]
  | ctx : SendDeeds t .ctx []
  | poolClosed : SendDeeds t .poolClosed []

/-- What a `Close` is to have done: each connection it took it closed, and then the channel. -/
def closeDeeds (t : Nat) (cs : List Nat) : List Ev := cs.flatMap (fun c => [.take t c, .close t c]) ++ [.shut t]

end Verif.Spec.Pool
