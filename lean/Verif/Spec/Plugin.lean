import Verif.Spec.Unit
/-! The server's side of a session: expectation blocks (X Protocol, "Mysqlx.Expect") and transactions (MySQL
manual, "START TRANSACTION, COMMIT" and "Statements That Cause an Implicit Commit"), as far as the claims about
units of work need them.  Which statements fail, and what statements do whose text the library does not fix, is
up to a script, over which the theorems quantify. -/
namespace Verif.Spec
open Verif.Go

/-- What a statement does to the transaction of the session. -/
inductive Kind where
  /-- starts a transaction, committing an open one first -/
  | start
  | commit
  | rollback
  /-- a change that commits an open transaction first (CREATE TABLE ...) -/
  | implicit
  /-- a change, inside the open transaction if there is one -/
  | change
  /-- nothing of the kind -/
  | session
  deriving DecidableEq, Repr

/-- How the execution of a statement ends. -/
inductive Outcome where
  | success
  /-- an error that undoes the statement -/
  | error
  /-- an error that undoes the whole transaction (deadlock, ...) -/
  | rolledBack
  deriving DecidableEq, Repr

/-- What the script says about a message, should it come to be executed. `kind` matters only for statements whose
kind is not fixed. -/
structure Fate where
  outcome : Outcome
  kind : Kind

/-- The kinds of the messages that speak for themselves. -/
def fixedKind : ClientMsg → Option Kind
  | .stmtExecute t [] =>
    if t = ascii "START TRANSACTION" ∨ t = ascii "START TRANSACTION WITH CONSISTENT SNAPSHOT" then some .start
    else if t = ascii "COMMIT" then some .commit
    else if t = ascii "ROLLBACK" then some .rollback
    else if t = ascii "SET TRANSACTION ISOLATION LEVEL READ UNCOMMITTED" ∨
      t = ascii "SET TRANSACTION ISOLATION LEVEL READ COMMITTED" ∨
      t = ascii "SET TRANSACTION ISOLATION LEVEL REPEATABLE READ" ∨
      t = ascii "SET TRANSACTION ISOLATION LEVEL SERIALIZABLE" then some .session
    else none
  | .stmtExecute _ _ => none
  | .execute _ _ => none
  | .insert .. => some .change
  | .update .. => some .change
  | .delete .. => some .change
  | _ => some .session

def Fate.of (f : Fate) (m : ClientMsg) : Kind := (fixedKind m).getD f.kind

structure Block where
  /-- the condition no_error holds in the block -/
  noError : Bool
  failed : Bool
  deriving DecidableEq, Repr

/-- A session. Changes are represented by the messages that ask for them. -/
structure Session where
  /-- open expectation blocks, innermost first -/
  blocks : List Block
  /-- the changes of the open transaction -/
  tx : Option (List ClientMsg)
  /-- the durable changes made by this session, oldest first -/
  durable : List ClientMsg

inductive Answer where
  | ok
  /-- the message was executed, or was about a block, and failed -/
  | failed
  /-- the message was not executed since the block had failed before -/
  | skipped
  deriving DecidableEq, Repr

def Session.failed (s : Session) : Bool :=
  match s.blocks with
  | b :: _ => b.failed
  | [] => false

/-- An error in the innermost block. -/
def Session.note (s : Session) : Session :=
  match s.blocks with
  | b :: bs => { s with blocks := { b with failed := b.failed || b.noError } :: bs }
  | [] => s

/-- a successful execution -/
def Session.effect (s : Session) (m : ClientMsg) : Kind → Session
  | .start => { s with durable := s.durable ++ s.tx.getD [], tx := some [] }
  | .commit => { s with durable := s.durable ++ s.tx.getD [], tx := none }
  | .rollback => { s with tx := none }
  | .implicit => { s with durable := s.durable ++ s.tx.getD [] ++ [m], tx := none }
  | .change =>
    match s.tx with
    | some l => { s with tx := some (l ++ [m]) }
    | none => { s with durable := s.durable ++ [m] }
  | .session => s

/-- the conditions of a block: key 1 is EXPECT_NO_ERROR; values "0" and "1" -/
def noErrorCond (inherited : Bool) (conds : List (Nat × Bytes)) : Bool :=
  conds.foldl (fun acc c => if c.1 = 1 then decide (c.2 ≠ ascii "0") else acc) inherited

/-- One message. `spreads`: whether the error answering the Close of a failed block counts as an error in the
enclosing block. -/
def serveOne (spreads : Bool) (f : Fate) (m : ClientMsg) (s : Session) : Answer × Session :=
  match m with
  | .expectOpen op conds =>
    let inherited := match op, s.blocks with
      | 0, b :: _ => b.noError
      | _, _ => false
    if s.failed then (.failed, { s with blocks := ⟨noErrorCond inherited conds, true⟩ :: s.blocks })
    else (.ok, { s with blocks := ⟨noErrorCond inherited conds, false⟩ :: s.blocks })
  | .expectClose =>
    match s.blocks with
    | [] => (.failed, s)
    | b :: bs =>
      if b.failed then (.failed, if spreads then { s with blocks := bs }.note else { s with blocks := bs })
      else (.ok, { s with blocks := bs })
  | m =>
    if s.failed then (.skipped, s)
    else match f.outcome with
      | .success => (.ok, s.effect m (f.of m))
      | .error => (.failed, s.note)
      | .rolledBack => (.failed, { s with tx := none }.note)

/-- Messages in order; the script says what becomes of the i-th of them. -/
def serve (spreads : Bool) : (Nat → Fate) → List ClientMsg → Session → List Answer × Session
  | _, [], s => ([], s)
  | script, m :: ms, s =>
    let r := serveOne spreads (script 0) m s
    let rest := serve spreads (fun i => script (i + 1)) ms r.2
    (r.1 :: rest.1, rest.2)

/-- the changes among the messages -/
def changes : (Nat → Fate) → List ClientMsg → List ClientMsg
  | _, [] => []
  | script, m :: ms =>
    (if (script 0).of m = .change then [m] else []) ++ changes (fun i => script (i + 1)) ms

/-- Messages that leave the transaction as it is, apart from changes. -/
def Steady : (Nat → Fate) → List ClientMsg → Prop
  | _, [] => True
  | script, m :: ms =>
    ((script 0).of m = .change ∨ (script 0).of m = .session) ∧ Steady (fun i => script (i + 1)) ms

/-- The connection goes away. -/
def Session.drop (s : Session) : Session := { s with blocks := [], tx := none }

/-- The unit of work recommended by the README: a transaction in an expectation block. -/
def guarded (op : Nat) (opening : List String) (body : List ClientMsg) : List ClientMsg :=
  .expectOpen op [(1, ascii "1")] :: (opening.map sql ++ body ++ [sql "COMMIT"]) ++ [.expectClose]

/-- A unit of work of that form as the server sees it: its messages, what becomes of them, and whether the
connection goes away afterwards. -/
structure Job where
  op : Nat
  opening : List String
  body : List ClientMsg
  script : Nat → Fate
  dropped : Bool

/-- The unit of work on a session: whether COMMIT was answered OK, and the session afterwards. -/
def Job.on (spreads : Bool) (j : Job) (s : Session) : Bool × Session :=
  let r := serve spreads j.script (guarded j.op j.opening j.body) s
  (decide (r.1[1 + (j.opening.length + j.body.length)]? = some .ok), if j.dropped then r.2.drop else r.2)

/-- the script for the body -/
def Job.bodyScript (j : Job) : Nat → Fate := fun i => j.script (1 + (j.opening.length + i))

/-- One unit of work after the other on the same session (a new one once the connection went away): which of
them were committed, and the session at the end. -/
def jobs (spreads : Bool) : List Job → Session → List Bool × Session
  | [], s => ([], s)
  | j :: js, s =>
    let r := j.on spreads s
    let rest := jobs spreads js r.2
    (r.1 :: rest.1, rest.2)

/-- the changes of the committed units of work -/
def committedChanges (js : List Job) (committed : List Bool) : List ClientMsg :=
  (js.zip committed).flatMap fun p => if p.2 then changes p.1.bodyScript p.1.body else []

end Verif.Spec
