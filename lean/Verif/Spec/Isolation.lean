import Verif.Spec.Plugin
/-! Isolation levels of the transactions of a session (MySQL manual, "SET TRANSACTION Statement" and "START TRANSACTION,
COMMIT, and ROLLBACK Statements").  What statements do to the settings whose text the library does not fix is up to a
script. -/
namespace Verif.Spec
open Verif.Go

inductive Level where
  | readUncommitted
  | readCommitted
  | repeatableRead
  | serializable
  deriving DecidableEq, Repr

/-- How a transaction reads: its isolation level, and whether it has a snapshot taken at its start. -/
structure Mode where
  level : Level
  snapshot : Bool
  deriving DecidableEq, Repr

structure Iso where
  /-- the isolation level of the session, for transactions for which nothing else was said -/
  usual : Level
  /-- the isolation level of the next transaction only -/
  next : Option Level
  /-- the mode of the transaction that was started last -/
  mode : Mode
  deriving DecidableEq, Repr

/-- What the script says about a message that is executed: what it does to the settings (statements of the user, statements
that fail, transactions of a single statement), and whether it asks for a snapshot should it start a transaction in words
other than the library's. -/
structure IsoFate where
  usual : Level → Level
  next : Option Level → Option Level
  snapshot : Bool

/-- The level that the statement sets for the next transaction, if this is what it does. -/
def setsLevel : ClientMsg → Option Level
  | .stmtExecute t [] =>
    if t = ascii "SET TRANSACTION ISOLATION LEVEL READ UNCOMMITTED" then some .readUncommitted
    else if t = ascii "SET TRANSACTION ISOLATION LEVEL READ COMMITTED" then some .readCommitted
    else if t = ascii "SET TRANSACTION ISOLATION LEVEL REPEATABLE READ" then some .repeatableRead
    else if t = ascii "SET TRANSACTION ISOLATION LEVEL SERIALIZABLE" then some .serializable
    else none
  | _ => none

/-- Whether a statement that starts a transaction asks for a snapshot. -/
def asksSnapshot (f : IsoFate) : ClientMsg → Bool
  | .stmtExecute t [] =>
    if t = ascii "START TRANSACTION" then false
    else if t = ascii "START TRANSACTION WITH CONSISTENT SNAPSHOT" then true
    else f.snapshot
  | _ => f.snapshot

/-- Messages about blocks do not concern transactions. -/
def aboutBlocks : ClientMsg → Bool
  | .expectOpen .. | .expectClose => true
  | _ => false

/-- The settings after a message that was answered with `a`.  A snapshot is taken only at the level REPEATABLE READ; at the
others the wish for one is ignored, with a warning. -/
def Iso.after (f : Fate) (g : IsoFate) (m : ClientMsg) (a : Answer) (x : Iso) : Iso :=
  if a = .skipped ∨ aboutBlocks m = true then x
  else if a = .ok ∧ f.of m = .start then
    let l := x.next.getD x.usual
    { x with next := none, mode := ⟨l, asksSnapshot g m && decide (l = .repeatableRead)⟩ }
  else match a, setsLevel m with
    | .ok, some l => { x with next := some l }
    | _, _ => { x with usual := g.usual x.usual, next := g.next x.next }

def isoAfter : (Nat → Fate) → (Nat → IsoFate) → List (ClientMsg × Answer) → Iso → Iso
  | _, _, [], x => x
  | f, g, (m, a) :: rest, x => isoAfter (fun i => f (i + 1)) (fun i => g (i + 1)) rest (x.after (f 0) (g 0) m a)

/-- The settings when the session gets to message number `n` of `ms`. -/
def isoAt (spreads : Bool) (script : Nat → Fate) (isos : Nat → IsoFate) (ms : List ClientMsg) (s : Session) (x : Iso) (n : Nat) : Iso :=
  isoAfter script isos ((ms.zip (serve spreads script ms s).1).take n) x

/-- The session when it gets to message number `n` of `ms`. -/
def sessionAt (spreads : Bool) (script : Nat → Fate) (ms : List ClientMsg) (s : Session) (n : Nat) : Session :=
  (serve spreads script (ms.take n) s).2

/-- The server refuses to set the level of the next transaction while there is one (error 1568); the open transaction
goes on. -/
def Refuses (spreads : Bool) (script : Nat → Fate) (ms : List ClientMsg) (s : Session) : Prop :=
  ∀ (i : Nat) m, ms[i]? = some m → setsLevel m ≠ none → (sessionAt spreads script ms s i).tx ≠ none → (script i).outcome = .error

/-- What the isolation levels of the library (Default, ReadUncommitted, ReadCommitted, RepeatableRead, Serializable,
Snapshot) ask for, on a session with level `usual`. -/
def Wanted (level : Nat) (usual : Level) (m : Mode) : Prop :=
  match level with
  | 0 => m.level = usual
  | 1 => m.level = .readUncommitted
  | 2 => m.level = .readCommitted
  | 3 => m.level = .repeatableRead
  | 4 => m.level = .serializable
  | 5 => m.snapshot = true
  | _ => False

end Verif.Spec
