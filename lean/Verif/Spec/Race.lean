import Verif.Spec.Pool
/-! The memory model of Go (go.dev/ref/mem), as far as the pool relies on it: when an event of an execution happens before
another one. -/
namespace Verif.Spec.Race
open Verif.Model.Pool Verif.Spec.Pool

/-- The events in which the fields of a connection, its buffered reader or its socket are read or written: it is set up
(connector.go:59-99), used (connection.go:65-141) or closed (connection.go:49-51). -/
def touches : Ev → Option Nat
  | .opened _ c | .begin _ c | .finish _ c _ | .close _ c => some c
  | _ => none

/-- Done by the goroutine of the call itself.  (A context is cancelled by somebody else.) -/
def own : Ev → Bool
  | .cancel _ => false
  | _ => true

/-- Happens before, for the events number `i` and `j`: within a goroutine, in the order of the program; the k-th send on the
channel happens before the k-th receive from it; transitive.  (There are more rules; they are not needed.  In particular the lock
of the pool is not.) -/
inductive Before (l : List Ev) : Nat → Nat → Prop
  | program {i j e f} : i < j → l[i]? = some e → l[j]? = some f → own e = true → own f = true → e.thread = f.thread → Before l i j
  | channel {i j t t' c c'} : l[i]? = some (.put t c) → l[j]? = some (.take t' c') →
      (puts (l.take i)).length = (takes (l.take j)).length → Before l i j
  | trans {i j k} : Before l i j → Before l j k → Before l i k

/-- No data race: two events that touch the same connection are ordered. -/
def RaceFree (l : List Ev) : Prop :=
  ∀ i j e f c, i < j → l[i]? = some e → l[j]? = some f → touches e = some c → touches f = some c → Before l i j

end Verif.Spec.Race
