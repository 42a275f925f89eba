import Verif.Spec.Remote
import Verif.Spec.PoolConn
/-! Servers behind the connections of a pool. -/
namespace Verif.Spec.PoolConn
open Verif.Go Verif.Model Verif.Spec Verif.Model.PoolConn

/-- The calls whose `conn.Send` on connection `c` has returned, in order, with the responses, or nothing if it returned an
error. -/
def ended (c : Nat) (l : List Act) : List (Nat × Option (List Response)) := l.filterMap fun
  | .finish t c' rs e => if c' = c then some (t, if e.isNone then some rs else none) else none
  | _ => none

/-- In session `s` a server gets the requests of the calls `ts`, one after the other, what happens to the messages being up
to a script for each call; `p` starts with the bytes that it sends meanwhile, and the last argument is the session
afterwards.  At the end, or within the last request, the connection may go away. -/
inductive Tends (cd : Codec) (spreads : Bool) (script : Nat → Nat → Fate) (req : Nat → Bytes) : Session → Bytes → List Nat → Session → Prop where
  | idle (s : Session) (p : Bytes) : Tends cd spreads script req s p [] s
  | gone (s : Session) (p : Bytes) : Tends cd spreads script req s p [] s.drop
  | last {s s' : Session} {p : Bytes} {t : Nat} (h : Serves cd spreads (script t) s (req t) p s') : Tends cd spreads script req s p [t] s'
  | next {s s' : Session} {p p' : Bytes} {t : Nat} {ts : List Nat} {ms : List ClientMsg} {rrs : List Response} (hd : decodeStream (req t) = some ms)
      (hr : Replies cd (serve spreads (script t) ms s).1 rrs p p') (h : Tends cd spreads script req (serve spreads (script t) ms s).2 p' ts s') :
      Tends cd spreads script req s p (t :: ts) s'

/-- The bytes written, of what happened on a connection. -/
def written (log : List Event) : Bytes := log.flatMap fun
  | .wrote _ b => b
  | _ => []

/-- The bytes that the client has read of the connection since it was `x`. -/
def taken (x x' : Conn) : Bytes := x.r.pending.take (x.r.pending.length - x'.r.pending.length)

/-- A server at the other end of a connection, which was in session `s` at first.  `b` are the bytes written to the connection
so far, `p` those read from it.  The server has executed some of the first messages and has answered no more than these; the
last argument is the session then, the connection having gone away or not.  It does not know of calls; `script` says what
happens to the messages. -/
def Attends (cd : Codec) (spreads : Bool) (script : Nat → Fate) (s : Session) (b p : Bytes) (s' : Session) : Prop :=
  ∃ b1 ms rrs full rest, b1 <+: b ∧ decodeStream b1 = some ms ∧ Replies cd (serve spreads script ms s).1 rrs full rest ∧
    (∀ rr r, ¬Answered cd rest rr r) ∧ p <+: full ∧ (s' = (serve spreads script ms s).2 ∨ s' = (serve spreads script ms s).2.drop)

end Verif.Spec.PoolConn
