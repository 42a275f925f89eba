import Verif.Spec.Keys
/-! A client that sends one unit of work after the other on one connection, until one of them fails, and the server at the other end. -/
namespace Verif.Spec.Sql
open Verif.Go Verif.Model Verif.Spec

variable {V : Type}

/-- A server over the life of a connection: it gets the requests one after the other; what becomes of their messages is up to the
scripts, what they mean up to the servers; the bytes are all that arrive at the client.  The connection may go away during any of the
requests (see `Works`), and then nothing is done about those behind. -/
inductive Lives (cd : Codec) (spreads : Bool) :
    (Nat → Nat → Fate) → (Nat → Nat → Server V) → Session → Store V → List Bytes → Bytes → Store V → Prop
  | idle {f S s x p} : Lives cd spreads f S s x [] p x
  | done {f : Nat → Nat → Fate} {S : Nat → Nat → Server V} {s : Session} {x x1 x2 : Store V} {b : Bytes} {bs : List Bytes} {p rest : Bytes}
      {ms : List ClientMsg} {rrs : List Response} (hd : decodeStream b = some ms) (hr : Replies cd (serve spreads (f 0) ms s).1 rrs p rest)
      (hx : Plays (S 0) (ms.zip (serve spreads (f 0) ms s).1) x x1)
      (hl : Lives cd spreads (fun i => f (i + 1)) (fun i => S (i + 1)) (serve spreads (f 0) ms s).2 x1 bs rest x2) :
      Lives cd spreads f S s x (b :: bs) p x2
  | lost {f : Nat → Nat → Fate} {S : Nat → Nat → Server V} {s : Session} {x x1 : Store V} {b : Bytes} {bs : List Bytes} {p full rest : Bytes}
      {ms : List ClientMsg} {rrs : List Response} {k : Nat} (hd : decodeStream b = some ms)
      (hr : Replies cd (serve spreads (f 0) (ms.take k) s).1 rrs full rest) (hn : ∀ rr r, ¬Answered cd rest rr r) (hp : p <+: full)
      (hx : Plays (S 0) ((ms.take k).zip (serve spreads (f 0) (ms.take k) s).1) x x1) : Lives cd spreads f S s x (b :: bs) p x1.drop

/-- How a series of calls of `Send` ends. -/
inductive End where
  /-- all units of work were sent and answered OK -/
  | all
  /-- some response of the last one is an error -/
  | refused
  /-- the last `Send` returned an error -/
  | broken

/-- A client that calls `Send` with one request after the other and stops at the first that does not get OK for all its messages.
The requests are those that it has sent; the number is that of those that went well. -/
inductive Client (cd : Codec) : World → Conn → List Bytes → Nat → End → Prop
  | idle {w c} : Client cd w c [] 0 .all
  | ok {w w' : World} {c c' : Conn} {b : Bytes} {bs : List Bytes} {rrs : List Response} {n : Nat} {e : End}
      (h : Conn.send cd w c b = .ok (w', c', rrs, none)) (ha : ∀ r ∈ rrs, r = .ok) (hs : Client cd w' c' bs n e) :
      Client cd w c (b :: bs) (n + 1) e
  | refused {w w' : World} {c c' : Conn} {b : Bytes} {rrs : List Response} (h : Conn.send cd w c b = .ok (w', c', rrs, none))
      (ha : ∃ r ∈ rrs, r ≠ .ok) : Client cd w c [b] 0 .refused
  | broken {w w' : World} {c c' : Conn} {b : Bytes} {rrs : List Response} {e : ConnErr} (h : Conn.send cd w c b = .ok (w', c', rrs, some e)) :
      Client cd w c [b] 0 .broken

/-- Units of work, one after the other.  (Beside each the statements that begin its transaction: they and the Open of the block have no
effect, but are counted.) -/
inductive UnitsDo : (Nat → Nat → Server V) → List (GoUnit × List String) → Scope V → Scope V → Prop
  | nil {S y} : UnitsDo S [] y y
  | cons {S u ss us y y1 y2} : UnitDoes (fun i => S 0 (1 + (ss.length + i))) [] u y y1 → UnitsDo (fun i => S (i + 1)) us y1 y2 →
      UnitsDo S ((u, ss) :: us) y y2

end Verif.Spec.Sql
