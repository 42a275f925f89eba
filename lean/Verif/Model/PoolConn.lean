import Verif.Model.Pool
import Verif.Model.Connector
/-! The pool of /repo/netx/pool/fifoch/fifoch.go together with the connections it hands out (connection.go, connector.go):
the transition system of `Verif.Model.Pool`, with each call of `connector.New` and `conn.Send` being one of the model of
those functions.

`conn.Send` takes effect in the step with which it ends (`finish`); nothing else touches that connection between `begin`
and `finish` (theorem `C40_exclusive`), so this is no restriction.  A `conn.Send` that panics is a call that does not go on
(it does not panic for whole messages, `C31_safe`). -/
namespace Verif.Model.PoolConn
open Verif.Go

/-- The pool, the connection behind each number (with the outside world as it sees it), and the variable `r` of each call
(fifoch.go:76, nil before). -/
structure State where
  pool : Pool.State
  conn : Nat → World × Conn
  res : Nat → List Response

/-- An event of the pool, with the values that go with it: the connection that `connector.New` returned, the results of
`conn.Send`, the results of the call. -/
inductive Act where
  | opened (t c : Nat) (w : World) (x : Conn)
  | finish (t c : Nat) (rs : List Response) (e : Option ConnErr)
  | ret (t : Nat) (r : Pool.Res) (rs : List Response)
  | other (e : Pool.Ev)

/-- The event of the pool. -/
def Act.ev : Act → Pool.Ev
  | .opened t c _ _ => .opened t c
  | .finish t c _ e => .finish t c e.isNone
  | .ret t r _ => .ret t r
  | .other e => e

/-- fifoch.go:20-25; what stands behind a number before a connection was opened does not matter. -/
def init (size : Nat) (conn : Nat → World × Conn) : State := ⟨Pool.init size, conn, fun _ => []⟩

/-- The events without a value and without an effect on a connection. -/
def plainEv : Pool.Ev → Bool
  | .opened .. | .finish .. | .ret .. | .close .. => false
  | _ => true

/-- `connector.New` returned the connection `x`, in some surroundings: any peer (whose streams do not end with bufio's own
ErrBufferFull), any faults. -/
def Opens (cd : Codec) (k : Connector) (w : World) (x : Conn) : Prop :=
  ∃ (env : Env) (w0 : World), env.cd = cd ∧ (∀ t src, env.dial = some (t, src) → src.err ≠ .bufferFull) ∧
    (∀ src, env.handshake = some src → src.err ≠ .bufferFull) ∧ w0.log = [] ∧ k.new env w0 = .ok (w, .ok x)

/-- One step.  `req t` is the argument of call `t`. -/
inductive Step (cd : Codec) (k : Connector) (req : Nat → Bytes) : State → Act → State → Prop where
  /-- fifoch.go:71 -/
  | opened {s : State} {p : Pool.State} {t c : Nat} {w : World} {x : Conn} (h : Pool.Step s.pool (.opened t c) p) (ho : Opens cd k w x) :
      Step cd k req s (.opened t c w x) { s with pool := p, conn := fun c' => if c' = c then (w, x) else s.conn c' }
  /-- fifoch.go:76 -/
  | finish {s : State} {p : Pool.State} {t c : Nat} {w : World} {x : Conn} {rs : List Response} {e : Option ConnErr}
      (h : Pool.Step s.pool (.finish t c e.isNone) p) (hs : Conn.send cd (s.conn c).1 (s.conn c).2 (req t) = .ok (w, x, rs, e)) :
      Step cd k req s (.finish t c rs e)
        ⟨p, fun c' => if c' = c then (w, x) else s.conn c', fun t' => if t' = t then rs else s.res t'⟩
  /-- fifoch.go:38, 78, 86 -/
  | close {s : State} {p : Pool.State} {t c : Nat} (h : Pool.Step s.pool (.close t c) p) :
      Step cd k req s (.other (.close t c))
        { s with pool := p, conn := fun c' => if c' = c then ((s.conn c).1.close, (s.conn c).2) else s.conn c' }
  /-- fifoch.go:64, 68, 72, 79, 88; the first three return nil, which is what `r` is until fifoch.go:76. -/
  | ret {s : State} {p : Pool.State} {t : Nat} {r : Pool.Res} (h : Pool.Step s.pool (.ret t r) p) :
      Step cd k req s (.ret t r (s.res t)) { s with pool := p }
  | other {s : State} {p : Pool.State} {e : Pool.Ev} (h : Pool.Step s.pool e p) (he : plainEv e = true) :
      Step cd k req s (.other e) { s with pool := p }

/-- An execution. -/
inductive Run (cd : Codec) (k : Connector) (req : Nat → Bytes) : State → List Act → State → Prop where
  | nil (s : State) : Run cd k req s [] s
  | snoc {s s' s'' : State} {l : List Act} {a : Act} (h : Run cd k req s l s') (hs : Step cd k req s' a s'') :
      Run cd k req s (l ++ [a]) s''

end Verif.Model.PoolConn
