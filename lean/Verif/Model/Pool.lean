/-! Model of /repo/netx/pool/fifoch/fifoch.go as a transition system: any number of calls of `Send` and `Close`, each in its
own goroutine, in any interleaving.

Connections are numbered in the order in which `connector.New` returned them (it returns a new one each time).  What
`connector.New`, `conn.Send` and a context do is arbitrary; `conn.Close` returns (its error is ignored by the code).  The
field `ch` is set once, in `New`, so `getCh` always returns the same channel and its lock is not modelled.  A panic ends
the call with whatever it held; the others go on (as when the caller recovers it). -/
namespace Verif.Model.Pool

/-- What a call returns: nil, `ErrPoolClosed`, `ctx.Err()`, the error of `connector.New`, the error of `conn.Send`. -/
inductive Res where
  | ok
  | poolClosed
  | ctx
  | connector
  | send
  deriving DecidableEq, Repr

/-- Where a call is. -/
inductive Pc where
  | idle
  /-- fifoch.go:61, before the select -/
  | look
  /-- fifoch.go:71, in `connector.New` -/
  | dial
  /-- fifoch.go:76, before `conn.Send` -/
  | got (c : Nat)
  /-- fifoch.go:76, in `conn.Send` -/
  | busy (c : Nat)
  /-- fifoch.go:78 -/
  | bad (c : Nat)
  /-- fifoch.go:83, before the select -/
  | put (c : Nat)
  /-- fifoch.go:86 -/
  | full (c : Nat)
  /-- fifoch.go:33, before the select -/
  | drain
  /-- fifoch.go:38 -/
  | drop (c : Nat)
  /-- fifoch.go:31, the deferred `close(ch)` -/
  | leave (r : Res)
  /-- about to return -/
  | ret (r : Res)
  | done (r : Res)
  | panicked (c : Option Nat)
  deriving DecidableEq, Repr

/-- What happens, and in which call. -/
inductive Ev where
  | callSend (t : Nat)
  | callClose (t : Nat)
  | cancel (t : Nat)
  /-- received from the channel -/
  | take (t c : Nat)
  /-- `Send` found no connection -/
  | miss (t : Nat)
  | opened (t c : Nat)
  | begin (t c : Nat)
  | finish (t c : Nat) (ok : Bool)
  | close (t c : Nat)
  /-- sent to the channel -/
  | put (t c : Nat)
  /-- `close(ch)` -/
  | shut (t : Nat)
  | ret (t : Nat) (r : Res)
  | panic (t : Nat)
  | tau (t : Nat)
  deriving DecidableEq, Repr

/-- The call in which it happens. -/
def Ev.thread : Ev → Nat
  | callSend t | callClose t | cancel t | take t _ | miss t | opened t _ | begin t _ | finish t _ _ | close t _ | put t _ | shut t
  | ret t _ | panic t | tau t => t

/-- fifoch.go:13-17: the channel (capacity, contents, closed), the calls with their contexts (done or not), and the number
of connections made so far. -/
structure State where
  cap : Nat
  queue : List Nat
  closed : Bool
  pc : Nat → Pc
  ctx : Nat → Bool
  next : Nat

/-- fifoch.go:20-25 `New`; no call has been made. -/
def init (size : Nat) : State := ⟨size, [], false, fun _ => .idle, fun _ => false, 0⟩

/-- Call `t` goes to `p`. -/
def State.goto (s : State) (t : Nat) (p : Pc) : State := { s with pc := fun t' => if t' = t then p else s.pc t' }

/-- One step.  A `select` takes any of the cases that are ready, `default` if none is.  Receiving is ready if the channel
is not empty, and also if it is closed.  Sending to a closed channel panics, in a `select` too.  Every receive is in a
`select` with `default`, so no receiver ever waits and with capacity 0 no send is ready. -/
inductive Step : State → Ev → State → Prop where
  | callSend {s : State} {t : Nat} (h : s.pc t = .idle) : Step s (.callSend t) (s.goto t .look)
  | callClose {s : State} {t : Nat} (h : s.pc t = .idle) : Step s (.callClose t) (s.goto t .drain)
  /-- a context is cancelled or its deadline passes -/
  | cancel {s : State} {t : Nat} : Step s (.cancel t) { s with ctx := fun t' => if t' = t then true else s.ctx t' }
  /-- fifoch.go:62 -/
  | take {s : State} {t c : Nat} {q : List Nat} (h : s.pc t = .look) (hq : s.queue = c :: q) :
      Step s (.take t c) ({ s with queue := q }.goto t (.got c))
  /-- fifoch.go:62-65 -/
  | lookClosed {s : State} {t : Nat} (h : s.pc t = .look) (hq : s.queue = []) (hc : s.closed = true) :
      Step s (.tau t) (s.goto t (.ret .poolClosed))
  /-- fifoch.go:67-68 -/
  | lookCtx {s : State} {t : Nat} (h : s.pc t = .look) (hc : s.ctx t = true) : Step s (.tau t) (s.goto t (.ret .ctx))
  /-- fifoch.go:70 -/
  | miss {s : State} {t : Nat} (h : s.pc t = .look) (hq : s.queue = []) (hc : s.closed = false) (hx : s.ctx t = false) :
      Step s (.miss t) (s.goto t .dial)
  /-- fifoch.go:71 -/
  | opened {s : State} {t : Nat} (h : s.pc t = .dial) : Step s (.opened t s.next) ({ s with next := s.next + 1 }.goto t (.got s.next))
  /-- fifoch.go:71-72 -/
  | notOpened {s : State} {t : Nat} (h : s.pc t = .dial) : Step s (.tau t) (s.goto t (.ret .connector))
  /-- fifoch.go:76 -/
  | begin {s : State} {t c : Nat} (h : s.pc t = .got c) : Step s (.begin t c) (s.goto t (.busy c))
  /-- fifoch.go:76, 82 -/
  | sent {s : State} {t c : Nat} (h : s.pc t = .busy c) : Step s (.finish t c true) (s.goto t (.put c))
  /-- fifoch.go:76-77 -/
  | failed {s : State} {t c : Nat} (h : s.pc t = .busy c) : Step s (.finish t c false) (s.goto t (.bad c))
  /-- fifoch.go:78-79 -/
  | closeBad {s : State} {t c : Nat} (h : s.pc t = .bad c) : Step s (.close t c) (s.goto t (.ret .send))
  /-- fifoch.go:84 -/
  | put {s : State} {t c : Nat} (h : s.pc t = .put c) (hc : s.closed = false) (hl : s.queue.length < s.cap) :
      Step s (.put t c) ({ s with queue := s.queue ++ [c] }.goto t (.ret .ok))
  /-- fifoch.go:84, send on closed channel -/
  | putClosed {s : State} {t c : Nat} (h : s.pc t = .put c) (hc : s.closed = true) : Step s (.panic t) (s.goto t (.panicked (some c)))
  /-- fifoch.go:85 -/
  | putFull {s : State} {t c : Nat} (h : s.pc t = .put c) (hc : s.closed = false) (hl : s.cap ≤ s.queue.length) :
      Step s (.tau t) (s.goto t (.full c))
  /-- fifoch.go:86-88 -/
  | closeFull {s : State} {t c : Nat} (h : s.pc t = .full c) : Step s (.close t c) (s.goto t (.ret .ok))
  /-- fifoch.go:34 -/
  | drainTake {s : State} {t c : Nat} {q : List Nat} (h : s.pc t = .drain) (hq : s.queue = c :: q) :
      Step s (.take t c) ({ s with queue := q }.goto t (.drop c))
  /-- fifoch.go:34-37 -/
  | drainClosed {s : State} {t : Nat} (h : s.pc t = .drain) (hq : s.queue = []) (hc : s.closed = true) : Step s (.tau t) (s.goto t (.leave .ok))
  /-- fifoch.go:39-40 -/
  | drainCtx {s : State} {t : Nat} (h : s.pc t = .drain) (hc : s.ctx t = true) : Step s (.tau t) (s.goto t (.leave .ctx))
  /-- fifoch.go:41-42 -/
  | drainEmpty {s : State} {t : Nat} (h : s.pc t = .drain) (hq : s.queue = []) (hc : s.closed = false) (hx : s.ctx t = false) :
      Step s (.tau t) (s.goto t (.leave .ok))
  /-- fifoch.go:38 -/
  | closeDrop {s : State} {t c : Nat} (h : s.pc t = .drop c) : Step s (.close t c) (s.goto t .drain)
  /-- fifoch.go:31 -/
  | shut {s : State} {t : Nat} {r : Res} (h : s.pc t = .leave r) (hc : s.closed = false) : Step s (.shut t) ({ s with closed := true }.goto t (.ret r))
  /-- fifoch.go:31, close of closed channel -/
  | shutClosed {s : State} {t : Nat} {r : Res} (h : s.pc t = .leave r) (hc : s.closed = true) : Step s (.panic t) (s.goto t (.panicked none))
  | ret {s : State} {t : Nat} {r : Res} (h : s.pc t = .ret r) : Step s (.ret t r) (s.goto t (.done r))

/-- An execution: the events of the steps from one state to another. -/
inductive Run : State → List Ev → State → Prop where
  | nil (s : State) : Run s [] s
  | snoc {s s' s'' : State} {l : List Ev} {e : Ev} (h : Run s l s') (hs : Step s' e s'') : Run s (l ++ [e]) s''

end Verif.Model.Pool
