/-! When calls return: the network operations that `conn.Send`, `Connector.New` and `poolCh.Send` make, with the time they take
and the deadline of the `net.Conn` (/repo/netx/connection/connection.go, /repo/netx/connector/connector.go,
/repo/netx/pool/fifoch/fifoch.go).

What the bytes are is left out: after an operation the call goes on in any way in which the code goes on for some bytes.  Time
is counted in ticks; computing takes none, an operation on the network at least one.  An operation under a deadline that
passes fails then, or at once if it has passed (contract of `net.Conn`; in reality a little later).  `tls.Conn` passes
`SetDeadline` on to the connection below it. -/
namespace Verif.Model.Timed

/-- A context: its deadline, and when it is cancelled, if ever. -/
structure Ctx where
  deadline : Option Nat
  cancel : Option Nat
  deriving DecidableEq, Repr

/-- When `ctx.Done()` is ready. -/
def Ctx.doneAt (x : Ctx) : Option Nat :=
  match x.deadline, x.cancel with
  | some d, some c => some (min d c)
  | some d, none => some d
  | none, c => c

/-- The exchanges: the capability, AuthenticateStart, AuthenticateContinue, the second attempt with PLAIN, the request. -/
inductive Kind where
  | tls
  | start
  | cont
  | plain
  | send
  deriving DecidableEq, Repr

inductive Res where
  | ok
  /-- of a deadline or of the context -/
  | timeout
  | error
  deriving DecidableEq, Repr

inductive Pc where
  /-- connector.go:60, in `DialContext` -/
  | dial
  /-- connection.go:55, 66: before `SetDeadline` -/
  | deadline (k : Kind)
  /-- connection.go:59, 70: in `Write` -/
  | write (k : Kind)
  /-- connection.go:62, 73: in a `Read` of the `bufio.Reader` -/
  | read (k : Kind)
  /-- connector.go:77, in a read or write of `Handshake` -/
  | handshake
  /-- connector.go:78, 93; fifoch.go:78, 86: in `Close`, where it is called -/
  | closing (r : Res)
  | done (r : Res)
  deriving DecidableEq, Repr

/-- The clock, the deadline of the connection (none: the zero `time.Time`), and where the call is. -/
structure State where
  now : Nat
  limit : Option Nat
  pc : Pc
  deriving DecidableEq, Repr

/-- What is called: with a TLS configuration, over a secure transport, whether a `Send` follows (fifoch.go:71, 76), and how
long `Close` may take at most (`tls.Conn` tries for five seconds to tell the peer; otherwise 0). -/
structure Config where
  tls : Bool
  secure : Bool
  sends : Bool
  grace : Nat
  deriving DecidableEq, Repr

/-- How the code goes on within an exchange, after a network operation that succeeded. -/
inductive Next (cfg : Config) : Kind → Pc → Prop where
  /-- connection.go:97-106, 112-201: the message is not complete, or it is not the last one -/
  | more (k : Kind) : Next cfg k (.read k)
  /-- connection.go:122, 157, 165, 174-180, 187, 191, 214, 218, 222; connector.go:74, 93-94: an answer that ends the call -/
  | error (k : Kind) : Next cfg k (.closing .error)
  /-- connection.go:105; fifoch.go:82-90 -/
  | sent : Next cfg .send (.closing .ok)
  /-- connector.go:73-77 -/
  | capability : Next cfg .tls .handshake
  /-- connection.go:220-221 -/
  | continue : Next cfg .start (.deadline .cont)
  /-- connector.go:86-89 -/
  | plain {k : Kind} (h : cfg.secure = true) (hk : k = .start ∨ k = .cont) : Next cfg k (.deadline .plain)
  /-- connector.go:89-96; fifoch.go:71-76 -/
  | authenticated {k : Kind} (hk : k = .start ∨ k = .cont ∨ k = .plain) : Next cfg k (if cfg.sends then .deadline .send else .done .ok)

/-- A network operation begun at `now` is over at the time given, before the deadline passes. -/
inductive Takes (limit : Option Nat) (now : Nat) : Nat → Prop where
  | mk {δ : Nat} (h : 1 ≤ δ) (hl : ∀ d, limit = some d → now + δ ≤ d) : Takes limit now (now + δ)

/-- Who makes the step possible: the network, or nobody but the client and the clock. -/
inductive Who where
  | net
  | own
  deriving DecidableEq, Repr

/-- In an operation on the connection. -/
def busy : Pc → Bool
  | .write _ | .read _ | .handshake => true
  | _ => false

/-- What the call returns if the deadline passes in an operation.  In the attempt with PLAIN: the error of the first attempt
(connector.go:89-94). -/
def overdue : Pc → Res
  | .write .plain | .read .plain => .error
  | _ => .timeout

inductive Step (cfg : Config) (x : Ctx) : State → Who → State → Prop where
  /-- connector.go:60-68; a new connection has no deadline -/
  | dialled {s : State} {t : Nat} (h : s.pc = .dial) (ht : Takes x.doneAt s.now t) :
      Step cfg x s .net ⟨t, none, .deadline (if cfg.tls then .tls else .start)⟩
  /-- connector.go:61-62 -/
  | notDialled {s : State} {t : Nat} (h : s.pc = .dial) (ht : Takes x.doneAt s.now t) : Step cfg x s .net ⟨t, s.limit, .done .error⟩
  /-- connector.go:61-62, `DialContext` watches the context -/
  | dialExpired {s : State} {d : Nat} (h : s.pc = .dial) (hd : x.doneAt = some d) : Step cfg x s .own ⟨max s.now d, s.limit, .done .timeout⟩
  /-- connection.go:55-56, 66-67; without a deadline `ctx.Deadline()` returns the zero time, which clears the old one -/
  | setDeadline {s : State} {k : Kind} (h : s.pc = .deadline k) : Step cfg x s .own ⟨s.now, x.deadline, .write k⟩
  /-- connection.go:57, 68 -/
  | setFailed {s : State} {k : Kind} (h : s.pc = .deadline k) : Step cfg x s .own ⟨s.now, s.limit, .closing .error⟩
  /-- connection.go:59, 70; the answers may be in the buffer already -/
  | wrote {s : State} {k : Kind} {t : Nat} {p : Pc} (h : s.pc = .write k) (ht : Takes s.limit s.now t) (hn : Next cfg k p) :
      Step cfg x s .net ⟨t, s.limit, p⟩
  /-- connection.go:113, 129, 138 -/
  | got {s : State} {k : Kind} {t : Nat} {p : Pc} (h : s.pc = .read k) (ht : Takes s.limit s.now t) (hn : Next cfg k p) :
      Step cfg x s .net ⟨t, s.limit, p⟩
  /-- connector.go:77-84 -/
  | shook {s : State} {t : Nat} {p : Pc} (h : s.pc = .handshake) (ht : Takes s.limit s.now t) (hp : p = .handshake ∨ p = .deadline .start) :
      Step cfg x s .net ⟨t, s.limit, p⟩
  /-- connection.go:60, 71, 115, 132, 139; connector.go:77-79 -/
  | failed {s : State} {t : Nat} (h : busy s.pc = true) (ht : Takes s.limit s.now t) : Step cfg x s .net ⟨t, s.limit, .closing .error⟩
  /-- the same lines, when the deadline passes -/
  | expired {s : State} {d : Nat} (h : busy s.pc = true) (hd : s.limit = some d) :
      Step cfg x s .own ⟨max s.now d, s.limit, .closing (overdue s.pc)⟩
  /-- `Close`; where the code does not call it this takes no time -/
  | closed {s : State} {r : Res} {δ : Nat} (h : s.pc = .closing r) (hδ : δ ≤ cfg.grace) : Step cfg x s .own ⟨s.now + δ, s.limit, .done r⟩

/-- An execution of so many steps. -/
inductive Run (cfg : Config) (x : Ctx) : State → Nat → State → Prop where
  | nil (s : State) : Run cfg x s 0 s
  | snoc {s s' s'' : State} {n : Nat} {w : Who} (h : Run cfg x s n s') (hs : Step cfg x s' w s'') : Run cfg x s (n + 1) s''

/-- `conn.Send` on a connection with whatever deadline an earlier call left. -/
def sending (now : Nat) (old : Option Nat) : State := ⟨now, old, .deadline .send⟩

/-- `Connector.New`, or a `poolCh.Send` that needs a new connection. -/
def dialling (now : Nat) : State := ⟨now, none, .dial⟩

end Verif.Model.Timed
