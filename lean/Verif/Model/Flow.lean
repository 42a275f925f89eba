import Verif.Go.Slice
/-! How `Send` (/repo/netx/connection/connection.go:65-74) moves bytes: `Write` has to hand over the whole request before the
first byte of an answer is read.  The network holds at most `up` bytes on the way to the server and at most `down` bytes on
the way back (socket buffers of both sides).  The server takes one message after the other and writes the whole answer to a
message before it takes the next one.  Only numbers of bytes matter; the steps are single bytes, in any interleaving. -/
namespace Verif.Model.Flow

/-- Bytes written by the client, taken by the server, written by the server, read by the client. -/
structure State where
  sent : Nat
  taken : Nat
  answered : Nat
  got : Nat
  deriving DecidableEq, Repr

/-- A request: the lengths of its messages, each with the length of the server's answer. -/
abbrev Request := List (Nat × Nat)

def size : Request → Nat
  | [] => 0
  | m :: ms => m.1 + size ms

/-- The length of the answers to the messages that are complete after `n` bytes of the request. -/
def owed : Request → Nat → Nat
  | [], _ => 0
  | m :: ms, n => if m.1 ≤ n then m.2 + owed ms (n - m.1) else 0

/-- One byte moves. -/
inductive Step (up down : Nat) (ms : Request) : State → State → Prop where
  /-- connection.go:70, in `Write` -/
  | write {s : State} (h : s.sent < size ms) (hu : s.sent < s.taken + up) : Step up down ms s { s with sent := s.sent + 1 }
  /-- the server reads the request; it has answered what it has read before -/
  | take {s : State} (h : s.taken < s.sent) (ha : s.answered = owed ms s.taken) : Step up down ms s { s with taken := s.taken + 1 }
  /-- the server writes an answer -/
  | answer {s : State} (h : s.answered < owed ms s.taken) (hd : s.answered < s.got + down) :
      Step up down ms s { s with answered := s.answered + 1 }
  /-- connection.go:73, after `Write` -/
  | read {s : State} (h : s.sent = size ms) (hr : s.got < s.answered) : Step up down ms s { s with got := s.got + 1 }

inductive Run (up down : Nat) (ms : Request) : State → State → Prop where
  | nil (s : State) : Run up down ms s s
  | snoc {s s' s'' : State} (h : Run up down ms s s') (hs : Step up down ms s' s'') : Run up down ms s s''

/-- `Send` begins. -/
def start : State := ⟨0, 0, 0, 0⟩

/-- `Send` has read the answers to all messages. -/
def Done (ms : Request) (s : State) : Prop := s.sent = size ms ∧ s.got = owed ms (size ms)

end Verif.Model.Flow
