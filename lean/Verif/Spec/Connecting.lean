import Verif.Spec.Server
import Verif.Model.Connector
/-! Notions for connecting and authenticating. -/
namespace Verif.Spec
open Verif.Go Verif.Model

/-- The messages of the mechanism are what their names say: AuthenticateStart (4), AuthenticateContinue (5). -/
def Typed (st : Starter) : Prop :=
  (∀ buf creds s, st.start buf creds = .ok s → s.data[4]? = some 4) ∧
  ∀ k, st.cont = some k → ∀ buf creds data s, k buf creds data = .ok s → s.data[4]? = some 5

/-- The mechanism itself does not panic. -/
def Calm (st : Starter) : Prop :=
  (∀ buf creds, st.start buf creds ≠ .error .panic) ∧ ∀ k, st.cont = some k → ∀ buf creds data, k buf creds data ≠ .error .panic

/-- The peer's streams do not end with bufio's ErrBufferFull. -/
def Streams (env : Env) : Prop :=
  (∀ t src, env.dial = some (t, src) → src.err ≠ .bufferFull) ∧ ∀ src, env.handshake = some src → src.err ≠ .bufferFull

/-- The messages of the configured mechanism, and the request for TLS. -/
def Configured (k : Connector) (full : Bytes) : Prop :=
  capabilitySet (ascii "tls") true = .ok full ∨ (∃ buf s, k.starter.start buf k.creds = .ok s ∧ full = s.data) ∨
  ∃ f buf data s, k.starter.cont = some f ∧ f buf k.creds data = .ok s ∧ full = s.data

/-- The configured mechanism was turned down with access denied (1045): the last thing written was its message, on a
connection over `t`, and the server answered with that error. -/
def TurnedDown (cd : Codec) (k : Connector) (t : Transport) (l : List Event) : Prop :=
  ∃ l0 full se before after, l = l0 ++ [.wrote t full] ∧ Configured k full ∧ Answered cd before (.error se) after ∧ se.code = 1045

/-- The connection was closed, as the last thing that happened, and only once. -/
def ClosedAtLast (l : List Event) : Prop := ∃ l0, l = l0 ++ [.closed] ∧ Event.closed ∉ l0

/-- What must have happened on the network when `New` returns: on an error the connection has been closed, otherwise it is
open and the server's last answer was OK. -/
def NoLeak (cd : Codec) (l : List Event) : Except NewErr Conn → Prop
  | .error _ => ClosedAtLast l
  | .ok conn => Event.closed ∉ l ∧ ∃ before, Answered cd before .ok conn.r.pending

/-- Apart from the request for TLS, which comes first, nothing is written but inside TLS, after the handshake. -/
def OnlyInTLS (l : List Event) : Prop :=
  ∀ l1 t b l2, l = l1 ++ .wrote t b :: l2 →
    (∃ full, capabilitySet (ascii "tls") true = .ok full ∧ b <+: full ∧ l1 = []) ∨ (t = .tls ∧ Event.handshake true ∈ l1)

end Verif.Spec
