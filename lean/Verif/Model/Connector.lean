import Verif.Model.Connection
import Verif.Model.Auth
import Verif.Model.Capability
/-! Model of `Authenticate` (/repo/netx/connection/connection.go:204-225) and of /repo/netx/connector/connector.go. -/
namespace Verif.Model
open Verif.Go

/-- authentication.go:9-16: a `Starter`, which may be a `StartContinuer`. -/
structure Starter where
  start : Slice → Credentials → M Slice
  cont : Option (Slice → Credentials → Bytes → M Slice)

/-- plain.go:9-13 -/
def plain (g : Grow) : Starter := ⟨plainStart g, none⟩

/-- mysql41.go:12-16 -/
def mysql41 (g : Grow) (sha1 : Bytes → Bytes) : Starter := ⟨mysql41Start g, some (mysql41Continue g sha1)⟩

/-- sha256.go:12-16 -/
def sha256Memory (g : Grow) (sha256 : Bytes → Bytes) : Starter := ⟨sha256Start g, some (sha256Continue g sha256)⟩

/-- connection.go:204-225 `Authenticate`.  `buf` is a zeroed array of 128 bytes; what it contains when it is passed to
`Continue` depends on whether `Start` used it, and is any `scratch` here.  The response of `WriteOne` is dropped. -/
def authenticate (cd : Codec) (scratch : Bytes) (w : World) (c : Conn) (creds : Credentials) (st : Starter) : M (World × Conn × Option ConnErr) := do
  let b ← st.start ⟨[], List.replicate 128 0⟩ creds
  match ← writeOne cd w c b.data with
  | (w, c, _, none) => .ok (w, c, none)
  | (w, c, _, some (.read (.requireContinue data))) =>
    match st.cont with
    | none => .ok (w, c, some .unexpectedContinue)
    | some k =>
      let b ← k ⟨[], scratch⟩ creds data
      let (w, c, _, e) ← writeOne cd w c b.data
      .ok (w, c, e)
  | (w, c, _, some e) => .ok (w, c, some e)

/-- connector.go:23-33, as far as `New` depends on it: whether there is a TLS configuration, the mechanism, the credentials. -/
structure Connector where
  tls : Bool
  starter : Starter
  creds : Credentials

/-- The outside world: what dialling gives, what the peer sends, what the TLS handshake gives (the decrypted bytes, if it
succeeds).  crypto/tls is trusted. -/
structure Env where
  cd : Codec
  g : Grow
  scratch : Bytes
  dial : Option (Transport × Source)
  handshake : Option Source

/-- The errors of `Connector.New`. -/
inductive NewErr where
  | dial
  | conn (e : ConnErr)
  | handshake
  deriving DecidableEq, Repr

/-- connector.go:85-86, `errs.ErAccessDeniedError` = 1045 -/
def denied : ConnErr → Bool
  | .read (.mysqlx e) => e.code == 1045
  | _ => false

/-- connector.go:84-96 -/
def finishNew (k : Connector) (env : Env) (w : World) (conn : Conn) : M (World × Except NewErr Conn) := do
  match ← authenticate env.cd env.scratch w conn k.creds k.starter with
  | (w, conn, none) => .ok (w, .ok conn)
  | (w, conn, some e) =>
    if denied e && conn.isSecure then
      match ← authenticate env.cd env.scratch w conn k.creds (plain env.g) with
      | (w, conn, none) => .ok (w, .ok conn)
      | (w, _, some _) => .ok (w.close, .error (.conn e))
    else .ok (w.close, .error (.conn e))

/-- connector.go:59-97 `Connector.New`.  The error of `CapabilitySet` cannot happen (see `capabilitySet`). -/
def Connector.new (k : Connector) (env : Env) (w : World) : M (World × Except NewErr Conn) :=
  match env.dial with
  | none => .ok (w, .error .dial)
  | some (t, src) =>
    let conn := Conn.new t src
    if t = .tcp ∧ k.tls = true then do
      let b ← capabilitySet (ascii "tls") true
      match ← Conn.send env.cd w conn b with
      | (w, _, _, some e) => .ok (w, .error (.conn e))
      | (w, conn, _, none) =>
        match env.handshake with
        | none => .ok (({ w with log := w.log ++ [.handshake false] } : World).close, .error .handshake)
        | some src =>
          finishNew k env { w with log := w.log ++ [.handshake true] } (conn.reset .tls src)
    else finishNew k env w conn

end Verif.Model
