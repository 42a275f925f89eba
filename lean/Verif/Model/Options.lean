import Verif.Model.Connector
/-! Model of the constructor of a connector and its options (/repo/netx/connector/connector.go:23-60, 99-135). -/
namespace Verif.Model
open Verif.Go

/-- connector.go:23-33 `Connector`.  The dialer is left out: it is `new(net.Dialer)`, and there is no option for it (see
`Config.new`).  A `*tls.Config` is nil or some configuration (a number stands for it: `New` only looks whether it is nil and
hands it to crypto/tls). -/
structure Config where
  network : Bytes
  address : Bytes
  tls : Option Nat
  starter : Starter
  userName : Bytes
  password : Bytes
  database : Bytes

/-- connector.go:100 `Option`: a function that gets a pointer to the connector, may change it, and returns an error or nil. -/
abbrev Opt (E : Type) := Config → Config × Option E

/-- connector.go:102-108 -/
def withDatabase {E : Type} (database : Bytes) : Opt E := fun c => ({ c with database := database }, none)

/-- connector.go:110-118 -/
def withAuthentication {E : Type} (auth : Starter) : Opt E := fun c => ({ c with starter := auth }, none)

/-- connector.go:120-127 -/
def withUserPassword {E : Type} (userName password : Bytes) : Opt E := fun c => ({ c with userName := userName, password := password }, none)

/-- connector.go:129-135 -/
def withTLSConfig {E : Type} (tls : Option Nat) : Opt E := fun c => ({ c with tls := tls }, none)

/-- connector.go:42-46, the loop -/
def applyOptions {E : Type} : List (Opt E) → Config → Except E Config
  | [], c => .ok c
  | o :: os, c =>
    match o c with
    | (_, some e) => .error e
    | (c, none) => applyOptions os c

/-- connector.go:35-49 `New`; `mysql41.New()` is the mechanism MYSQL41. -/
def newConnector {E : Type} (g : Grow) (sha1 : Bytes → Bytes) (network address : Bytes) (opts : List (Opt E)) : Except E Config :=
  applyOptions opts ⟨network, address, none, mysql41 g sha1, [], [], []⟩

/-- connector.go:51-54: the connector is its own `Credentials`. -/
def Config.creds (c : Config) : Credentials := ⟨c.database, c.userName, c.password⟩

/-- What `Connector.New` depends on. -/
def Config.connector (c : Config) : Connector := ⟨c.tls.isSome, c.starter, c.creds⟩

/-- connector.go:59-97, with the dialer: `dial network address` is what `net.Dialer.DialContext` gives. -/
def Config.new (c : Config) (dial : Bytes → Bytes → Option (Transport × Source)) (env : Env) (w : World) : M (World × Except NewErr Conn) :=
  c.connector.new { env with dial := dial c.network c.address } w

end Verif.Model
