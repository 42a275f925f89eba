import Verif.Spec.Connecting
import Verif.Model.Options
/-! What the options of a connector ask for. -/
namespace Verif.Spec
open Verif.Go Verif.Model

/-- The options of the library. -/
inductive Setting where
  | database (db : Bytes)
  | authentication (st : Starter)
  | userPassword (user password : Bytes)
  | tls (config : Option Nat)

/-- The function in Go that makes the option. -/
def Setting.opt {E : Type} : Setting → Opt E
  | .database db => withDatabase db
  | .authentication st => withAuthentication st
  | .userPassword u p => withUserPassword u p
  | .tls c => withTLSConfig c

/-- The last setting of the kind, or the default. -/
def lastSetting {α : Type} (f : Setting → Option α) (default : α) (ss : List Setting) : α := (ss.reverse.findSome? f).getD default

def Setting.database? : Setting → Option Bytes
  | .database db => some db
  | _ => none

def Setting.authentication? : Setting → Option Starter
  | .authentication st => some st
  | _ => none

def Setting.userPassword? : Setting → Option (Bytes × Bytes)
  | .userPassword u p => some (u, p)
  | _ => none

def Setting.tls? : Setting → Option (Option Nat)
  | .tls c => some c
  | _ => none

/-- The credentials asked for. -/
def wantedCreds (ss : List Setting) : Credentials :=
  let up := lastSetting Setting.userPassword? ([], []) ss
  ⟨lastSetting Setting.database? [] ss, up.1, up.2⟩

/-- The contract of `net.Dialer` (package net, "known networks"): the type of the connection. -/
def NetDialer (dial : Bytes → Bytes → Option (Transport × Source)) : Prop :=
  ∀ network address t src, dial network address = some (t, src) →
    (network ∈ [ascii "tcp", ascii "tcp4", ascii "tcp6"] → t = .tcp) ∧
    (network ∈ [ascii "unix", ascii "unixgram", ascii "unixpacket"] → t = .unix) ∧ src.err ≠ .bufferFull

end Verif.Spec
