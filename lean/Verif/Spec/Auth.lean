import Verif.Go.Slice
/-! What the server does with authentication data (MySQL X Protocol: MYSQL41, SHA256_MEMORY, PLAIN). -/
namespace Verif.Spec
open Verif.Go

/-- Value of a hexadecimal digit of either case. -/
def unhexDigit (b : UInt8) : Option UInt8 :=
  if 48 ≤ b ∧ b ≤ 57 then some (b - 48)
  else if 97 ≤ b ∧ b ≤ 102 then some (b - 87)
  else if 65 ≤ b ∧ b ≤ 70 then some (b - 55)
  else none

/-- The bytes written in hexadecimal. -/
def unhex : Bytes → Option Bytes
  | [] => some []
  | [_] => none
  | a :: b :: bs =>
    match unhexDigit a, unhexDigit b, unhex bs with
    | some x, some y, some r => some ((x * 16 + y) :: r)
    | _, _, _ => none

/-- Splits at the first NUL. -/
def splitNul : Bytes → Option (Bytes × Bytes)
  | [] => none
  | b :: bs => if b = 0 then some ([], bs) else (splitNul bs).map fun x => (b :: x.1, x.2)

/-- Authentication data: schema NUL user NUL rest. -/
def parseAuthData (bs : Bytes) : Option (Bytes × Bytes × Bytes) :=
  match splitNul bs with
  | none => none
  | some (db, bs) =>
    match splitNul bs with
    | none => none
    | some (user, rest) => some (db, user, rest)

/-- Byte-wise exclusive or. -/
def xorBytes (a b : Bytes) : Bytes := List.zipWith (· ^^^ ·) a b

/-- The server's check for MYSQL41: it knows `stored = SHA1(SHA1(password))` and the challenge, xors the token with
`SHA1(challenge stored)`, which should be `SHA1(password)`, and hashes that.  The token is a star and 40 digits. -/
def mysql41Accepts (sha1 : Bytes → Bytes) (stored challenge : Bytes) (token : Bytes) : Bool :=
  match token with
  | star :: hex =>
    match unhex hex with
    | some t => star == 42 && t.length == 20 && sha1 (xorBytes t (sha1 (challenge ++ stored))) == stored
    | none => false
  | [] => false

/-- The server's check for SHA256_MEMORY: the cache holds `SHA256(SHA256(password))`. -/
def sha256Accepts (sha256 : Bytes → Bytes) (stored challenge : Bytes) (token : Bytes) : Bool :=
  match unhex token with
  | some t => t.length == 32 && sha256 (xorBytes t (sha256 (stored ++ challenge))) == stored
  | none => false

end Verif.Spec
