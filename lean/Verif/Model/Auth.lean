import Verif.Model.Messages
import Verif.Go.Strconv
/-! Model of /repo/netx/connector/authentication/{plain,mysql41,sha256}. The hash functions are parameters. -/
namespace Verif.Model
open Verif.Go

/-- authentication.go `Credentials`, answered by connector.go:51-53 -/
structure Credentials where
  database : Bytes
  userName : Bytes
  password : Bytes
  deriving DecidableEq, Repr

/-- `h.Sum(s[i:][:0])`: appends the digest to an empty slice at index `i` of the array of `s`, that is writes it there if
the capacity suffices (otherwise into a fresh array that the callers drop). -/
def sumAt (s : Slice) (i : Nat) (digest : Bytes) : Slice :=
  if i + digest.length ≤ s.cap then
    let all := overwrite (s.data ++ s.spare) i digest
    ⟨all.take s.len, all.drop s.len⟩
  else s

/-- Go `s[i] ^= v` -/
def setXor (s : Slice) (i : Nat) (v : UInt8) : M Slice :=
  match s.data[i]? with
  | some x => .ok ⟨s.data.set i (x ^^^ v), s.spare⟩
  | none => .error .panic

/-- Go `s[i]` -/
def getAt (s : Slice) (i : Nat) : M UInt8 :=
  match s.data[i]? with
  | some x => .ok x
  | none => .error .panic

/-- `for i, x := range h1 { h2[i] ^= x }` where `h1` starts at `i`, `h2` at `j` of one array; `k` elements are left. -/
def xorLoop : Nat → Slice → Nat → Nat → M Slice
  | 0, s, _, _ => .ok s
  | k + 1, s, i, j => do
    let x ← getAt s i
    let s ← setXor s j x
    xorLoop k s (i + 1) (j + 1)

/-- `hextable[x]` -/
def hexDigit (x : UInt8) : UInt8 := if x < 10 then 48 + x else 87 + x

/-- `hex.Encode(dst, src)` (encoding/hex): `dst` starts at `i`, `src` at `j` of one array; `k` source bytes are left.
The source is read byte by byte while the destination is written. -/
def hexLoop : Nat → Slice → Nat → Nat → M Slice
  | 0, s, _, _ => .ok s
  | k + 1, s, i, j => do
    let v ← getAt s j
    let s ← setAt s i (hexDigit (v >>> 4))
    let s ← setAt s (i + 1) (hexDigit (v &&& 0x0F))
    hexLoop k s (i + 2) (j + 1)

/-- The common beginning, plain.go:20-26, mysql41.go:28-34, sha256.go:27-33: database NUL user NUL at index `o` of the
allocated bytes.  Returns the index after it. -/
def putNames (s : Slice) (o : Nat) (c : Credentials) : M (Slice × Nat) := do
  let (s, k) ← copyAt s o c.database
  let i := o + k
  let s ← setAt s i 0
  let i := i + 1
  let (s, k) ← copyAt s i c.userName
  let i := i + k
  let s ← setAt s i 0
  .ok (s, i + 1)

/-- plain.go:15-29.  `ad` is the end of `buf` from index `o` on. -/
def plainStart (g : Grow) (buf : Slice) (c : Credentials) : M Slice := do
  let n := c.database.length + 1 + c.userName.length + 1 + c.password.length
  let buf ← allocate buf n
  let o := buf.len - n
  let (buf, i) ← putNames buf o c
  let (buf, _) ← copyAt buf i c.password
  authenticateStart g buf (ascii "PLAIN") (buf.data.drop o)

/-- mysql41.go:18-20 -/
def mysql41Start (g : Grow) (buf : Slice) (_ : Credentials) : M Slice := authenticateStart g buf (ascii "MYSQL41") []

/-- mysql41.go:22-63; `sha1` is crypto/sha1 and `sha1.Size` = 20.  `h1` and `h2` are parts of the same array. -/
def mysql41Continue (g : Grow) (sha1 : Bytes → Bytes) (buf : Slice) (c : Credentials) (authData : Bytes) : M Slice := do
  let n := c.database.length + 1 + c.userName.length + 1
  let n := if 0 < c.password.length then n + (1 + 2 * 20) else n
  let buf ← allocate buf n
  let o := buf.len - n
  let (buf, i) ← putNames buf o c
  let buf ← if 0 < c.password.length then do
      let buf ← setAt buf i 42
      let i := i + 1
      let j := i + 20
      if buf.len < j then .error .panic
      else
        let buf := sumAt buf i (sha1 c.password)
        let buf := sumAt buf j (sha1 ((buf.data.drop i).take 20))
        let buf := sumAt buf j (sha1 (authData ++ buf.data.drop j))
        let buf ← xorLoop 20 buf i j
        hexLoop (buf.len - j) buf i j
    else .ok buf
  authenticateContinue g buf (buf.data.drop o)

/-- sha256.go:18-20 -/
def sha256Start (g : Grow) (buf : Slice) (_ : Credentials) : M Slice := authenticateStart g buf (ascii "SHA256_MEMORY") []

/-- sha256.go:22-56; `sha256` is crypto/sha256 and `sha256.Size` = 32. -/
def sha256Continue (g : Grow) (sha256 : Bytes → Bytes) (buf : Slice) (c : Credentials) (authData : Bytes) : M Slice := do
  let n := c.database.length + 1 + c.userName.length + 1 + 2 * 32
  let buf ← allocate buf n
  let o := buf.len - n
  let (buf, i) ← putNames buf o c
  let j := i + 32
  if buf.len < j then .error .panic
  else
    let buf := sumAt buf i (sha256 c.password)
    let buf := sumAt buf j (sha256 ((buf.data.drop i).take 32))
    let buf := sumAt buf j (sha256 (buf.data.drop j ++ authData))
    let buf ← xorLoop 32 buf i j
    let buf ← hexLoop (buf.len - j) buf i j
    authenticateContinue g buf (buf.data.drop o)

end Verif.Model
