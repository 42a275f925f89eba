import Verif.Go.Bufio
import Verif.Go.Strconv
/-! Model of /repo/netx/connection/connection.go. -/
namespace Verif.Model
open Verif.Go

/-- errors.go:9-14 `MySqlXError`; severity 1 is FATAL (mysqlx.proto). -/
structure SrvError where
  severity : Nat
  code : Nat
  sqlState : Bytes
  msg : Bytes
  deriving DecidableEq, Repr

/-- errors.go:20-22 -/
def SrvError.isFatal (e : SrvError) : Bool := e.severity == 1

/-- `proto.Unmarshal` for the messages that are looked into (golang/protobuf, a parameter of the model): the error with
its getters applied, whether column metadata is well-formed, the data of a server AuthenticateContinue. -/
structure Codec where
  error : Bytes → Option SrvError
  columnMeta : Bytes → Bool
  authContinue : Bytes → Option Bytes

/-- `netx.Response`: nil or a `*MySqlXError` -/
inductive Response where
  | ok
  | error (e : SrvError)
  deriving DecidableEq, Repr

/-- the `error` result of `Read` -/
inductive ReadErr where
  | io (e : IOErr)
  | tooShort
  | unmarshalMeta
  | unmarshalError
  | unmarshalContinue
  | mysqlx (e : SrvError)
  | unexpectedContinue
  | requireContinue (data : Bytes)
  deriving DecidableEq, Repr

/-- `binary.LittleEndian.Uint32` of at least four bytes -/
def le32 (b : Bytes) : Nat :=
  (b.getD 0 0).toNat ||| ((b.getD 1 0).toNat <<< 8) ||| ((b.getD 2 0).toNat <<< 16) ||| ((b.getD 3 0).toNat <<< 24)

/-- connection.go:126-141: the payload of `n` bytes, and the number of bytes still to be discarded.  With `n = 0` the
variable `b` keeps the five bytes of the header.  (Reuse of the scratch buffer `buf` is not modelled: it is overwritten
completely.) -/
def payload (r : Bufio) (hd : Bytes) (n : Nat) : Bufio × Except IOErr (Bytes × Nat) :=
  if 0 < n then
    match r.peek n with
    | (r, b, none) => (r, .ok (b, n))
    | (r, _, some e) =>
      if e ≠ .bufferFull then (r, .error e)
      else
        match r.readFull n with
        | (r, b, none) => (r, .ok (b, 0))
        | (r, _, some e) => (r, .error e)
  else (r, .ok (hd, 0))

/-- connection.go:108-202 `Read`.  The loop gets a bound on the number of messages; `none` means the bound was too small
(`readOne_some` shows that it never is).  Client types: SESS_RESET = 6, AUTHENTICATE_START = 4, AUTHENTICATE_CONTINUE = 5.
Server types: OK = 0, ERROR = 1, AUTHENTICATE_CONTINUE = 3, AUTHENTICATE_OK = 4, NOTICE = 11, COLUMN_META_DATA = 12,
STMT_EXECUTE_OK = 17.  Peeked bytes stay valid until after the `Discard`, since nothing is read in between. -/
def readLoop (cd : Codec) (ct : UInt8) : Nat → Bufio → Option (Bufio × Response × Option ReadErr)
  | 0, _ => none
  | f + 1, r =>
    match r.peek 5 with
    | (r, _, some e) => some (r, .ok, some (.io e))
    | (r, hd, none) =>
      let u := le32 hd
      let st := (hd.getD 4 0).toNat
      let r := r.discard 5
      if u < 1 then some (r, .ok, some .tooShort)
      else
        match payload r hd (u - 1) with
        | (r, .error e) => some (r, .ok, some (.io e))
        | (r, .ok (b, n)) =>
          if st = 0 ∨ st = 4 ∨ st = 17 then some (r.discard n, .ok, none)
          else if st = 12 then
            if cd.columnMeta b then readLoop cd ct f (r.discard n) else some (r, .ok, some .unmarshalMeta)
          else if st = 1 then
            match cd.error b with
            | none => some (r.discard n, .ok, some .unmarshalError)
            | some e =>
              if e.isFatal then some (r.discard n, .error e, some (.mysqlx e))
              else if ct = 6 ∨ ct = 4 ∨ ct = 5 then some (r.discard n, .error e, some (.mysqlx e))
              else some (r.discard n, .error e, none)
          else if st = 11 then readLoop cd ct f (r.discard n)
          else if st = 3 then
            if ct ≠ 4 then some (r.discard n, .ok, some .unexpectedContinue)
            else
              match cd.authContinue b with
              | none => some (r.discard n, .ok, some .unmarshalContinue)
              | some data => some (r.discard n, .ok, some (.requireContinue data))
          else readLoop cd ct f (r.discard n)

/-- `Read`: every message has at least five bytes, so the bytes to come bound the number of messages. -/
def readOne (cd : Codec) (ct : UInt8) (r : Bufio) : Option (Bufio × Response × Option ReadErr) :=
  readLoop cd ct (r.pending.length + 1) r

/-- connection.go:97-106 `ReadResponsesToSlice`, from index `i` of the request on; `fuel` bounds the rounds (each advances
by at least 4 bytes).  `b[i:]` shorter than four bytes and `b[i+4]` out of range panic. -/
def readResponses (cd : Codec) (b : Bytes) : Nat → Nat → Bufio → List Response → M (Option (Bufio × List Response × Option ReadErr))
  | 0, _, _, _ => .ok none
  | f + 1, i, r, acc =>
    if b.length ≤ i then .ok (some (r, acc, none))
    else if b.length ≤ i + 4 then .error .panic
    else
      match readOne cd (b.getD (i + 4) 0) r with
      | none => .ok none
      | some (r, rr, some e) => .ok (some (r, acc ++ [rr], some e))
      | some (r, rr, none) => readResponses cd b f (i + 4 + le32 (b.drop i)) r (acc ++ [rr])

/-- The reading part of `Send`, connection.go:65-74. -/
def readAll (cd : Codec) (b : Bytes) (r : Bufio) : M (Option (Bufio × List Response × Option ReadErr)) :=
  readResponses cd b (b.length + 1) 0 r []

/-- The dynamic type of the `net.Conn`: *net.TCPConn, *net.UnixConn, *tls.Conn, anything else a custom dialer returns. -/
inductive Transport where
  | tcp
  | unix
  | tls
  | other
  deriving DecidableEq, Repr

/-- What happens on the network, in order. -/
inductive Event where
  /-- bytes handed to the operating system (for TLS: before encryption) -/
  | wrote (t : Transport) (b : Bytes)
  | handshake (ok : Bool)
  | closed
  deriving DecidableEq, Repr

/-- The outside world of one connection: whether the `k`-th call of `SetDeadline` or `Write` fails, and how many bytes a
failing `Write` has written nevertheless; the number of calls made; what has happened. -/
structure World where
  fault : Nat → Option IOErr
  part : Nat → Nat
  calls : Nat
  log : List Event

/-- connection.go:24-27 `conn` -/
structure Conn where
  transport : Transport
  r : Bufio

/-- connection.go:29-35 -/
def Conn.isSecure (c : Conn) : Bool := c.transport = .tls ∨ c.transport = .unix

/-- connection.go:42-47; `minBufSize` = 4096. -/
def Conn.new (t : Transport) (src : Source) : Conn := ⟨t, Bufio.new 4096 src⟩

/-- connection.go:37-40: what was buffered is dropped. -/
def Conn.reset (c : Conn) (t : Transport) (src : Source) : Conn := ⟨t, Bufio.new c.r.size src⟩

/-- connection.go:49-51 (the error of `Close` is ignored by the callers in /repo). -/
def World.close (w : World) : World := { w with log := w.log ++ [.closed] }

/-- The errors of `WriteOne`, `Send` and `Authenticate`. -/
inductive ConnErr where
  | setDeadline (e : IOErr)
  | write (e : IOErr)
  | read (e : ReadErr)
  | unexpectedContinue
  deriving DecidableEq, Repr

/-- connection.go:55-61, 66-72: SetDeadline, then Write.  The deadline itself is not modelled (an expired one shows as an
error of the reads and writes). -/
def World.write (w : World) (t : Transport) (b : Bytes) : World × Option ConnErr :=
  match w.fault w.calls with
  | some e => ({ w with calls := w.calls + 1 }, some (.setDeadline e))
  | none =>
    match w.fault (w.calls + 1) with
    | some e => ({ w with calls := w.calls + 2, log := w.log ++ [.wrote t (b.take (w.part (w.calls + 1)))] }, some (.write e))
    | none => ({ w with calls := w.calls + 2, log := w.log ++ [.wrote t b] }, none)

/-- connection.go:53-63 `WriteOne`; `b[4]` panics for a short `b`, after it was written.  (A bound of `Read` that is too
small would count as a panic.) -/
def writeOne (cd : Codec) (w : World) (c : Conn) (b : Bytes) : M (World × Conn × Response × Option ConnErr) :=
  match w.write c.transport b with
  | (w, some e) => .ok (w, c, .ok, some e)
  | (w, none) =>
    match b[4]? with
    | none => .error .panic
    | some t =>
      match readOne cd t c.r with
      | none => .error .panic
      | some (r, rr, e) => .ok (w, { c with r := r }, rr, e.map .read)

/-- connection.go:65-74 `Send` -/
def Conn.send (cd : Codec) (w : World) (c : Conn) (b : Bytes) : M (World × Conn × List Response × Option ConnErr) :=
  match w.write c.transport b with
  | (w, some e) => .ok (w, c, [], some e)
  | (w, none) =>
    match readAll cd b c.r with
    | .error x => .error x
    | .ok none => .error .panic
    | .ok (some (r, rs, e)) => .ok (w, { c with r := r }, rs, e.map .read)

end Verif.Model
