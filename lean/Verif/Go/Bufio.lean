import Verif.Go.Slice
/-! `bufio.Reader` and `io.ReadFull` of the Go standard library over a network connection (library behaviour, trusted).
Kept: what is buffered, how many bytes each read takes, where errors are kept and cleared. -/
namespace Verif.Go

inductive IOErr where
  | eof
  | unexpectedEOF
  | bufferFull
  | other (n : Nat)
  deriving DecidableEq, Repr

/-- What the peer sends: the bytes in the pieces in which the network delivers them, then an error (end of stream, reset,
timeout).  `joined`: the error is reported together with the last bytes.  (An empty piece counts as no read: a `Read` into
a non-empty buffer returns bytes or an error.)  The bytes of an interactive peer depend on what it was sent; a run
determines the pieces, and the theorems are about all lists of pieces. -/
structure Source where
  chunks : List Bytes
  err : IOErr
  joined : Bool
  deriving DecidableEq, Repr

/-- `net.Conn.Read` into `n > 0` bytes. -/
def Source.readAux (err : IOErr) (joined : Bool) (n : Nat) : List Bytes → Bytes × Option IOErr × List Bytes
  | [] => ([], some err, [])
  | [] :: cs => Source.readAux err joined n cs
  | (b :: c) :: cs =>
    if c.length < n then (b :: c, if joined && cs.flatten.isEmpty then some err else none, cs)
    else ((b :: c).take n, none, (b :: c).drop n :: cs)

def Source.read (s : Source) (n : Nat) : Bytes × Option IOErr × Source :=
  let (d, e, cs) := Source.readAux s.err s.joined n s.chunks
  (d, e, { s with chunks := cs })

/-- bufio.Reader: size of the buffer, unread bytes in it, pending error, connection. -/
structure Bufio where
  size : Nat
  buf : Bytes
  err : Option IOErr
  src : Source
  deriving DecidableEq, Repr

namespace Bufio

/-- `fill`: one read into the free part of the buffer. -/
def fill (r : Bufio) : Bufio :=
  let (d, e, src) := r.src.read (r.size - r.buf.length)
  { r with buf := r.buf ++ d, err := e.orElse fun _ => r.err, src := src }

/-- `readErr`: the pending error, which is cleared. -/
def readErr (r : Bufio) : Option IOErr × Bufio := (r.err, { r with err := none })

/-- The loop of `Peek`: every round adds a byte or sets the error, so `n` rounds suffice. -/
def peekLoop (n : Nat) : Nat → Bufio → Bufio
  | 0, r => r
  | f + 1, r => if r.buf.length < n ∧ r.buf.length < r.size ∧ r.err = none then peekLoop n f r.fill else r

/-- `Peek(n)` -/
def peek (r : Bufio) (n : Nat) : Bufio × Bytes × Option IOErr :=
  let r := peekLoop n n r
  if r.size < n then (r, r.buf, some .bufferFull)
  else if r.buf.length < n then
    let (e, r') := r.readErr
    (r', r.buf, some (e.getD .bufferFull))
  else (r, r.buf.take n, none)

/-- The loop of `Discard`, every round of which skips a byte or finds an error. -/
def discardLoop : Nat → Bufio → Nat → Bufio
  | 0, r, _ => r
  | f + 1, r, remain =>
    let r := if r.buf.length = 0 then r.fill else r
    let skip := min r.buf.length remain
    let r := { r with buf := r.buf.drop skip }
    if remain - skip = 0 then r
    else if r.err = none then discardLoop f r (remain - skip)
    else r.readErr.2

/-- `Discard(n)`; its results are ignored by /repo. -/
def discard (r : Bufio) (n : Nat) : Bufio := if n = 0 then r else discardLoop n r n

/-- `Read(p)` for `len(p) = n > 0` -/
def read (r : Bufio) (n : Nat) : Bufio × Bytes × Option IOErr :=
  if r.buf = [] then
    if r.err ≠ none then
      let (e, r) := r.readErr
      (r, [], e)
    else if r.size ≤ n then
      let (d, e, src) := r.src.read n
      ({ r with src := src }, d, e)
    else
      let (d, e, src) := r.src.read r.size
      if d = [] then ({ r with src := src, err := none }, [], e)
      else ({ r with src := src, err := e, buf := d.drop n }, d.take n, none)
  else ({ r with buf := r.buf.drop n }, r.buf.take n, none)

/-- `io.ReadFull(r, p)`: `need` bytes are missing; every round reads a byte or finds an error. -/
def readFullLoop : Nat → Bufio → Nat → Bytes → Bufio × Bytes × Option IOErr
  | 0, r, _, acc => (r, acc, none)
  | f + 1, r, need, acc =>
    if need = 0 then (r, acc, none)
    else
      let (r, d, e) := r.read need
      let acc := acc ++ d
      if d.length = need then (r, acc, none)
      else match e with
        | none => readFullLoop f r (need - d.length) acc
        | some .eof => (r, acc, some (if acc = [] then .eof else .unexpectedEOF))
        | some e => (r, acc, some e)

def readFull (r : Bufio) (n : Nat) : Bufio × Bytes × Option IOErr := readFullLoop n r n []

/-- Everything that is still to come. -/
def pending (r : Bufio) : Bytes := r.buf ++ r.src.chunks.flatten

/-- `bufio.NewReaderSize(src, 4096)` and `Reset(src)` -/
def new (size : Nat) (src : Source) : Bufio := ⟨size, [], none, src⟩

end Bufio
end Verif.Go
