import Verif.Model.Connection
/-! `Read` and `Send` of /repo/netx/connection/connection.go with the scratch buffers they allocate.  (`Verif.Model.Connection`
leaves them out; `Verif.Props.Memory` shows that everything else is the same.)  The buffer of the `bufio.Reader` is
allocated once, with the connection; what `proto.Unmarshal` allocates is not counted. -/
namespace Verif.Model
open Verif.Go

/-- connection.go:128-136: the scratch buffer made for a payload of `n` bytes, `cap` being the capacity of the one there is. -/
def scratch (r : Bufio) (cap n : Nat) : List Nat :=
  if 0 < n then
    match r.peek n with
    | (_, _, some .bufferFull) => if cap < n then [n] else []
    | _ => []
  else []

/-- connection.go:108-202 `Read`, as `readLoop`, with the sizes of the buffers made, in order. -/
def readLoopM (cd : Codec) (ct : UInt8) : Nat → Bufio → Nat → Option ((Bufio × Response × Option ReadErr) × List Nat)
  | 0, _, _ => none
  | f + 1, r, cap =>
    match r.peek 5 with
    | (r, _, some e) => some ((r, .ok, some (.io e)), [])
    | (r, hd, none) =>
      let u := le32 hd
      let st := (hd.getD 4 0).toNat
      let r := r.discard 5
      if u < 1 then some ((r, .ok, some .tooShort), [])
      else
        let new := scratch r cap (u - 1)
        match payload r hd (u - 1) with
        | (r, .error e) => some ((r, .ok, some (.io e)), new)
        | (r, .ok (b, n)) =>
          let again := (readLoopM cd ct f (r.discard n) (new.headD cap)).map fun x => (x.1, new ++ x.2)
          if st = 0 ∨ st = 4 ∨ st = 17 then some ((r.discard n, .ok, none), new)
          else if st = 12 then
            if cd.columnMeta b then again else some ((r, .ok, some .unmarshalMeta), new)
          else if st = 1 then
            match cd.error b with
            | none => some ((r.discard n, .ok, some .unmarshalError), new)
            | some e =>
              if e.isFatal then some ((r.discard n, .error e, some (.mysqlx e)), new)
              else if ct = 6 ∨ ct = 4 ∨ ct = 5 then some ((r.discard n, .error e, some (.mysqlx e)), new)
              else some ((r.discard n, .error e, none), new)
          else if st = 11 then again
          else if st = 3 then
            if ct ≠ 4 then some ((r.discard n, .ok, some .unexpectedContinue), new)
            else
              match cd.authContinue b with
              | none => some ((r.discard n, .ok, some .unmarshalContinue), new)
              | some data => some ((r.discard n, .ok, some (.requireContinue data)), new)
          else again

/-- connection.go:109: no scratch buffer at first. -/
def readOneM (cd : Codec) (ct : UInt8) (r : Bufio) : Option ((Bufio × Response × Option ReadErr) × List Nat) :=
  readLoopM cd ct (r.pending.length + 1) r 0

/-- connection.go:97-106 `ReadResponsesToSlice`, as `readResponses`. -/
def readResponsesM (cd : Codec) (b : Bytes) : Nat → Nat → Bufio → List Response → M (Option ((Bufio × List Response × Option ReadErr) × List Nat))
  | 0, _, _, _ => .ok none
  | f + 1, i, r, acc =>
    if b.length ≤ i then .ok (some ((r, acc, none), []))
    else if b.length ≤ i + 4 then .error .panic
    else
      match readOneM cd (b.getD (i + 4) 0) r with
      | none => .ok none
      | some ((r, rr, some e), l) => .ok (some ((r, acc ++ [rr], some e), l))
      | some ((r, rr, none), l) =>
        match readResponsesM cd b f (i + 4 + le32 (b.drop i)) r (acc ++ [rr]) with
        | .error x => .error x
        | .ok none => .ok none
        | .ok (some (x, l')) => .ok (some (x, l ++ l'))

/-- The reading part of `Send`, connection.go:65-74. -/
def readAllM (cd : Codec) (b : Bytes) (r : Bufio) : M (Option ((Bufio × List Response × Option ReadErr) × List Nat)) :=
  readResponsesM cd b (b.length + 1) 0 r []

end Verif.Model
