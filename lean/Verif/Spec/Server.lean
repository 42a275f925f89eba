import Verif.Spec.Message
import Verif.Model.Connection
/-! What a server sends in answer to client messages, read off the X protocol documentation; frames are read with
`Verif.Spec.readFrame`. Only the types of the model are used. -/
namespace Verif.Spec
open Verif.Go Verif.Model

/-- A message that ends the answer to a client message, and the response it stands for: Ok (0), AuthenticateOk (4),
StmtExecuteOk (17), Error (1, which has required fields and so is not empty). -/
inductive Terminal (cd : Codec) : UInt8 × Bytes → Response → Prop where
  | ok {t : UInt8} {p : Bytes} (h : t = 0 ∨ t = 4 ∨ t = 17) : Terminal cd (t, p) .ok
  | error {p : Bytes} {e : SrvError} (hp : p ≠ []) (h : cd.error p = some e) : Terminal cd (1, p) (.error e)

/-- A message that may precede it: notices, metadata (well-formed), rows and whatever a later protocol adds. -/
def Intermediate (cd : Codec) (m : UInt8 × Bytes) : Prop :=
  m.1 ≠ 0 ∧ m.1 ≠ 1 ∧ m.1 ≠ 3 ∧ m.1 ≠ 4 ∧ m.1 ≠ 17 ∧ (m.1 = 12 → m.2 ≠ [] ∧ cd.columnMeta m.2 = true)

/-- `bs` starts with a complete answer that stands for `rr`, and `rest` follows it. -/
inductive Answered (cd : Codec) : Bytes → Response → Bytes → Prop where
  | last {bs rest : Bytes} {m : UInt8 × Bytes} {rr : Response} (hf : readFrame bs = some (m, rest)) (ht : Terminal cd m rr) :
      Answered cd bs rr rest
  | more {bs bs' rest : Bytes} {m : UInt8 × Bytes} {rr : Response} (hf : readFrame bs = some (m, bs')) (hm : Intermediate cd m)
      (h : Answered cd bs' rr rest) : Answered cd bs rr rest

/-- `bs` starts with a request for the second message of an authentication (AuthenticateContinue, 3, not empty since
its field is required) with the challenge `data`, possibly after intermediate messages. -/
inductive AsksContinue (cd : Codec) : Bytes → Bytes → Bytes → Prop where
  | last {bs rest p data : Bytes} (hf : readFrame bs = some ((3, p), rest)) (hp : p ≠ []) (h : cd.authContinue p = some data) :
      AsksContinue cd bs data rest
  | more {bs bs' rest data : Bytes} {m : UInt8 × Bytes} (hf : readFrame bs = some (m, bs')) (hm : Intermediate cd m)
      (h : AsksContinue cd bs' data rest) : AsksContinue cd bs data rest

/-- The errors that end the exchange: fatal ones (severity 1, mysqlx.proto:279-282), and any answer to AuthenticateStart (4), AuthenticateContinue (5) and
Reset (6) that is an error. -/
def Ends (ct : UInt8) : Response → Prop
  | .ok => False
  | .error e => e.severity = 1 ∨ ct = 4 ∨ ct = 5 ∨ ct = 6

/-- `bs` starts with complete answers to client messages of the given types, none of which ends the exchange. -/
inductive AnsweredAll (cd : Codec) : List UInt8 → Bytes → List Response → Bytes → Prop where
  | nil (bs : Bytes) : AnsweredAll cd [] bs [] bs
  | cons {ct : UInt8} {cts : List UInt8} {bs bs' rest : Bytes} {rr : Response} {rrs : List Response}
      (h : Answered cd bs rr bs') (he : ¬Ends ct rr) (hs : AnsweredAll cd cts bs' rrs rest) :
      AnsweredAll cd (ct :: cts) bs (rr :: rrs) rest

/-- `rest` is what follows the message that ends the answer at the front of `bs`: the first message that is not
intermediate, complete or cut off by the end of the stream. -/
inductive Upto (cd : Codec) : Bytes → Bytes → Prop where
  | last {bs rest : Bytes} {m : UInt8 × Bytes} (hf : readFrame bs = some (m, rest)) (hm : ¬Intermediate cd m) : Upto cd bs rest
  | more {bs bs' rest : Bytes} {m : UInt8 × Bytes} (hf : readFrame bs = some (m, bs')) (hm : Intermediate cd m)
      (h : Upto cd bs' rest) : Upto cd bs rest
  | cut {bs : Bytes} (hf : readFrame bs = none) : Upto cd bs []

/-- The life of a connection's reader: it starts empty and is used by `Read` and `ReadResponsesToSlice`.  (A network
connection does not fail with bufio's ErrBufferFull.) -/
inductive Life (cd : Codec) : Bufio → Prop where
  | new (t : Transport) (src : Source) (h : src.err ≠ .bufferFull) : Life cd (Conn.new t src).r
  | read {r r' : Bufio} {ct : UInt8} {rr : Response} {e : Option ReadErr} (h : Life cd r)
      (hr : readOne cd ct r = some (r', rr, e)) : Life cd r'
  | sent {r r' : Bufio} {b : Bytes} {rs : List Response} {e : Option ReadErr} (h : Life cd r)
      (hr : readAll cd b r = .ok (some (r', rs, e))) : Life cd r'

/-- The decoder of protobuf messages rejects a field number 0, and so the five bytes of a header with length 1. -/
def RejectsHeaders (cd : Codec) : Prop :=
  ∀ t : UInt8, cd.error [1, 0, 0, 0, t] = none ∧ cd.columnMeta [1, 0, 0, 0, t] = false ∧ cd.authContinue [1, 0, 0, 0, t] = none

end Verif.Spec
