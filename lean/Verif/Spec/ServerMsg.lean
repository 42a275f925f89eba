import Verif.Spec.Schema
import Verif.Spec.Server
/-! What a server says in answer to a client message, its messages being read as the .proto files declare them. -/
namespace Verif.Spec
open Verif.Go Verif.Spec.Schema
open Verif.Model (SrvError Response)

/-- A message of type `m` that reads as `t`. -/
def ReadsAs (m : Msg) (p : Bytes) (t : Tree) : Prop := readTree (p.length + 1) m p = some t

/-- The error a message of type Mysqlx.Error stands for (severity 0 is ERROR, the default, and 1 is FATAL). -/
inductive ErrorTree : Tree → SrvError → Prop
  | plain {code state msg} :
      ErrorTree (.msg [("code", [.nat code]), ("sql_state", [.bytes state]), ("msg", [.bytes msg])]) ⟨0, code, state, msg⟩
  | error {code state msg} : ErrorTree (.msg [("severity", [.enum "ERROR"]), ("code", [.nat code]), ("sql_state", [.bytes state]),
      ("msg", [.bytes msg])]) ⟨0, code, state, msg⟩
  | fatal {code state msg} : ErrorTree (.msg [("severity", [.enum "FATAL"]), ("code", [.nat code]), ("sql_state", [.bytes state]),
      ("msg", [.bytes msg])]) ⟨1, code, state, msg⟩

/-- `bs` starts with a complete answer that says `rr`, and `rest` follows it: Ok (0), AuthenticateOk (4), StmtExecuteOk (17)
or Error (1), after any number of notices, metadata (12), rows and messages of a later version. -/
inductive Says : Bytes → Response → Bytes → Prop
  | ok {bs rest p : Bytes} {t : UInt8} (hf : readFrame bs = some ((t, p), rest)) (ht : t = 0 ∨ t = 4 ∨ t = 17) : Says bs .ok rest
  | error {bs rest p : Bytes} {t : Tree} {e : SrvError} (hf : readFrame bs = some ((1, p), rest)) (ht : ReadsAs .Error p t)
      (he : ErrorTree t e) : Says bs (.error e) rest
  | more {bs bs' rest p : Bytes} {t : UInt8} {rr : Response} (hf : readFrame bs = some ((t, p), bs'))
      (ht : t ≠ 0 ∧ t ≠ 1 ∧ t ≠ 3 ∧ t ≠ 4 ∧ t ≠ 17) (hm : t = 12 → ∃ x, ReadsAs .Resultset_ColumnMetaData p x)
      (h : Says bs' rr rest) : Says bs rr rest

/-- An answer to every one of the client messages of the given types, none ending the exchange. -/
inductive SaysAll : List UInt8 → Bytes → List Response → Bytes → Prop
  | nil (bs : Bytes) : SaysAll [] bs [] bs
  | cons {ct : UInt8} {cts : List UInt8} {bs bs' rest : Bytes} {rr : Response} {rrs : List Response}
      (h : Says bs rr bs') (he : ¬Ends ct rr) (hs : SaysAll cts bs' rrs rest) : SaysAll (ct :: cts) bs (rr :: rrs) rest

/-- The server asks for the second message of an authentication with the challenge `data`. -/
inductive SaysContinue : Bytes → Bytes → Bytes → Prop
  | last {bs rest p data : Bytes} (hf : readFrame bs = some ((3, p), rest))
      (ht : ReadsAs .Session_AuthenticateContinue p (.msg [("auth_data", [.bytes data])])) : SaysContinue bs data rest
  | more {bs bs' rest p data : Bytes} {t : UInt8} (hf : readFrame bs = some ((t, p), bs'))
      (ht : t ≠ 0 ∧ t ≠ 1 ∧ t ≠ 3 ∧ t ≠ 4 ∧ t ≠ 17) (hm : t = 12 → ∃ x, ReadsAs .Resultset_ColumnMetaData p x)
      (h : SaysContinue bs' data rest) : SaysContinue bs data rest

end Verif.Spec
