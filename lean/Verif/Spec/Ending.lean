import Verif.Spec.Server
/-! How a stream ends: behind a whole message or in the midst of one. -/
namespace Verif.Spec
open Verif.Go Verif.Model

/-- `tail` is the beginning of the message `m`, of any length, but not all of it. -/
def Begun (tail : Bytes) (m : UInt8 × Bytes) : Prop := ∃ more, more ≠ [] ∧ readFrame (tail ++ more) = some (m, [])

/-- `tail` follows a number of whole messages that do not end an answer. -/
inductive Skips (cd : Codec) : Bytes → Bytes → Prop where
  | done (bs : Bytes) : Skips cd bs bs
  | more {bs bs' tail : Bytes} {m : UInt8 × Bytes} (hf : readFrame bs = some (m, bs')) (hm : Intermediate cd m)
      (h : Skips cd bs' tail) : Skips cd bs tail

/-- What Go's package io asks for: `io.EOF` is the end of the stream between messages, `io.ErrUnexpectedEOF` its end within
one; other errors of the network are handed on. -/
def endOf (E : IOErr) (tail : Bytes) : IOErr := if E = .eof ∧ tail ≠ [] then .unexpectedEOF else E

/-- Why the answer to a message of type `ct` is an error, seen from what is left of the stream behind the intermediate messages,
after which the network reports `E`.  -/
inductive Cause (cd : Codec) (ct : UInt8) (E : IOErr) : Bytes → ReadErr → Prop where
  /-- fewer than the five bytes of a header -/
  | header {tail : Bytes} (h : tail.length < 5) : Cause cd ct E tail (.io E)
  /-- fewer bytes than the header announces -/
  | payload {tail : Bytes} {m : UInt8 × Bytes} (h5 : 5 ≤ tail.length) (h : Begun tail m) :
      Cause cd ct E tail (.io (if E = .eof ∧ 5 < tail.length ∧ 4096 < m.2.length then .unexpectedEOF else E))
  /-- a message without a type -/
  | zero (t : UInt8) (rest : Bytes) : Cause cd ct E (0 :: 0 :: 0 :: 0 :: t :: rest) .tooShort
  /-- column metadata that cannot be decoded -/
  | columnMeta {tail rest p : Bytes} (hf : readFrame tail = some ((12, p), rest)) (h : p = [] ∨ cd.columnMeta p = false) :
      Cause cd ct E tail .unmarshalMeta
  /-- an error that cannot be decoded -/
  | badError {tail rest p : Bytes} (hf : readFrame tail = some ((1, p), rest)) (h : p = [] ∨ cd.error p = none) :
      Cause cd ct E tail .unmarshalError
  /-- an error that ends the exchange -/
  | error {tail rest p : Bytes} {e : SrvError} (hf : readFrame tail = some ((1, p), rest)) (hp : p ≠ []) (h : cd.error p = some e)
      (he : Ends ct (.error e)) : Cause cd ct E tail (.mysqlx e)
  /-- a challenge that nobody asked for -/
  | unasked {tail rest p : Bytes} (hf : readFrame tail = some ((3, p), rest)) (h : ct ≠ 4) : Cause cd ct E tail .unexpectedContinue
  /-- a challenge that cannot be decoded -/
  | badContinue {tail rest p : Bytes} (hf : readFrame tail = some ((3, p), rest)) (hc : ct = 4) (h : p = [] ∨ cd.authContinue p = none) :
      Cause cd ct E tail .unmarshalContinue
  /-- a challenge -/
  | challenge {tail rest p data : Bytes} (hf : readFrame tail = some ((3, p), rest)) (hc : ct = 4) (hp : p ≠ [])
      (h : cd.authContinue p = some data) : Cause cd ct E tail (.requireContinue data)

end Verif.Spec
