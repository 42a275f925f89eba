import Verif.Spec.Server
import Verif.Spec.Plugin
/-! A server at the other end of a connection: it reads the request (`Verif.Spec.decodeStream`), executes the messages
(`Verif.Spec.serve`) and answers them (`Verif.Spec.Answered`). -/
namespace Verif.Spec
open Verif.Go Verif.Model

/-- The response that stands for an answer: anything but success is an error, fatal or not. -/
inductive Stands : Answer → Response → Prop where
  | ok : Stands .ok .ok
  | failed (e : SrvError) : Stands .failed (.error e)
  | skipped (e : SrvError) : Stands .skipped (.error e)

/-- `bs` starts with one complete answer after the other, as given, and `rest` follows them. -/
inductive Replies (cd : Codec) : List Answer → List Response → Bytes → Bytes → Prop where
  | nil (bs : Bytes) : Replies cd [] [] bs bs
  | cons {a : Answer} {as : List Answer} {bs bs' rest : Bytes} {rr : Response} {rrs : List Response}
      (h : Answered cd bs rr bs') (ha : Stands a rr) (hs : Replies cd as rrs bs' rest) : Replies cd (a :: as) (rr :: rrs) bs rest

/-- In session `s` a server gets the request `b`, what happens to the messages being up to the script; `p` are the bytes
that arrive at the client, and the last argument is the session afterwards.  Either all goes well, or the connection goes
away at some point: the server has executed no more than some of the first messages, the rest of the request being lost,
and the client gets no more than some of the first bytes of the answers. -/
inductive Serves (cd : Codec) (spreads : Bool) (script : Nat → Fate) (s : Session) (b p : Bytes) : Session → Prop where
  | done {ms : List ClientMsg} {rrs : List Response} {rest : Bytes} (hd : decodeStream b = some ms)
      (hr : Replies cd (serve spreads script ms s).1 rrs p rest) : Serves cd spreads script s b p (serve spreads script ms s).2
  | lost {ms : List ClientMsg} {rrs : List Response} {k : Nat} {full rest : Bytes} (hd : decodeStream b = some ms)
      (hr : Replies cd (serve spreads script (ms.take k) s).1 rrs full rest) (hn : ∀ rr r, ¬Answered cd rest rr r) (hp : p <+: full) :
      Serves cd spreads script s b p (serve spreads script (ms.take k) s).2.drop

end Verif.Spec
