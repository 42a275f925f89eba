import Verif.Proof.Answer
import Verif.Props.Units
/-! C29 - C32: sending and reading responses. -/
namespace Verif.Props
open Verif.Go Verif.Spec Verif.Model Verif.Proof

/-- `SetDeadline` and `Write` succeed. -/
def Writable (w : World) : Prop := w.fault w.calls = none ∧ w.fault (w.calls + 1) = none

theorem write_ok {w : World} (hw : Writable w) (t : Transport) (b : Bytes) :
    w.write t b = ({ w with calls := w.calls + 2, log := w.log ++ [.wrote t b] }, none) := by
  simp [World.write, hw.1, hw.2]

theorem send_ok (cd : Codec) {w : World} (hw : Writable w) {c : Conn} (hc : Life cd c.r) {b : Bytes} {fs : List (UInt8 × Bytes)}
    (hb : readFrames b = some fs) :
    ∃ r' rs e, Conn.send cd w c b = .ok ({ w with calls := w.calls + 2, log := w.log ++ [.wrote c.transport b] }, { c with r := r' }, rs, e.map .read) ∧
      readAllP cd c.r.size c.r.src.err (fs.map Prod.fst) c.r.pending = (r'.pending, rs, e) := by
  obtain ⟨i1, i2, i3⟩ := life_inv hc
  obtain ⟨r', rs, e, q1, q2, q3, q4⟩ := readAll_spec cd hb i1 (by omega) i3
  exact ⟨r', rs, e, by rw [Conn.send, write_ok hw]; dsimp only; rw [q1], q4⟩

/-! ### C29 -/

/-- **C29.** A request of whole frames is written as it is.  If the bytes to come start with an answer to every message
(any number of intermediate messages, then a terminal one), then `Send` returns the responses these stand for, one per
message and in order, and the connection stands exactly behind the last answer. -/
theorem C29_one_response_each (cd : Codec) {w : World} (hw : Writable w) {c : Conn} (hc : Life cd c.r) {b : Bytes}
    {fs : List (UInt8 × Bytes)} (hb : readFrames b = some fs) {rest : Bytes} {rrs : List Response}
    (ha : AnsweredAll cd (fs.map Prod.fst) c.r.pending rrs rest) :
    ∃ w' c', Conn.send cd w c b = .ok (w', c', rrs, none) ∧ rrs.length = fs.length ∧ c'.r.pending = rest ∧
      w'.log = w.log ++ [.wrote c.transport b] := by
  obtain ⟨r', rs, e, h1, h2⟩ := send_ok cd hw hc hb
  rw [answeredAll_read cd _ _ ha] at h2
  simp only [Prod.mk.injEq] at h2
  obtain ⟨h2, rfl, rfl⟩ := h2
  refine ⟨_, _, h1, ?_, h2.symm, rfl⟩
  simpa using answeredAll_length ha

/-- **C29**, the converse: when `Send` reports success, the server has answered every message with a complete terminal
message, and the responses are these. -/
theorem C29_only_answers {cd : Codec} (hcd : RejectsHeaders cd) {w w' : World} (hw : Writable w) {c c' : Conn} (hc : Life cd c.r)
    {b : Bytes} {fs : List (UInt8 × Bytes)} (hb : readFrames b = some fs) {rrs : List Response}
    (h : Conn.send cd w c b = .ok (w', c', rrs, none)) : AnsweredAll cd (fs.map Prod.fst) c.r.pending rrs c'.r.pending := by
  obtain ⟨r', rs, e, h1, h2⟩ := send_ok cd hw hc hb
  rw [h] at h1
  simp only [Except.ok.injEq, Prod.mk.injEq] at h1
  obtain ⟨-, rfl, rfl, h1⟩ := h1
  obtain rfl : e = none := by cases e with
    | none => rfl
    | some e => cases h1
  exact read_answeredAll hcd _ _ h2

/-- **C29** for units of work: what the builder has recorded is a request of as many frames as messages. -/
theorem C29_units {g : Grow} {b b' : Builder} {prog : Prog} {o : List Builder} {out : List (Option Val)} (hb : Ready b)
    (h0 : b.buf.data = []) (h : run g prog [] b = .ok (o, b', out)) {bs : Bytes} (hs : b'.send = .ok (.ok bs)) (hl : bs.length < 2 ^ 32) :
    ∃ ms vs fs, Exec libDur 0 prog (.ok []) (.ok ms) out vs ∧ readFrames bs = some fs ∧ fs.length = ms.length := by
  rw [Builder.send] at hs
  split at hs
  · cases hs
  · cases he : b'.err with
    | some e => rw [he] at hs; simp at hs
    | none =>
      rw [he] at hs
      simp only [Except.ok.injEq] at hs
      obtain ⟨ms, vs, frs, x1, x2, x3, x4⟩ := C10_unit_frames hb h he
      rw [h0, hs, List.nil_append] at x2
      obtain ⟨⟨raw, y1, y2⟩, -⟩ := x4 (by
        intro f hf
        have : f.length ≤ frs.flatten.length := by
          obtain ⟨l1, l2, rfl⟩ := List.append_of_mem hf
          simp; omega
        rw [← x2] at this
        omega)
      exact ⟨ms, vs, raw, x1, by rw [x2]; exact y1, y2⟩

/-! ### C30 -/

/-- **C30**, errors of statements: `C29_one_response_each` with an error anywhere among the answers, not ending the
exchange: it is the response of its own message, and the responses before and after are those of their messages. -/
theorem C30_error_in_place (cd : Codec) {w : World} (hw : Writable w) {c : Conn} (hc : Life cd c.r) {b : Bytes}
    {fs fs' : List (UInt8 × Bytes)} {f : UInt8 × Bytes} (hb : readFrames b = some (fs ++ f :: fs')) {mid mid' rest : Bytes}
    {before after : List Response} (h1 : AnsweredAll cd (fs.map Prod.fst) c.r.pending before mid) {e : SrvError}
    (h2 : Answered cd mid (.error e) mid') (hn : e.severity ≠ 1) (hf : f.1 ≠ 4 ∧ f.1 ≠ 5 ∧ f.1 ≠ 6)
    (h3 : AnsweredAll cd (fs'.map Prod.fst) mid' after rest) :
    ∃ w' c', Conn.send cd w c b = .ok (w', c', before ++ .error e :: after, none) ∧ before.length = fs.length ∧ c'.r.pending = rest := by
  have key : AnsweredAll cd ((fs ++ f :: fs').map Prod.fst) c.r.pending (before ++ .error e :: after) rest := by
    have h4 : AnsweredAll cd (f.1 :: fs'.map Prod.fst) mid (.error e :: after) rest :=
      .cons h2 (by simp [Ends, hn, hf]) h3
    rw [List.map_append, List.map_cons]
    exact answeredAll_append h1 h4
  obtain ⟨w', c', q1, -, q3, -⟩ := C29_one_response_each cd hw hc hb key
  refine ⟨w', c', q1, ?_, q3⟩
  simpa using answeredAll_length h1

/-- **C30**, errors that end the exchange: a fatal error, and any error answering AuthenticateStart, AuthenticateContinue
or Reset, is the error of `Send` and the last response; nothing behind it is read. -/
theorem C30_error_ends (cd : Codec) {w : World} (hw : Writable w) {c : Conn} (hc : Life cd c.r) {b : Bytes}
    {fs fs' : List (UInt8 × Bytes)} {f : UInt8 × Bytes} (hb : readFrames b = some (fs ++ f :: fs')) {mid rest : Bytes}
    {before : List Response} (h1 : AnsweredAll cd (fs.map Prod.fst) c.r.pending before mid) {e : SrvError}
    (h2 : Answered cd mid (.error e) rest) (hn : e.severity = 1 ∨ f.1 = 4 ∨ f.1 = 5 ∨ f.1 = 6) :
    ∃ w' c', Conn.send cd w c b = .ok (w', c', before ++ [.error e], some (.read (.mysqlx e))) ∧ c'.r.pending = rest := by
  obtain ⟨r', rs, e', q1, q2⟩ := send_ok cd hw hc hb
  have key : readAllP cd c.r.size c.r.src.err ((fs ++ f :: fs').map Prod.fst) c.r.pending = (rest, before ++ [.error e], some (.mysqlx e)) := by
    have h4 : readAllP cd c.r.size c.r.src.err (f.1 :: fs'.map Prod.fst) mid = (rest, [.error e], some (.mysqlx e)) := by
      rw [readAllP, answered_read cd f.1 _ _ h2, endErr, if_pos hn]
    rw [List.map_append, List.map_cons]
    rw [readAllP_append cd _ _ h1, h4]
  rw [key] at q2
  simp only [Prod.mk.injEq] at q2
  obtain ⟨q2, rfl, rfl⟩ := q2
  exact ⟨_, _, q1, q2.symm⟩

/-! ### C31 -/

/-- **C31**, safety: whatever bytes come, in whatever pieces, however the stream ends, and however the messages decode:
reading the responses to any request of whole frames ends and does not panic, and the connection can go on.  (Memory is
not modelled here: a length field makes `Read` allocate up to 4 GiB.) -/
theorem C31_safe (cd : Codec) {w : World} {c : Conn} (hc : Life cd c.r) {b : Bytes} {fs : List (UInt8 × Bytes)}
    (hb : readFrames b = some fs) : ∃ w' c' rrs e, Conn.send cd w c b = .ok (w', c', rrs, e) ∧ Life cd c'.r ∧ rrs.length ≤ fs.length := by
  obtain ⟨i1, i2, i3⟩ := life_inv hc
  obtain ⟨r', rs, e, q1, q2, q3, q4⟩ := readAll_spec cd hb i1 (by omega) i3
  have hlen : rs.length ≤ fs.length := by
    have := readAllP_length cd c.r.size c.r.src.err (fs.map Prod.fst) c.r.pending
    rw [q4] at this
    simpa using this
  rw [Conn.send]
  cases hwr : w.write c.transport b with
  | mk w1 e1 =>
    cases e1 with
    | some e1 => exact ⟨w1, c, [], some e1, rfl, hc, by simp⟩
    | none => dsimp only; rw [q1]; exact ⟨w1, _, rs, _, rfl, .sent hc q1, hlen⟩

/-- **C31**, one message (`WriteOne`): the same. -/
theorem C31_safe_one (cd : Codec) {w : World} {c : Conn} (hc : Life cd c.r) {b : Bytes} (hb : 5 ≤ b.length) :
    ∃ w' c' rr e, writeOne cd w c b = .ok (w', c', rr, e) ∧ Life cd c'.r := by
  obtain ⟨i1, i2, i3⟩ := life_inv hc
  rw [writeOne]
  cases hwr : w.write c.transport b with
  | mk w1 e1 =>
    cases e1 with
    | some e1 => exact ⟨w1, c, .ok, some e1, rfl, hc⟩
    | none =>
      have : b[4]? = some b[4] := List.getElem?_eq_getElem (by omega)
      obtain ⟨r', rr, e, q1, q2, q3, q4⟩ := readOne_spec cd b[4] i1 (by omega) i3
      dsimp only
      rw [this]
      dsimp only
      rw [q1]
      exact ⟨w1, _, rr, _, rfl, .read hc q1⟩

/-- **C31**, nothing of a following message is consumed: whatever the result of `Read`, the bytes behind the message that
ends the answer are still to come. -/
theorem C31_no_overrun {cd : Codec} (hcd : RejectsHeaders cd) {r r' : Bufio} (hr : Life cd r) {ct : UInt8} {rr : Response}
    {e : Option ReadErr} (h : readOne cd ct r = some (r', rr, e)) : ∃ rest, Upto cd r.pending rest ∧ rest <:+ r'.pending := by
  obtain ⟨i1, i2, i3⟩ := life_inv hr
  obtain ⟨q, rr', e', q1, q2, q3, q4⟩ := readOne_spec cd ct i1 (by omega) i3
  rw [h] at q1
  simp only [Option.some.injEq, Prod.mk.injEq] at q1
  obtain ⟨rfl, -, -⟩ := q1
  obtain ⟨rest, a, b⟩ := readP_upto hcd ct r.size r.src.err r.pending.length (p := r.pending) (Nat.le_refl _)
  rw [q4] at b
  exact ⟨rest, a, b⟩

/-- **C31**, no success without a complete answer, and then exactly the answer is consumed. -/
theorem C31_success_complete {cd : Codec} (hcd : RejectsHeaders cd) {r r' : Bufio} (hr : Life cd r) {ct : UInt8} {rr : Response}
    (h : readOne cd ct r = some (r', rr, none)) : Answered cd r.pending rr r'.pending ∧ ¬Ends ct rr := by
  obtain ⟨i1, i2, i3⟩ := life_inv hr
  obtain ⟨q, rr', e', q1, q2, q3, q4⟩ := readOne_spec cd ct i1 (by omega) i3
  rw [h] at q1
  simp only [Option.some.injEq, Prod.mk.injEq] at q1
  obtain ⟨rfl, rfl, rfl⟩ := q1
  obtain ⟨a, b⟩ := read_answered hcd ct _ _ _ (Nat.le_refl _) q4 (.inl rfl)
  refine ⟨a, ?_⟩
  cases rr with
  | ok => exact id
  | error e => intro he; unfold Ends at he; rw [endErr, if_pos he] at b; cases b

/-- **C31**, truncation: cut the answers to a request short at any point, and `Send` fails with an I/O error. -/
theorem C31_truncated (cd : Codec) {w : World} (hw : Writable w) {c : Conn} (hc : Life cd c.r) {b : Bytes}
    {fs : List (UInt8 × Bytes)} (hb : readFrames b = some fs) {answers missing rest : Bytes} {rrs : List Response}
    (ha : AnsweredAll cd (fs.map Prod.fst) answers rrs rest) (hcut : answers = c.r.pending ++ missing) (hm : rest.length < missing.length) :
    ∃ w' c' rrs' x, Conn.send cd w c b = .ok (w', c', rrs', some (.read (.io x))) := by
  obtain ⟨r', rs, e, h1, h2⟩ := send_ok cd hw hc hb
  obtain ⟨x, hx⟩ := answeredAll_truncated (size := c.r.size) (E := c.r.src.err) ha hcut hm
  rw [h2] at hx
  simp only at hx
  subst hx
  exact ⟨_, _, rs, x, h1⟩

/-! ### C32 -/

/-- Sends on one connection after the other, and what they return. -/
def sends (cd : Codec) : List Bytes → World → Conn → M (Conn × List (List Response × Option ConnErr))
  | [], _, c => .ok (c, [])
  | b :: bs, w, c =>
    match Conn.send cd w c b with
    | .error x => .error x
    | .ok (w, c, rs, e) =>
      match sends cd bs w c with
      | .error x => .error x
      | .ok (c, out) => .ok (c, (rs, e) :: out)

theorem sends_sim (cd : Codec) : ∀ (bs : List Bytes) (w : World) {c c' : Conn}, c.transport = c'.transport → Sim c.r c'.r → 5 ≤ c.r.size →
    c.r.src.err ≠ .bufferFull →
    (sends cd bs w c).map (fun x => (x.1.r.pending, x.2)) = (sends cd bs w c').map fun x => (x.1.r.pending, x.2)
  | [], _, _, _, _, h, _, _ => by simp [sends, Except.map, h.pending]
  | b :: bs, w, c, c', ht, h, hs, hE => by
    simp only [sends, Conn.send, ← ht]
    cases hwr : w.write c.transport b with
    | mk w1 e1 =>
      cases e1 with
      | some e1 =>
        dsimp only
        have ih := sends_sim cd bs w1 ht h hs hE
        cases h1 : sends cd bs w1 c <;> cases h2 : sends cd bs w1 c' <;> rw [h1, h2] at ih <;> simp [Except.map] at ih ⊢
        · exact ih
        · exact ih
      | none =>
        dsimp only
        rcases readResponses_sim cd b (b.length + 1) (i := 0) (acc := []) h hs hE with ⟨e, w | w⟩ | ⟨p, p', rs, e, q1, q2, q3, q4⟩
        · rw [readAll, readAll, ← e, w]
        · rw [readAll, readAll, ← e, w]
        · rw [readAll, readAll, q1, q2]
          dsimp only
          have ih := sends_sim cd bs w1 (c := ⟨c.transport, p⟩) (c' := ⟨c'.transport, p'⟩) ht q3 (by rw [q4.size]; exact hs) (by rw [q4.err]; exact hE)
          rw [← ht] at ih
          cases h1 : sends cd bs w1 ⟨c.transport, p⟩ <;> cases h2 : sends cd bs w1 ⟨c.transport, p'⟩ <;> rw [h1, h2] at ih <;> simp [Except.map] at ih ⊢
          · exact ih
          · exact ih

/-- **C32.** The pieces in which the network delivers the bytes do not matter: any sequence of requests (well-formed or
not) on two connections that receive the same bytes, split differently, gives the same responses and errors, and leaves
the same bytes unread. -/
theorem C32_fragmentation (cd : Codec) (bs : List Bytes) (w : World) (t : Transport) {src src' : Source}
    (hb : src.chunks.flatten = src'.chunks.flatten) (he : src.err = src'.err) (hE : src.err ≠ .bufferFull) :
    (sends cd bs w (Conn.new t src)).map (fun x => (x.1.r.pending, x.2)) =
      (sends cd bs w (Conn.new t src')).map fun x => (x.1.r.pending, x.2) :=
  sends_sim cd bs w rfl ⟨new_inv _ _, new_inv _ _, rfl, he, by simp [Conn.new, Bufio.new, Bufio.pending, hb]⟩ (by simp [Conn.new, Bufio.new]) hE

/-! ### a case -/

/-- A decoder for trying: the first byte of an error is its severity, the second its code; metadata begins with 8. -/
def toyCodec : Codec where
  error b := match b with
    | s :: c :: m => if s.toNat < 2 ∧ c ≠ 0 then some ⟨s.toNat, c.toNat, [], m⟩ else none
    | _ => none
  columnMeta b := b.head? = some 8
  authContinue b := match b with
    | 10 :: m => some m
    | _ => none

theorem toyCodec_rejects : RejectsHeaders toyCodec := fun _ => ⟨rfl, rfl, rfl⟩

def calm : World := ⟨fun _ => none, fun _ => 0, 0, []⟩

/-- A notice, an Ok; metadata, a row, an error; StmtExecuteOk; then bytes of something else.  Delivered in odd pieces. -/
def srcEx : Source where
  chunks := [[1, 0], [0, 0, 11, 1, 0, 0, 0, 0, 3, 0, 0, 0], [], [12, 8, 1], [2, 0, 0, 0, 13, 5, 4, 0, 0, 0, 1, 0, 7, 33, 1, 0, 0, 0, 17, 99], [98]]
  err := .eof
  joined := false

/-- A StmtExecute, an Update and a StmtExecute. -/
def reqEx : Bytes := [3, 0, 0, 0, 12, 1, 2] ++ [1, 0, 0, 0, 19] ++ [2, 0, 0, 0, 12, 5]

example : readFrames reqEx = some [(12, [1, 2]), (19, []), (12, [5])] := by decide +kernel

example : (Conn.send toyCodec calm (Conn.new .tcp srcEx) reqEx).toOption.map (fun x => (x.2.2.1, x.2.2.2, x.2.1.r.pending)) =
    some ([.ok, .error ⟨0, 7, [], [33]⟩, .ok], none, [99, 98]) := by decide +kernel

/-- The hypotheses of C29 are met. -/
example : AnsweredAll toyCodec [12, 19, 12] (Conn.new .tcp srcEx).r.pending [.ok, .error ⟨0, 7, [], [33]⟩, .ok] [99, 98] := by
  refine .cons (.more (m := (11, [])) rfl (by simp [Intermediate]) (.last (m := (0, [])) rfl (.ok (by decide)))) (by simp [Ends]) ?_
  refine .cons (.more (m := (12, [8, 1])) rfl (by simp [Intermediate, toyCodec]) (.more (m := (13, [5])) rfl (by simp [Intermediate]) (.last (m := (1, [0, 7, 33])) rfl (.error (by simp) rfl))))
    (by simp [Ends]) ?_
  exact .cons (.last (m := (17, [])) rfl (.ok (by decide))) (by simp [Ends]) (.nil _)

/-- Cut anywhere: an error. -/
example : ∀ n < 35, ((Conn.send toyCodec calm (Conn.new .tcp ⟨[srcEx.chunks.flatten.take n], .eof, true⟩) reqEx).toOption.map (·.2.2.2)) =
    some (some (.read (.io .eof))) ∨ 34 ≤ n := by decide +kernel

/-- An answer that is a fatal error ends `Send`. -/
example : (Conn.send toyCodec calm (Conn.new .tcp ⟨[[1, 0, 0, 0, 0], [3, 0, 0, 0, 1, 1, 9, 1, 0, 0, 0, 0]], .eof, true⟩) reqEx).toOption.map
    (fun x => (x.2.2.1, x.2.2.2, x.2.1.r.pending)) =
    some ([.ok, .error ⟨1, 9, [], []⟩], some (.read (.mysqlx ⟨1, 9, [], []⟩)), [1, 0, 0, 0, 0]) := by decide +kernel

end Verif.Props
