import Verif.Spec.Writes
import Verif.Props.PoolConn
/-! C82: one `Write` for a unit of work. -/
namespace Verif.Props
open Verif.Go Verif.Spec Verif.Model Verif.Proof

variable {cd : Codec} {w w' : World} {c c' : Conn} {b : Bytes} {rs : List Response} {e : Option ConnErr}

theorem writes_append (l l' : List Event) : writes (l ++ l') = writes l + writes l' := by
  induction l with
  | nil => simp [writes]
  | cons x l ih => cases x <;> simp only [List.cons_append, writes, ih] <;> omega

theorem writes_wrote (t : Transport) (l : List Bytes) : writes (l.map (.wrote t ·)) = l.length := by
  induction l with
  | nil => rfl
  | cons x l ih => simp [writes, ih]

/-- **C82.** However many messages a request has, whatever the network and the server do: `Send` calls `Write` once, with
the whole request, and reads only after that.  Not even once if `SetDeadline` fails; if `Write` fails the beginning of the
request may have got out, and nothing is tried again. -/
theorem C82_send (h : Conn.send cd w c b = .ok (w', c', rs, e)) :
    (∃ x, e = some (.setDeadline x) ∧ w'.log = w.log ∧ rs = []) ∨
    (∃ x b', e = some (.write x) ∧ b' <+: b ∧ w'.log = w.log ++ [.wrote c.transport b'] ∧ rs = []) ∨
    ((∀ x, e ≠ some (.setDeadline x) ∧ e ≠ some (.write x)) ∧ w'.log = w.log ++ [.wrote c.transport b]) := by
  rw [Conn.send, World.write] at h
  cases h1 : w.fault w.calls with
  | some x =>
    rw [h1] at h
    cases h
    exact .inl ⟨x, rfl, rfl, rfl⟩
  | none =>
    rw [h1] at h
    dsimp only at h
    cases h2 : w.fault (w.calls + 1) with
    | some x =>
      rw [h2] at h
      cases h
      exact .inr (.inl ⟨x, _, rfl, List.take_prefix _ _, rfl, rfl⟩)
    | none =>
      rw [h2] at h
      dsimp only at h
      split at h
      · cases h
      · cases h
      · rename_i r' rs' e' hr
        simp only [Except.ok.injEq, Prod.mk.injEq] at h
        obtain ⟨rfl, rfl, rfl, rfl⟩ := h
        exact .inr (.inr ⟨fun x => by cases e' <;> simp, rfl⟩)

/-- Three messages, one `Write`; with a failing `SetDeadline` none; with a failing `Write` one, and no second attempt. -/
example : (Conn.send toyCodec calm (Conn.new .tcp srcEx) reqEx).toOption.map (fun x => (x.1.log, x.2.2.2)) =
    some ([.wrote .tcp reqEx], none) := by decide +kernel

example : ((List.range 2).map fun k => (Conn.send toyCodec { calm with fault := fun n => if n = k then some .eof else none }
      (Conn.new .tcp srcEx) reqEx).toOption.map (fun x => (writes x.1.log, x.2.2.2))) =
    [some (0, some (.setDeadline .eof)), some (1, some (.write .eof))] := by decide +kernel

/-- **C82** for units of work: for every sequence of calls of the builder, of any length, what they recorded goes out with one
`Write`; if one of the calls failed, with none, since nothing is handed to the connection. -/
theorem C82_unit {g : Grow} {p p' : Builder} {prog : Prog} {o : List Builder} {out : List (Option Val)} (hb : Ready p)
    (h0 : p.buf.data = []) (h : run g prog [] p = .ok (o, p', out)) :
    (∃ er, p'.send = .ok (.error er)) ∨
    ∃ bs, p'.send = .ok (.ok bs) ∧
      (bs.length < 2 ^ 32 → ∃ ms vs fs, Exec libDur 0 prog (.ok []) (.ok ms) out vs ∧ readFrames bs = some fs ∧ fs.length = ms.length) ∧
      ∀ {w w' : World} {c c' : Conn} {rs : List Response} {e : Option ConnErr}, Conn.send cd w c bs = .ok (w', c', rs, e) →
        writes w'.log ≤ writes w.log + 1 ∧ ((∀ x, e ≠ some (.setDeadline x)) → writes w'.log = writes w.log + 1) := by
  obtain ⟨_, _, _, ⟨hd, _⟩, _⟩ := run_ready hb h
  cases he : p'.err with
  | some er => exact .inl ⟨er, by rw [Builder.send, hd, he]; rfl⟩
  | none =>
    have hs : p'.send = .ok (.ok p'.buf.data) := by rw [Builder.send, hd, he]; rfl
    refine .inr ⟨_, hs, fun hl => C29_units hb h0 h hs hl, fun hc => ?_⟩
    rcases C82_send hc with ⟨x, rfl, hlog, _⟩ | ⟨x, b', rfl, _, hlog, _⟩ | ⟨_, hlog⟩
    · exact ⟨by rw [hlog]; omega, fun hx => absurd rfl (hx x)⟩
    · rw [hlog, writes_append]; exact ⟨by simp [writes], fun _ => by simp [writes]⟩
    · rw [hlog, writes_append]; exact ⟨by simp [writes], fun _ => by simp [writes]⟩

theorem wrote_writes (h : Wrote cd w c b w' c' e) : writes w'.log ≤ writes w.log + 1 := by
  rcases wrote_log h with q | ⟨b', _, q⟩ <;> rw [q]
  · omega
  · rw [writes_append]; simp [writes]

theorem authed_writes {scratch : Bytes} {creds : Credentials} {st : Starter} (h : Authed cd scratch w c creds st w' c' e) :
    writes w'.log ≤ writes w.log + if st.cont.isSome then 2 else 1 := by
  cases h with
  | one hb h he => have := wrote_writes h; split <;> omega
  | noMore hb h hk => have := wrote_writes h; split <;> omega
  | two hb h hk hb2 h2 =>
    have := wrote_writes h
    have := wrote_writes h2
    rw [hk]
    simp only [Option.isSome_some, if_true]
    omega

/-- For the hypotheses of `C82_unit`: ten messages recorded by a fresh builder. -/
example : Ready (newPipe 300) ∧ (newPipe 300).buf.data = [] ∧ (run growEx progEx [] (newPipe 300)).toOption.isSome ∧
    ((appended (newPipe 300) progEx).bind readFrames).map (·.length) = some 10 := by
  refine ⟨⟨rfl, rfl⟩, rfl, by decide +kernel, by decide +kernel⟩

/-- **C82**, what a new connection costs before that, whatever the network and the server do: one `Write` to ask for TLS, if
it is configured, one or two for the mechanism, and one for PLAIN after it. -/
theorem C82_new {k : Connector} {env : Env} (hE : Streams env) {res : Except NewErr Conn} (h : k.new env w = .ok (w', res)) :
    writes w'.log ≤ writes w.log + (if k.tls then 1 else 0) + (if k.starter.cont.isSome then 2 else 1) + 1 := by
  have close : ∀ w : World, writes w.close.log = writes w.log := fun w => by simp [World.close, writes_append, writes]
  have fin : ∀ {w0 w1 : World} {c : Conn}, Finished k env w0 c w1 res → writes w1.log ≤ writes w0.log + (if k.starter.cont.isSome then 2 else 1) + 1 := by
    intro w0 w1 c hf
    cases hf with
    | ok ha => have := authed_writes ha; omega
    | failed ha hd => have := authed_writes ha; rw [close]; omega
    | plainOk ha hd hs h2 =>
      have := authed_writes ha
      have := authed_writes h2
      simp only [plain, Option.isSome_none, Bool.false_eq_true, if_false] at this
      omega
    | plainFailed ha hd hs h2 =>
      have := authed_writes ha
      have := authed_writes h2
      simp only [plain, Option.isSome_none, Bool.false_eq_true, if_false] at this
      rw [close]
      omega
  cases new_cases hE h with
  | noDial hd' => omega
  | plainly hd' ht' hf => have := fin hf; omega
  | refused hd' ht' hb hp hl =>
    rw [ht', if_pos rfl]
    rcases hl with hl | hl <;> rw [hl]
    · omega
    · rw [writes_append]; simp [writes]; omega
  | @noTLS _ _ b' hd' ht' hb hl =>
    rw [ht', if_pos rfl, close, hl]
    simp only [writes_append, writes]
    omega
  | overTLS hd' ht' hb hh hl hc hf =>
    have := fin hf
    rw [hl] at this
    simp only [writes_append, writes] at this
    rw [ht', if_pos rfl]
    omega

/-- The bound is reached: with TLS, MYSQL41 denied, PLAIN accepted there are four `Write`s; with PLAIN alone one. -/
example : (Connector.new ⟨true, mysql41 noGrow toySha1, credsEx⟩ (envEx .tcp ⟨[[1, 0, 0, 0, 0]], .eof, false⟩ deniesEx) calm).toOption.map
      (fun x => writes x.1.log) = some 4 ∧
    (Connector.new ⟨false, plain noGrow, credsEx⟩ (envEx .unix ⟨[[1, 0, 0, 0, 4]], .eof, false⟩ deniesEx) calm).toOption.map
      (fun x => writes x.1.log) = some 1 := by decide +kernel

open Verif.Model.PoolConn Verif.Spec.PoolConn in
/-- **C82** for pools: on every connection there are exactly as many `Write`s, after those of `connector.New`, as calls that
succeeded on it, and at most one more, of the call that failed on it. -/
theorem C82_pool {k : Connector} {req : Nat → Bytes} {n : Nat} {conn : Nat → World × Conn} {l : List Act} {s : PoolConn.State}
    (hcd : RejectsHeaders cd) (hreq : ∀ t, ∃ fs, readFrames (req t) = some fs) (h : Run cd k req (init n conn) l s)
    {t i : Nat} {w : World} {x : Conn} (ho : Act.opened t i w x ∈ l) :
    writes w.log + (served i l).length ≤ writes (s.conn i).1.log ∧ writes (s.conn i).1.log ≤ writes w.log + (served i l).length + 1 ∧
    ((∀ t rs e, Act.finish t i rs (some e) ∉ l) → writes (s.conn i).1.log = writes w.log + (served i l).length) := by
  obtain ⟨-, part, tail, hp, hc1, hc2, hlog⟩ := C64_stream hcd hreq h ho
  have ht : writes tail = 0 := by
    by_cases hc : Closed i l
    · rw [hc1 hc]; rfl
    · rw [hc2 hc]; rfl
  have hm : ∀ L : List (Nat × List Response), writes (L.map fun y => .wrote x.transport (req y.1)) = L.length := fun L => by
    induction L with
    | nil => rfl
    | cons y L ih => simp [writes, ih]
  rw [hlog]
  simp only [writes_append, ht, hm]
  rcases hp with rfl | ⟨t, rs, e, b, hf, -, rfl⟩
  · simp [writes]
  · simp only [writes]
    exact ⟨by omega, by omega, fun hn => absurd hf (hn t rs e)⟩

end Verif.Props
