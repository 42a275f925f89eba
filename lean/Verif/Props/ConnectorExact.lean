import Verif.Props.Connector
/-! C38, C39: exactly when they fail. -/
namespace Verif.Props
open Verif.Go Verif.Model Verif.Spec Verif.Proof

variable {w w' : World}

theorem tls_frame : readFrames ([20, 0, 0, 0, 2] ++ [10, 17, 10, 15, 10, 3, 116, 108, 115, 18, 8, 8, 1, 18, 4, 8, 7, 64, 1]) =
    some [(2, [10, 17, 10, 15, 10, 3, 116, 108, 115, 18, 8, 8, 1, 18, 4, 8, 7, 64, 1])] := by decide +kernel

/-- **C38**, how it fails: unless the dialer returns a TCP connection the TLS configuration has no effect whatever. -/
theorem C38_ignored {k : Connector} {env : Env} {t : Transport} {src : Source} (hd : env.dial = some (t, src)) (ht : t ≠ .tcp) (w : World) :
    k.new env w = Connector.new { k with tls := false } env w := by
  simp only [Connector.new, hd, ht, false_and, if_false]
  rfl

/-- The first message of a mechanism that succeeds was written in full. -/
theorem authed_first {cd : Codec} {scratch : Bytes} {c c' : Conn} {creds : Credentials} {st : Starter}
    (h : Authed cd scratch w c creds st w' c' none) :
    ∃ b l, st.start ⟨[], List.replicate 128 0⟩ creds = .ok b ∧ w'.log = w.log ++ .wrote c.transport b.data :: l := by
  have full : ∀ {w1 : World} {c1 : Conn} {b : Bytes} {e : Option ConnErr}, Wrote cd w c b w1 c1 e → (e = none ∨ ∃ x, e = some (.read x)) →
      w1.log = w.log ++ [.wrote c.transport b] := by
    intro w1 c1 b e h he
    cases h with
    | noDeadline h => rcases he with he | ⟨x, he⟩ <;> cases he
    | failed hp h => rcases he with he | ⟨x, he⟩ <;> cases he
    | sent h _ _ => exact h
  cases h with
  | one hb h he => exact ⟨_, [], hb, full h (.inl rfl)⟩
  | @two _ _ _ _ c1 _ _ _ _ hb h hk hb2 h2 =>
    have h1 := full h (.inr ⟨_, rfl⟩)
    rcases wrote_log h2 with q | ⟨b', -, q⟩
    · exact ⟨_, [], hb, by rw [q, h1]⟩
    · exact ⟨_, [.wrote c1.transport b'], hb, by rw [q, h1]; simp⟩

/-- **C38**, exactly: with a TLS configuration, when `New` has made a connection (not over a Unix socket), everything but the
request for TLS was written inside TLS if and only if the dialer returned a TCP connection.  If not, the first message of
the mechanism went out in full in the clear. -/
theorem C38_exact {k : Connector} {env : Env} (hty : Typed k.starter) (hcd : RejectsHeaders env.cd) (hE : Streams env) {conn : Conn} {t : Transport}
    {src : Source} (ht : k.tls = true) (hd : env.dial = some (t, src)) (hu : t = .tcp ∨ t = .other) (h : k.new env w = .ok (w', .ok conn)) :
    ∃ l, w'.log = w.log ++ l ∧ (OnlyInTLS l ↔ t = .tcp) ∧
      (t ≠ .tcp → ∃ b, k.starter.start ⟨[], List.replicate 128 0⟩ k.creds = .ok b ∧ l.head? = some (.wrote t b.data)) := by
  rcases hu with rfl | rfl
  · obtain ⟨l, hl, ho⟩ := C38_partial hcd hE ht hd h
    exact ⟨l, hl, ⟨fun _ => rfl, fun _ => ho⟩, fun h => absurd rfl h⟩
  · cases new_cases hE h with
    | overTLS hd' => rw [hd] at hd'; cases hd'
    | plainly hd' ht' hf =>
      rw [hd] at hd'
      cases hd'
      have key : ∃ b l, k.starter.start ⟨[], List.replicate 128 0⟩ k.creds = .ok b ∧ w'.log = w.log ++ .wrote .other b.data :: l := by
        cases hf with
        | ok h => exact authed_first h
        | plainOk h hd2 hs h2 =>
          have := (authed_life (.new _ _ (hE.1 _ _ hd)) h).2
          rw [isSecure_iff, this] at hs
          rcases hs with hs | hs <;> cases hs
      obtain ⟨b, l, hb, hl⟩ := key
      refine ⟨_, hl, ⟨fun ho => ?_, fun h => by cases h⟩, fun _ => ⟨b, hb, rfl⟩⟩
      rcases ho [] _ b.data l rfl with ⟨full, h1, h2, -⟩ | ⟨h1, -⟩
      · rw [capabilitySet_tls] at h1
        cases h1
        obtain ⟨z, hz⟩ := h2
        have h4 := hty.1 _ _ _ hb
        have := congrArg (·[4]?) hz
        simp only [List.getElem?_append_left (List.getElem?_eq_some_iff.mp h4).1, h4] at this
        simp at this
      · cases h1

/-- **C39**, exactly: after dialling, the connection is lost if and only if TLS was to be asked for and asking for it failed
(an error, and no handshake was tried). -/
theorem C39_exact {k : Connector} {env : Env} (ht : Typed k.starter) (hcd : RejectsHeaders env.cd) (hE : Streams env) {res : Except NewErr Conn}
    (hd : env.dial ≠ none) (h : k.new env w = .ok (w', res)) : ∃ l, w'.log = w.log ++ l ∧
      (¬NoLeak env.cd l res ↔ (k.tls = true ∧ (∃ src, env.dial = some (.tcp, src)) ∧ (∃ x, res = .error (.conn x)) ∧ ∀ ok, Event.handshake ok ∉ l)) := by
  obtain ⟨l, hl, hp⟩ := C39_partial ht hcd hE hd h
  refine ⟨l, hl, fun hn => hp.resolve_left hn, fun ⟨h1, ⟨src, h2⟩, ⟨x, h3⟩, h4⟩ hno => ?_⟩
  subst h3
  obtain ⟨l0, h5, -⟩ := hno
  have cancel : ∀ {m : List Event}, w'.log = w.log ++ m → l = m := fun e => List.append_cancel_left (hl.symm.trans e)
  cases new_cases hE h with
  | plainly hd' ht' hf => rw [h2] at hd'; cases hd'; exact ht' ⟨rfl, h1⟩
  | refused hd' ht' hb hp hl' =>
    rcases hl' with hl' | hl'
    · have := cancel (m := []) (by simpa using hl')
      rw [this] at h5
      exact absurd h5.symm (by simp)
    · have := cancel hl'
      rw [this] at h5
      cases l0 with
      | nil => simp at h5
      | cons y ys => simp at h5
  | overTLS hd' ht' hb hh hl' hc hf =>
    obtain ⟨m, hm, -⟩ := finished_end hcd (by rw [hc]; exact .new _ _ (hE.2 _ hh)) ht hf
    rw [hl', List.append_assoc] at hm
    have := cancel hm
    exact h4 true (by rw [this]; simp)

/-! ### C72 -/

/-- **C72**, what it asks for: if the server answers the request for TLS with an error, `New` returns that error, and no
handshake is tried. -/
def C72_full : Prop :=
  ∀ (k : Connector) (env : Env) (w w' : World) (res : Except NewErr Conn) (src : Source) (se : SrvError) (rest : Bytes), k.tls = true →
    RejectsHeaders env.cd → Streams env → Writable w → env.dial = some (.tcp, src) →
    Answered env.cd (Conn.new .tcp src).r.pending (.error se) rest → k.new env w = .ok (w', res) →
    res = .error (.conn (.read (.mysqlx se))) ∧ ∃ l, w'.log = w.log ++ l ∧ ∀ ok, Event.handshake ok ∉ l

/-- **C72**, for errors marked as fatal.  Missing: all others (`C72_ignored`, `C72_wrong`). -/
theorem C72_partial {k : Connector} {env : Env} {res : Except NewErr Conn} {src : Source} {se : SrvError} {rest : Bytes} (ht : k.tls = true)
    (hE : Streams env) (hw : Writable w) (hd : env.dial = some (.tcp, src)) (ha : Answered env.cd (Conn.new .tcp src).r.pending (.error se) rest)
    (hf : se.severity = 1) (h : k.new env w = .ok (w', res)) :
    res = .error (.conn (.read (.mysqlx se))) ∧ ∃ l, w'.log = w.log ++ l ∧ ∀ ok, Event.handshake ok ∉ l := by
  rw [Connector.new, hd] at h
  dsimp only at h
  rw [if_pos ⟨rfl, ht⟩, capabilitySet_tls] at h
  simp only [Bind.bind, Except.bind] at h
  obtain ⟨w1, c1, h1, -⟩ := C30_error_ends env.cd hw (.new .tcp src (hE.1 _ _ hd)) (fs := []) (fs' := []) (f := (2, _)) tls_frame (.nil _) ha (.inl hf)
  rw [h1] at h
  cases h
  refine ⟨rfl, ?_⟩
  rcases (send_cases h1).2 with ⟨q, -⟩ | ⟨-, b', -, q | q⟩
  · cases q
  · exact ⟨[], by simpa using q, by simp⟩
  · exact ⟨_, q, by simp⟩

/-- **C72**, how it fails: any other error is taken for an OK.  `New` does exactly what it does when the server (`src'`)
agrees to TLS. -/
theorem C72_ignored {k : Connector} {env : Env} {src src' : Source} {se : SrvError} {rest rest' : Bytes} (ht : k.tls = true)
    (hE : Streams env) (hw : Writable w) (hd : env.dial = some (.tcp, src)) (ha : Answered env.cd (Conn.new .tcp src).r.pending (.error se) rest)
    (hf : se.severity ≠ 1) (hs : src'.err ≠ .bufferFull) (ha' : Answered env.cd (Conn.new .tcp src').r.pending .ok rest') :
    k.new env w = k.new { env with dial := some (.tcp, src') } w := by
  have key : ∀ (env : Env) (src : Source), Streams env → env.dial = some (.tcp, src) → ∀ rr rest, Answered env.cd (Conn.new .tcp src).r.pending rr rest →
      ¬Ends 2 rr → ∃ b, capabilitySet (ascii "tls") true = .ok b ∧
      k.new env w = match env.handshake with
        | none => .ok (({ w with calls := w.calls + 2, log := w.log ++ [.wrote .tcp b] ++ [.handshake false] } : World).close, .error .handshake)
        | some src => finishNew k env { w with calls := w.calls + 2, log := w.log ++ [.wrote .tcp b] ++ [.handshake true] } (Conn.new .tls src) := by
    intro env src hE hd rr rest ha he
    rw [Connector.new, hd]
    dsimp only
    rw [if_pos ⟨rfl, ht⟩]
    refine ⟨_, capabilitySet_tls, ?_⟩
    rw [capabilitySet_tls]
    simp only [Bind.bind, Except.bind]
    obtain ⟨w1, c1, h1, -⟩ := C29_one_response_each env.cd hw (.new .tcp src (hE.1 _ _ hd)) tls_frame (.cons ha he (.nil _))
    have hlife : Life env.cd c1.r := send_size (.new .tcp src (hE.1 _ _ hd)) h1
    have hw1 := send_world h1
    rw [h1]
    subst hw1
    dsimp only
    cases env.handshake with
    | none => rfl
    | some s2 =>
      have e : c1.reset .tls s2 = Conn.new .tls s2 := by simp only [Conn.reset, Conn.new, (life_inv hlife).2.1]
      dsimp only
      rw [e]
      rfl
  obtain ⟨b1, p1, p2⟩ := key env src hE hd _ _ ha (by simp [Ends, hf])
  obtain ⟨b2, q1, q2⟩ := key { env with dial := some (.tcp, src') } src' ⟨fun _ _ e => by cases e; exact hs, hE.2⟩ rfl _ _ ha' (by simp [Ends])
  rw [p1] at q1
  cases q1
  rw [p2, q2]
  rfl

/-! ### cases -/

/-- A connection that is not TCP, with a TLS configuration: the first message, in the clear, is AuthenticateStart. -/
example : trace (Connector.new ⟨true, plain noGrow, credsEx⟩ (envEx .other ⟨[[1, 0, 0, 0, 4]], .eof, false⟩ deniesEx) calm) =
    some ([some (.other, some 4)], true) := by decide +kernel

/-- Asking for TLS fails: the server answers with a fatal error.  Nothing is closed. -/
example : ((Connector.new ⟨true, plain noGrow, credsEx⟩ (envEx .tcp ⟨[[3, 0, 0, 0, 1, 1, 45]], .eof, false⟩ deniesEx) calm).toOption.map fun x =>
    (x.1.log.map (fun | .closed => true | _ => false), match x.2 with | .error (.conn _) => true | _ => false)) = some ([false], true) := by decide +kernel

/-- An answer to the request for TLS: error 1045, not fatal. -/
def noTLSEx : Source := ⟨[[3, 0, 0, 0, 1, 0, 45]], .eof, false⟩

theorem noTLSEx_answered : Answered connCodec (Conn.new .tcp noTLSEx).r.pending (.error ⟨0, 1045, [], []⟩) [] :=
  .last (m := (1, [0, 45])) (by decide +kernel) (.error (by simp) rfl)

/-- **C72** is false: an error that is not fatal is ignored and the handshake is tried; here it fails, and `New` returns
the error of the handshake. -/
theorem C72_wrong : ¬C72_full := by
  intro h
  let k : Connector := ⟨true, plain noGrow, credsEx⟩
  let env : Env := { envEx .tcp noTLSEx deniesEx with handshake := none }
  have ht : (k.new env calm).toOption.map (fun x => match x.2 with | .error .handshake => true | _ => false) = some true := by decide +kernel
  cases hr : k.new env calm with
  | error x => rw [hr] at ht; cases ht
  | ok x =>
    obtain ⟨w', res⟩ := x
    rw [hr] at ht
    obtain ⟨rfl, -⟩ := h k env calm w' res noTLSEx _ [] rfl connCodec_rejects
      ⟨fun _ _ e => by cases e; simp [noTLSEx], fun _ e => by cases e⟩ ⟨rfl, rfl⟩ rfl noTLSEx_answered hr
    cases ht

/-- The server refuses TLS; `New` goes on, and authenticates inside TLS if there is someone to do it with. -/
example : trace (Connector.new ⟨true, plain noGrow, credsEx⟩ (envEx .tcp noTLSEx ⟨[[1, 0, 0, 0, 4]], .eof, false⟩) calm) =
    some ([some (.tcp, some 2), none, some (.tls, some 4)], true) := by decide +kernel

/-- For `C72_ignored`: a server that agrees. -/
example : Answered connCodec (Conn.new .tcp ⟨[[1, 0, 0, 0, 0]], .eof, false⟩).r.pending .ok [] :=
  .last (m := (0, [])) (by decide +kernel) (.ok (.inl rfl))

/-- For `C72_partial`: a fatal error. -/
example : Answered connCodec (Conn.new .tcp ⟨[[3, 0, 0, 0, 1, 1, 45]], .eof, false⟩).r.pending (.error ⟨1, 1045, [], []⟩) [] :=
  .last (m := (1, [1, 45])) (by decide +kernel) (.error (by simp) rfl)

end Verif.Props
