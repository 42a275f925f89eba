import Verif.Spec.Connecting
import Verif.Proof.Connector
/-! What `Connector.New` does, case by case. -/
namespace Verif.Proof
open Verif.Go Verif.Model Verif.Spec

theorem codeFrame_type (m : ClientMsg) : (codeFrame m)[4]? = some (codeMsg m).1 := by
  have : (fixed 4 ((codeMsg m).2.length + 1)).length = 4 := rfl
  rw [codeFrame, frame, List.getElem?_append_right (by omega), this]
  rfl

theorem authStart_typed {g : Grow} {buf s : Slice} {mech data : Bytes} (h : authenticateStart g buf mech data = .ok s) : s.data[4]? = some 4 := by
  rcases authenticateStart_post g buf mech data with e | ⟨sp, e⟩ <;> rw [e] at h <;> cases h
  rw [codeFrame_type]
  split <;> rfl

theorem plain_typed (g : Grow) : Typed (plain g) := by
  refine ⟨fun buf creds s h => ?_, fun k hk => by cases hk⟩
  rcases plainStart_post g buf creds with e | ⟨sp, e⟩ <;> simp only [plain, e] at h <;> cases h
  rw [codeFrame_type]; simp [codeMsg]

theorem mysql41_typed (g : Grow) {sha1 : Bytes → Bytes} (hH : ∀ x, (sha1 x).length = 20) : Typed (mysql41 g sha1) := by
  refine ⟨fun buf creds s h => authStart_typed h, fun k hk buf creds data s h => ?_⟩
  cases hk
  rcases mysql41Continue_post g hH buf creds data with e | ⟨sp, e⟩ <;> rw [e] at h <;> cases h
  rw [codeFrame_type]; simp [codeMsg]

theorem sha256_typed (g : Grow) {sha256 : Bytes → Bytes} (hH : ∀ x, (sha256 x).length = 32) : Typed (sha256Memory g sha256) := by
  refine ⟨fun buf creds s h => authStart_typed h, fun k hk buf creds data s h => ?_⟩
  cases hk
  rcases sha256Continue_post g hH buf creds data with e | ⟨sp, e⟩ <;> rw [e] at h <;> cases h
  rw [codeFrame_type]; simp [codeMsg]

variable {cd : Codec} {scratch : Bytes} {w w' : World} {c c' : Conn} {creds : Credentials} {st : Starter} {e : Option ConnErr}

theorem authed_log {k : Connector} (h : Authed cd scratch w c k.creds k.starter w' c' e) :
    ∃ ws : List Bytes, w'.log = w.log ++ ws.map (.wrote c.transport ·) ∧ ∀ b ∈ ws, ∃ full, b <+: full ∧ Configured k full := by
  have key : ∀ {w1 w2 : World} {c1 c2 : Conn} {b : Bytes} {e : Option ConnErr}, c1.transport = c.transport → Wrote cd w1 c1 b w2 c2 e → Configured k b →
      ∃ ws : List Bytes, w2.log = w1.log ++ ws.map (.wrote c.transport ·) ∧ ∀ b ∈ ws, ∃ full, b <+: full ∧ Configured k full := by
    intro w1 w2 c1 c2 b e htr h hb
    rcases wrote_log h with q | ⟨b', hp, q⟩
    · exact ⟨[], by simp [q], by simp⟩
    · exact ⟨[b'], by simp [q, htr], by simpa using ⟨b, hp, hb⟩⟩
  cases h with
  | one hb h he => exact key rfl h (.inr (.inl ⟨_, _, hb, rfl⟩))
  | noMore hb h hk => exact key rfl h (.inr (.inl ⟨_, _, hb, rfl⟩))
  | two hb h hk hb2 h2 =>
    obtain ⟨ws, q1, q2⟩ := key rfl h (.inr (.inl ⟨_, _, hb, rfl⟩))
    have htr := wrote_transport h
    obtain ⟨ws', q3, q4⟩ := key htr h2 (.inr (.inr ⟨_, _, _, _, hk, hb2, rfl⟩))
    refine ⟨ws ++ ws', by rw [q3, q1]; simp, fun b hb => ?_⟩
    rcases List.mem_append.mp hb with h | h
    · exact q2 b h
    · exact q4 b h

theorem turnedDown (hcd : RejectsHeaders cd) (hc : Life cd c.r) {k : Connector} {x : ConnErr} (h : Authed cd scratch w c k.creds k.starter w' c' (some x))
    (hd : denied x = true) : TurnedDown cd k c.transport w'.log := by
  cases x with
  | setDeadline x => cases hd
  | write x => cases hd
  | unexpectedContinue => cases hd
  | read x =>
    cases x with
    | mysqlx se =>
      have hcode : se.code = 1045 := by simpa [denied] using hd
      cases h with
      | one hb h he =>
        obtain ⟨a1, a2⟩ := wrote_error hcd hc h rfl
        exact ⟨_, _, se, _, _, a1, .inr (.inl ⟨_, _, hb, rfl⟩), a2, hcode⟩
      | two hb h hk hb2 h2 =>
        obtain ⟨l, l2⟩ := wrote_life hc h
        obtain ⟨a1, a2⟩ := wrote_error hcd l h2 rfl
        exact ⟨_, _, se, _, _, by rw [a1, l2], .inr (.inr ⟨_, _, _, _, hk, hb2, rfl⟩), a2, hcode⟩
    | io x => cases hd
    | tooShort => cases hd
    | unmarshalMeta => cases hd
    | unmarshalError => cases hd
    | unmarshalContinue => cases hd
    | unexpectedContinue => cases hd
    | requireContinue d => cases hd

/-- How `New` ends after the transport is set up: the messages of the mechanism; then perhaps PLAIN, if the transport is
secure and the mechanism was turned down; closed if it fails. -/
inductive Finished (k : Connector) (env : Env) (w : World) (c : Conn) : World → Except NewErr Conn → Prop where
  | ok {w' : World} {c' : Conn} (h : Authed env.cd env.scratch w c k.creds k.starter w' c' none) : Finished k env w c w' (.ok c')
  | failed {w' : World} {c' : Conn} {e : ConnErr} (h : Authed env.cd env.scratch w c k.creds k.starter w' c' (some e))
      (hd : (denied e && c'.isSecure) = false) : Finished k env w c w'.close (.error (.conn e))
  | plainOk {w1 w' : World} {c1 c' : Conn} {e : ConnErr} (h : Authed env.cd env.scratch w c k.creds k.starter w1 c1 (some e))
      (hd : denied e = true) (hs : c1.isSecure = true) (h2 : Authed env.cd env.scratch w1 c1 k.creds (plain env.g) w' c' none) :
      Finished k env w c w' (.ok c')
  | plainFailed {w1 w' : World} {c1 c' : Conn} {e e' : ConnErr} (h : Authed env.cd env.scratch w c k.creds k.starter w1 c1 (some e))
      (hd : denied e = true) (hs : c1.isSecure = true) (h2 : Authed env.cd env.scratch w1 c1 k.creds (plain env.g) w' c' (some e')) :
      Finished k env w c w'.close (.error (.conn e))

theorem finishNew_cases {k : Connector} {env : Env} {res : Except NewErr Conn} (h : finishNew k env w c = .ok (w', res)) : Finished k env w c w' res := by
  rw [finishNew] at h
  cases h1 : authenticate env.cd env.scratch w c k.creds k.starter with
  | error x => rw [h1] at h; cases h
  | ok x =>
    obtain ⟨w1, c1, e1⟩ := x
    have a1 := authenticate_cases h1
    rw [h1] at h
    cases e1 with
    | none => cases h; exact .ok a1
    | some e =>
      simp only [Bind.bind, Except.bind] at h
      split at h
      · rename_i hd
        simp only [Bool.and_eq_true] at hd
        cases h2 : authenticate env.cd env.scratch w1 c1 k.creds (plain env.g) with
        | error x => rw [h2] at h; cases h
        | ok x =>
          obtain ⟨w2, c2, e2⟩ := x
          have a2 := authenticate_cases h2
          rw [h2] at h
          cases e2 with
          | none => cases h; exact .plainOk a1 hd.1 hd.2 a2
          | some e2 => cases h; exact .plainFailed a1 hd.1 hd.2 a2
      · rename_i hd
        cases h
        exact .failed a1 (by simpa using hd)

/-- What `New` has done: the connection over which it authenticated, the world at that point, or the failure before. -/
inductive Connected (k : Connector) (env : Env) (w : World) : World → Except NewErr Conn → Prop where
  | noDial (h : env.dial = none) : Connected k env w w (.error .dial)
  | plainly {t : Transport} {src : Source} {w' : World} {res : Except NewErr Conn} (h : env.dial = some (t, src)) (ht : ¬(t = .tcp ∧ k.tls = true))
      (hf : Finished k env w (Conn.new t src) w' res) : Connected k env w w' res
  | refused {src : Source} {w1 : World} {b b' : Bytes} {e : ConnErr} (h : env.dial = some (.tcp, src)) (ht : k.tls = true)
      (hb : capabilitySet (ascii "tls") true = .ok b) (hp : b' <+: b) (hl : w1.log = w.log ∨ w1.log = w.log ++ [.wrote .tcp b']) :
      Connected k env w w1 (.error (.conn e))
  | noTLS {src : Source} {w1 : World} {b : Bytes} (h : env.dial = some (.tcp, src)) (ht : k.tls = true)
      (hb : capabilitySet (ascii "tls") true = .ok b) (hl : w1.log = w.log ++ [.wrote .tcp b, .handshake false]) :
      Connected k env w w1.close (.error .handshake)
  | overTLS {src src' : Source} {w1 w' : World} {c : Conn} {b : Bytes} {res : Except NewErr Conn} (h : env.dial = some (.tcp, src)) (ht : k.tls = true)
      (hb : capabilitySet (ascii "tls") true = .ok b) (hh : env.handshake = some src') (hl : w1.log = w.log ++ [.wrote .tcp b, .handshake true])
      (hc : c = Conn.new .tls src') (hf : Finished k env w1 c w' res) : Connected k env w w' res

theorem send_cases {rs : List Response} {b : Bytes} (h : Conn.send cd w c b = .ok (w', c', rs, e)) :
    c'.transport = c.transport ∧
    ((e = none ∧ w'.log = w.log ++ [.wrote c.transport b]) ∨ (e ≠ none ∧ ∃ b', b' <+: b ∧ (w'.log = w.log ∨ w'.log = w.log ++ [.wrote c.transport b']))) := by
  rw [Conn.send, World.write] at h
  cases h1 : w.fault w.calls with
  | some x =>
    rw [h1] at h
    cases h
    exact ⟨rfl, .inr ⟨by simp, [], List.nil_prefix, .inl rfl⟩⟩
  | none =>
    rw [h1] at h
    dsimp only at h
    cases h2 : w.fault (w.calls + 1) with
    | some x =>
      rw [h2] at h
      cases h
      exact ⟨rfl, .inr ⟨by simp, _, List.take_prefix _ _, .inr rfl⟩⟩
    | none =>
      rw [h2] at h
      dsimp only at h
      split at h
      · cases h
      · cases h
      · rename_i r' rs' e' _
        cases h
        refine ⟨rfl, ?_⟩
        cases e' with
        | none => exact .inl ⟨rfl, rfl⟩
        | some e' => exact .inr ⟨by simp, b, List.prefix_refl _, .inr rfl⟩

theorem send_size {rs : List Response} {b : Bytes} (hc : Life cd c.r) (h : Conn.send cd w c b = .ok (w', c', rs, e)) : Life cd c'.r := by
  rw [Conn.send] at h
  split at h
  · cases h; exact hc
  · split at h
    · cases h
    · cases h
    · rename_i hr
      cases h
      exact .sent hc hr

theorem new_cases {k : Connector} {env : Env} (hE : Streams env) {res : Except NewErr Conn} (h : k.new env w = .ok (w', res)) : Connected k env w w' res := by
  rw [Connector.new] at h
  cases hd : env.dial with
  | none => rw [hd] at h; cases h; exact .noDial hd
  | some x =>
    obtain ⟨t, src⟩ := x
    rw [hd] at h
    dsimp only at h
    split at h
    · rename_i ht
      obtain ⟨rfl, ht⟩ := ht
      cases hb : capabilitySet (ascii "tls") true with
      | error x => rw [hb] at h; cases h
      | ok b =>
        rw [hb] at h
        simp only [Bind.bind, Except.bind] at h
        cases hs : Conn.send env.cd w (Conn.new .tcp src) b with
        | error x => rw [hs] at h; cases h
        | ok x =>
          obtain ⟨w1, c1, rs, e1⟩ := x
          have hl : Life env.cd c1.r := send_size (.new .tcp src (hE.1 _ _ hd)) hs
          obtain ⟨s1, s2⟩ := send_cases hs
          rw [hs] at h
          cases e1 with
          | some e1 =>
            cases h
            rcases s2 with ⟨s2, _⟩ | ⟨_, b', s3, s4⟩
            · cases s2
            · exact .refused hd ht hb s3 s4
          | none =>
            rcases s2 with ⟨_, s2⟩ | ⟨s2, _⟩
            · dsimp only at h
              cases hh : env.handshake with
              | none =>
                rw [hh] at h
                cases h
                exact .noTLS hd ht hb (by simp [s2, Conn.new])
              | some src' =>
                rw [hh] at h
                dsimp only at h
                refine .overTLS hd ht hb hh (by simp [s2, Conn.new]) ?_ (finishNew_cases h)
                simp only [Conn.reset, Conn.new, (life_inv hl).2.1]
            · exact absurd rfl s2
    · rename_i ht
      exact .plainly hd ht (finishNew_cases h)

/-- What `Finished` means for what was written: messages of the configured mechanism, then perhaps one of PLAIN. -/
theorem finished_log {k : Connector} {env : Env} (hcd : RejectsHeaders env.cd)
    (hc : Life env.cd c.r) {res : Except NewErr Conn} (h : Finished k env w c w' res) :
    ∃ ws : List Bytes, (∀ b ∈ ws, ∃ full, b <+: full ∧ Configured k full) ∧ ∃ tail : List Event,
      w'.log = w.log ++ ws.map (.wrote c.transport ·) ++ tail ∧
      (tail = [] ∨ tail = [.closed] ∨
        (c.isSecure = true ∧ TurnedDown env.cd k c.transport (w.log ++ ws.map (.wrote c.transport ·)) ∧
          (tail = [.closed] ∨ ∃ b, tail = [.wrote c.transport b] ∨ tail = [.wrote c.transport b, .closed]))) := by
  have plainLog : ∀ {w1 w2 : World} {c1 c2 : Conn} {e : Option ConnErr}, Authed env.cd env.scratch w1 c1 k.creds (plain env.g) w2 c2 e →
      w2.log = w1.log ∨ ∃ b, w2.log = w1.log ++ [.wrote c1.transport b] := by
    intro w1 w2 c1 c2 e h
    cases h with
    | one hb h he => exact (wrote_log h).imp id fun ⟨b', _, q⟩ => ⟨b', q⟩
    | noMore hb h hk => exact (wrote_log h).imp id fun ⟨b', _, q⟩ => ⟨b', q⟩
    | two hb h hk hb2 h2 => cases hk
  cases h with
  | ok h =>
    obtain ⟨ws, a, b⟩ := authed_log h
    exact ⟨ws, b, [], by simp [a], .inl rfl⟩
  | failed h hd =>
    obtain ⟨ws, a, b⟩ := authed_log h
    exact ⟨ws, b, [.closed], by simp [World.close, a], .inr (.inl rfl)⟩
  | plainOk h hd hs h2 =>
    obtain ⟨ws, a, b⟩ := authed_log h
    obtain ⟨l1, l2⟩ := authed_life hc h
    have hs' : c.isSecure = true := by rw [Conn.isSecure, ← l2]; exact hs
    have htd := turnedDown hcd hc h hd
    rcases plainLog h2 with q | ⟨b', q⟩
    · exact ⟨ws, b, [], by rw [q, a]; simp, .inl rfl⟩
    · refine ⟨ws, b, [.wrote c.transport b'], by rw [q, a, l2], .inr (.inr ⟨hs', ?_, .inr ⟨b', .inl rfl⟩⟩)⟩
      rw [← a]; exact htd
  | plainFailed h hd hs h2 =>
    obtain ⟨ws, a, b⟩ := authed_log h
    obtain ⟨l1, l2⟩ := authed_life hc h
    have hs' : c.isSecure = true := by rw [Conn.isSecure, ← l2]; exact hs
    have htd := turnedDown hcd hc h hd
    rcases plainLog h2 with q | ⟨b', q⟩
    · exact ⟨ws, b, [.closed], by simp [World.close, q, a], .inr (.inl rfl)⟩
    · refine ⟨ws, b, [.wrote c.transport b', .closed], by simp [World.close, q, a, l2], .inr (.inr ⟨hs', ?_, .inr ⟨b', .inr rfl⟩⟩)⟩
      rw [← a]; exact htd

end Verif.Proof
