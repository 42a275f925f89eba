import Verif.Proof.Connecting
import Verif.Props.Connection
import Verif.Props.Auth
/-! C36 - C39: authenticating and connecting. -/
namespace Verif.Props
open Verif.Go Verif.Spec Verif.Model Verif.Proof

variable {cd : Codec} {scratch : Bytes} {w w' : World} {c c' : Conn} {creds : Credentials} {st : Starter} {e : Option ConnErr}

/-! ### C36 -/

/-- **C36.** `Authenticate` reports success only if the server answered the last message with an OK message: the first
one, or, after it had asked for it, the second one.  Exactly these messages were written. -/
theorem C36_success (hcd : RejectsHeaders cd) (hc : Life cd c.r) (ht : Typed st)
    (h : authenticate cd scratch w c creds st = .ok (w', c', none)) :
    (∃ b, st.start ⟨[], List.replicate 128 0⟩ creds = .ok b ∧ w'.log = w.log ++ [.wrote c.transport b.data] ∧
      Answered cd c.r.pending .ok c'.r.pending) ∨
    (∃ b k b2 data mid, st.start ⟨[], List.replicate 128 0⟩ creds = .ok b ∧ st.cont = some k ∧ AsksContinue cd c.r.pending data mid ∧
      k ⟨[], scratch⟩ creds data = .ok b2 ∧ w'.log = w.log ++ [.wrote c.transport b.data, .wrote c.transport b2.data] ∧
      Answered cd mid .ok c'.r.pending) := by
  cases authenticate_cases h with
  | one hb h he =>
    obtain ⟨a, b⟩ := wrote_ok hcd hc h rfl (.inl (ht.1 _ _ _ hb))
    exact .inl ⟨_, hb, a, b⟩
  | two hb h hk hb2 h2 =>
    obtain ⟨a1, a2⟩ := wrote_continue hcd hc h rfl
    obtain ⟨l, l2⟩ := wrote_life hc h
    obtain ⟨b1, b2⟩ := wrote_ok hcd l h2 rfl (.inr (ht.2 _ hk _ _ _ _ hb2))
    exact .inr ⟨_, _, _, _, _, hb, hk, a2, hb2, by rw [b1, a1, l2, List.append_assoc]; rfl, b2⟩

/-- **C36**, whatever the outcome: at most two messages are written (the last one perhaps not completely), and the
second only after the server asked for it. -/
theorem C36_at_most_two (hcd : RejectsHeaders cd) (hc : Life cd c.r) (h : authenticate cd scratch w c creds st = .ok (w', c', e)) :
    ∃ ws : List Bytes, w'.log = w.log ++ ws.map (.wrote c.transport ·) ∧ ws.length ≤ 2 ∧
      (ws.length = 2 → ∃ data mid, AsksContinue cd c.r.pending data mid) := by
  cases authenticate_cases h with
  | one hb h he =>
    rcases wrote_log h with q | ⟨b', _, q⟩
    · exact ⟨[], by simp [q], by simp, by simp⟩
    · exact ⟨[b'], by simp [q], by simp, by simp⟩
  | noMore hb hw hk =>
    rcases wrote_log hw with q | ⟨b', _, q⟩
    · exact ⟨[], by simp [q], by simp, by simp⟩
    · exact ⟨[b'], by simp [q], by simp, by simp⟩
  | @two b b2 _ _ _ _ data k _ hb h hk hb2 h2 =>
    obtain ⟨a1, a2⟩ := wrote_continue hcd hc h rfl
    obtain ⟨l, l2⟩ := wrote_life hc h
    rcases wrote_log h2 with q | ⟨b', _, q⟩
    · exact ⟨[b.data], by simp [q, a1], by simp, by simp⟩
    · exact ⟨[b.data, b'], by simp [q, a1, l2], by simp, fun _ => ⟨_, _, a2⟩⟩

theorem writeOne_no_panic (hc : Life cd c.r) {b : Bytes} {t : UInt8} (hb : b[4]? = some t) : ∃ x, writeOne cd w c b = .ok x := by
  have : 4 < b.length := (List.getElem?_eq_some_iff.mp hb).1
  obtain ⟨w', c', rr, e, h, _⟩ := C31_safe_one cd (w := w) hc (b := b) (by omega)
  exact ⟨_, h⟩

theorem plain_calm (g : Grow) : Calm (plain g) := ⟨fun buf creds => (C35_plain g buf creds).1, fun k hk => by cases hk⟩

theorem mysql41_calm (g : Grow) {sha1 : Bytes → Bytes} (hH : ∀ x, (sha1 x).length = 20) : Calm (mysql41 g sha1) :=
  ⟨fun buf creds => (C33_start g buf creds).1, fun k hk buf creds data => by cases hk; exact (C33_mysql41 g hH buf creds data).1⟩

theorem sha256_calm (g : Grow) {sha256 : Bytes → Bytes} (hH : ∀ x, (sha256 x).length = 32) : Calm (sha256Memory g sha256) :=
  ⟨fun buf creds => (C34_start g buf creds).1, fun k hk buf creds data => by cases hk; exact (C34_sha256 g hH buf creds data).1⟩

/-- **C36**: no server makes `Authenticate` panic. -/
theorem C36_no_panic (hc : Life cd c.r) (ht : Typed st) (hs : Calm st) : authenticate cd scratch w c creds st ≠ .error .panic := by
  intro h
  rw [authenticate] at h
  cases hb : st.start ⟨[], List.replicate 128 0⟩ creds with
  | error x =>
    rw [hb] at h
    cases h
    exact hs.1 _ _ hb
  | ok b =>
    rw [hb] at h
    change (do let x ← writeOne cd w c b.data; _) = _ at h
    obtain ⟨⟨w1, c1, rr, e1⟩, h1⟩ := writeOne_no_panic (w := w) hc (ht.1 _ _ _ hb)
    have hl := (wrote_life hc (writeOne_cases h1)).1
    rw [h1] at h
    simp only [Bind.bind, Except.bind] at h
    split at h
    · cases h
    · split at h
      · cases h
      · rename_i k hk
        split at h
        · rename_i x hb2
          cases h
          exact hs.2 _ hk _ _ _ hb2
        · rename_i b2 hb2
          obtain ⟨⟨w2, c2, rr2, e2⟩, h2⟩ := writeOne_no_panic hl (ht.2 _ hk _ _ _ _ hb2)
          rename_i heq _ _
          cases heq
          rw [h2] at h
          cases h
    · cases h

/-! ### C37 -/

theorem isSecure_iff {c : Conn} : c.isSecure = true ↔ c.transport = .tls ∨ c.transport = .unix := by simp [Conn.isSecure]

theorem occurs_append {α : Type} {A B l1 l2 : List α} {x : α} (h : A ++ B = l1 ++ x :: l2) :
    (∃ m, A = l1 ++ x :: m) ∨ ∃ m, l1 = A ++ m ∧ B = m ++ x :: l2 := by
  rcases List.append_eq_append_iff.mp h with ⟨z, h1, h2⟩ | ⟨z, h1, h2⟩
  · exact .inr ⟨z, h1, h2⟩
  · cases z with
    | nil => exact .inr ⟨[], by simpa using h1.symm, by simpa using h2.symm⟩
    | cons q z =>
      simp only [List.cons_append, List.cons.injEq] at h2
      obtain ⟨rfl, -⟩ := h2
      exact .inl ⟨z, h1⟩

/-- **C37**, for every mechanism, transport, fault and server: everything `New` writes is (a part of) the request for TLS
or of a message of the configured mechanism, except that once the server has turned that mechanism down with access
denied, on a TLS or Unix socket connection, one more message may follow (the one of PLAIN) on the same connection. -/
theorem C37_guarded {k : Connector} {env : Env} (hcd : RejectsHeaders env.cd) (hE : Streams env) {res : Except NewErr Conn}
    (h : k.new env w = .ok (w', res)) :
    ∃ l, w'.log = w.log ++ l ∧ ∀ l1 t b l2, l = l1 ++ .wrote t b :: l2 →
      (∃ full, b <+: full ∧ Configured k full) ∨ ((t = .tls ∨ t = .unix) ∧ TurnedDown env.cd k t (w.log ++ l1)) := by
  have fin : ∀ {w0 w1 : World} {c : Conn} {pre : List Event}, w0.log = w.log ++ pre →
      (∀ l1 t b l2, pre = l1 ++ .wrote t b :: l2 → ∃ full, b <+: full ∧ Configured k full) →
      Life env.cd c.r → Finished k env w0 c w1 res → ∃ l, w1.log = w.log ++ l ∧ ∀ l1 t b l2, l = l1 ++ .wrote t b :: l2 →
      (∃ full, b <+: full ∧ Configured k full) ∨ ((t = .tls ∨ t = .unix) ∧ TurnedDown env.cd k t (w.log ++ l1)) := by
    intro w0 w1 c pre hpre hp hc hf
    obtain ⟨ws, a, tail, b, d⟩ := finished_log hcd hc hf
    refine ⟨pre ++ (ws.map (.wrote c.transport ·) ++ tail), by rw [b, hpre]; simp, ?_⟩
    intro l1 t x l2 hl
    rcases occurs_append hl with ⟨m, hm⟩ | ⟨m, hm1, hm2⟩
    · exact .inl (hp _ _ _ _ hm)
    · rcases occurs_append hm2 with ⟨m', hm'⟩ | ⟨m', hm3, hm4⟩
      · left
        have : (Event.wrote t x) ∈ ws.map (.wrote c.transport ·) := by rw [hm']; simp
        obtain ⟨y, hy, hy2⟩ := List.mem_map.mp this
        cases hy2
        exact a _ hy
      · right
        rcases d with d | d | ⟨d1, d2, d | ⟨y, d | d⟩⟩ <;> rw [d] at hm4
        · simp at hm4
        · cases m' <;> simp at hm4
        · cases m' <;> simp at hm4
        all_goals
          cases m' with
          | cons q m' => cases m' <;> simp at hm4
          | nil =>
            simp at hm4
            obtain ⟨⟨rfl, -⟩, -⟩ := hm4
            refine ⟨isSecure_iff.mp d1, ?_⟩
            rw [hm1, hm3, List.append_nil, ← List.append_assoc, ← hpre]
            exact d2
  cases new_cases hE h with
  | noDial hd => exact ⟨[], by simp, fun l1 t b l2 hl => by simp at hl⟩
  | plainly hd ht hf => exact fin (pre := []) (by simp) (fun l1 t b l2 hl => by simp at hl) (.new _ _ (hE.1 _ _ hd)) hf
  | refused hd ht hb hp hl =>
    rcases hl with hl | hl
    · exact ⟨[], by simp [hl], fun l1 t b l2 hl => by simp at hl⟩
    · refine ⟨_, hl, fun l1 t b l2 hl => .inl ?_⟩
      cases l1 with
      | cons q l1 => cases l1 <;> simp at hl
      | nil => simp at hl; obtain ⟨⟨rfl, rfl⟩, -⟩ := hl; exact ⟨_, hp, .inl hb⟩
  | @noTLS _ _ b' hd ht hb hl =>
    refine ⟨[.wrote .tcp b', .handshake false, .closed], by simp [World.close, hl], fun l1 t b l2 hl => .inl ?_⟩
    cases l1 with
    | cons q l1 => rcases l1 with - | ⟨q', - | ⟨q'', l1⟩⟩ <;> simp at hl
    | nil => simp at hl; obtain ⟨⟨rfl, rfl⟩, -⟩ := hl; exact ⟨_, List.prefix_refl _, .inl hb⟩
  | overTLS hd ht hb hh hl hc hf =>
    refine fin hl (fun l1 t b l2 hl => ?_) (by rw [hc]; exact .new _ _ (hE.2 _ hh)) hf
    cases l1 with
    | cons q l1 => rcases l1 with - | ⟨q', l1⟩ <;> simp at hl
    | nil => simp at hl; obtain ⟨⟨rfl, rfl⟩, -⟩ := hl; exact ⟨_, List.prefix_refl _, .inl hb⟩

/-- The transport over which `New` authenticates is neither TLS nor a Unix socket. -/
def Insecure (k : Connector) (env : Env) : Prop := ∃ t src, env.dial = some (t, src) ∧ (t = .other ∨ t = .tcp ∧ k.tls = false)

/-- Two mechanisms that, each with its credentials, send the same messages. -/
structure SameMessages (k k' : Connector) : Prop where
  tls : k.tls = k'.tls
  start : ∀ buf s s', k.starter.start buf k.creds = .ok s → k'.starter.start buf k'.creds = .ok s' → s.data = s'.data
  none : k.starter.cont = none ↔ k'.starter.cont = none
  cont : ∀ f f' buf data s s', k.starter.cont = some f → k'.starter.cont = some f' → f buf k.creds data = .ok s →
    f' buf k'.creds data = .ok s' → s.data = s'.data

theorem sameMessages_auth {k k' : Connector} (hs : SameMessages k k') {x x' : World × Conn × Option ConnErr}
    (h : authenticate cd scratch w c k.creds k.starter = .ok x) (h' : authenticate cd scratch w c k'.creds k'.starter = .ok x') : x = x' := by
  rw [authenticate] at h h'
  cases hb : k.starter.start ⟨[], List.replicate 128 0⟩ k.creds with
  | error y => rw [hb] at h; cases h
  | ok b =>
    cases hb' : k'.starter.start ⟨[], List.replicate 128 0⟩ k'.creds with
    | error y => rw [hb'] at h'; cases h'
    | ok b' =>
      rw [hb] at h
      rw [hb'] at h'
      simp only [Bind.bind, Except.bind, hs.start _ _ _ hb hb'] at h h'
      cases hw : writeOne cd w c b'.data with
      | error y => rw [hw] at h; cases h
      | ok y =>
        obtain ⟨w1, c1, rr, e1⟩ := y
        rw [hw] at h h'
        dsimp only at h h'
        have other : ∀ e, e1 = some e → (∀ data, e ≠ .read (.requireContinue data)) → x = x' := by
          intro e he hne
          subst he
          split at h
          · rename_i heq; simp at heq
          · rename_i heq; simp at heq; exact absurd heq.2.2.2 (hne _)
          · rename_i heq
            simp at heq
            split at h'
            · rename_i heq; simp at heq
            · rename_i heq; simp at heq; exact absurd heq.2.2.2 (hne _)
            · rename_i heq'
              simp at heq'
              cases h; cases h'
              obtain ⟨rfl, rfl, rfl, rfl⟩ := heq
              obtain ⟨rfl, rfl, rfl, rfl⟩ := heq'
              rfl
        cases e1 with
        | none => cases h; cases h'; rfl
        | some e =>
          cases e with
          | setDeadline z => exact other _ rfl (by simp)
          | write z => exact other _ rfl (by simp)
          | unexpectedContinue => exact other _ rfl (by simp)
          | read z =>
            by_cases hz : ∃ data, z = .requireContinue data
            · obtain ⟨data, rfl⟩ := hz
              dsimp only at h h'
              cases hk : k.starter.cont with
              | none =>
                rw [hk] at h
                rw [hs.none.mp hk] at h'
                cases h; cases h'; rfl
              | some f =>
                cases hk' : k'.starter.cont with
                | none => rw [hs.none.mpr hk'] at hk; cases hk
                | some f' =>
                  rw [hk] at h
                  rw [hk'] at h'
                  dsimp only at h h'
                  cases hb2 : f ⟨[], scratch⟩ k.creds data with
                  | error y => rw [hb2] at h; cases h
                  | ok b2 =>
                    cases hb2' : f' ⟨[], scratch⟩ k'.creds data with
                    | error y => rw [hb2'] at h'; cases h'
                    | ok b2' =>
                      rw [hb2] at h
                      rw [hb2'] at h'
                      simp only [hs.cont _ _ _ _ _ _ hk hk' hb2 hb2'] at h h'
                      rw [h] at h'
                      cases h'
                      rfl
            · exact other _ rfl (fun data hd => hz ⟨data, by cases hd; rfl⟩)

theorem sameMessages_new {k k' : Connector} (hs : SameMessages k k') {env : Env} (hE : Streams env) (hi : Insecure k env) {x x' : World × Except NewErr Conn}
    (h : k.new env w = .ok x) (h' : k'.new env w = .ok x') : x = x' := by
  obtain ⟨t, src, hd, ht⟩ := hi
  have hn : ¬(t = .tcp ∧ k.tls = true) := by rcases ht with rfl | ⟨rfl, h⟩ <;> simp_all
  have hns : (Conn.new t src).isSecure = false := by rcases ht with rfl | ⟨rfl, h⟩ <;> simp [Conn.isSecure, Conn.new]
  rw [Connector.new, hd] at h h'
  dsimp only at h h'
  rw [if_neg hn] at h
  rw [← hs.tls, if_neg hn] at h'
  rw [finishNew] at h h'
  cases ha : authenticate env.cd env.scratch w (Conn.new t src) k.creds k.starter with
  | error y => rw [ha] at h; cases h
  | ok y =>
    cases ha' : authenticate env.cd env.scratch w (Conn.new t src) k'.creds k'.starter with
    | error y => rw [ha'] at h'; cases h'
    | ok y' =>
      have := sameMessages_auth hs ha ha'
      subst this
      obtain ⟨w1, c1, e1⟩ := y
      have hc1 : c1.isSecure = false := by
        rw [Conn.isSecure, (authed_life (.new t src (hE.1 _ _ hd)) (authenticate_cases ha)).2]; exact hns
      rw [ha] at h
      rw [ha'] at h'
      cases e1 with
      | none => cases h; cases h'; rfl
      | some e =>
        simp only [Bind.bind, Except.bind, hc1, Bool.and_false, Bool.false_eq_true, if_false] at h h'
        cases h; cases h'; rfl

theorem mysql41_same (g : Grow) {sha1 : Bytes → Bytes} (hH : ∀ x, (sha1 x).length = 20) (tls : Bool) {db user pw pw' : Bytes}
    (h0 : pw ≠ []) (h0' : pw' ≠ []) (hpw : sha1 pw = sha1 pw') :
    SameMessages ⟨tls, mysql41 g sha1, ⟨db, user, pw⟩⟩ ⟨tls, mysql41 g sha1, ⟨db, user, pw'⟩⟩ where
  tls := rfl
  start := fun buf s s' h h' => by
    have h2 := h.symm.trans h'
    injection h2 with h2
    rw [h2]
  none := Iff.rfl
  cont := fun f f' buf data s s' hf hf' h h' => by
    cases hf
    cases hf'
    exact C33_password_hidden g hH buf buf db user pw pw' data h0 h0' hpw h h'

theorem sha256_same (g : Grow) {sha256 : Bytes → Bytes} (hH : ∀ x, (sha256 x).length = 32) (tls : Bool) {db user pw pw' : Bytes}
    (hpw : sha256 pw = sha256 pw') :
    SameMessages ⟨tls, sha256Memory g sha256, ⟨db, user, pw⟩⟩ ⟨tls, sha256Memory g sha256, ⟨db, user, pw'⟩⟩ where
  tls := rfl
  start := fun buf s s' h h' => by
    have h2 := h.symm.trans h'
    injection h2 with h2
    rw [h2]
  none := Iff.rfl
  cont := fun f f' buf data s s' hf hf' h h' => by
    cases hf
    cases hf'
    exact C34_password_hidden g hH buf buf db user pw pw' data hpw h h'

/-- **C37**, nothing but the hash: over an insecure transport, with MYSQL41, the whole run (everything written, and the
result) is the same for any two passwords with the same hash, for every server behaviour. -/
theorem C37_mysql41_hidden (g : Grow) {sha1 : Bytes → Bytes} (hH : ∀ x, (sha1 x).length = 20) {tls : Bool} {db user pw pw' : Bytes}
    (h0 : pw ≠ []) (h0' : pw' ≠ []) (hpw : sha1 pw = sha1 pw') {env : Env} (hE : Streams env)
    (hi : Insecure ⟨tls, mysql41 g sha1, ⟨db, user, pw⟩⟩ env)
    {x x' : World × Except NewErr Conn} (h : Connector.new ⟨tls, mysql41 g sha1, ⟨db, user, pw⟩⟩ env w = .ok x)
    (h' : Connector.new ⟨tls, mysql41 g sha1, ⟨db, user, pw'⟩⟩ env w = .ok x') : x = x' :=
  sameMessages_new (mysql41_same g hH tls h0 h0' hpw) hE hi h h'

/-- **C37**, the same for SHA256_MEMORY. -/
theorem C37_sha256_hidden (g : Grow) {sha256 : Bytes → Bytes} (hH : ∀ x, (sha256 x).length = 32) {tls : Bool} {db user pw pw' : Bytes}
    (hpw : sha256 pw = sha256 pw') {env : Env} (hE : Streams env) (hi : Insecure ⟨tls, sha256Memory g sha256, ⟨db, user, pw⟩⟩ env)
    {x x' : World × Except NewErr Conn} (h : Connector.new ⟨tls, sha256Memory g sha256, ⟨db, user, pw⟩⟩ env w = .ok x)
    (h' : Connector.new ⟨tls, sha256Memory g sha256, ⟨db, user, pw'⟩⟩ env w = .ok x') : x = x' :=
  sameMessages_new (sha256_same g hH tls hpw) hE hi h h'

/-! ### C38 -/

/-- **C38**, what it asks for: with a TLS configuration, whatever the dialer returned (except for a Unix socket), apart
from the request for TLS nothing is written unless the handshake has succeeded. -/
def C38_full : Prop :=
  ∀ (k : Connector) (env : Env) (w w' : World) (res : Except NewErr Conn), k.tls = true → RejectsHeaders env.cd → Streams env →
    (∀ src, env.dial ≠ some (.unix, src)) → k.new env w = .ok (w', res) →
    ∃ l, w'.log = w.log ++ l ∧ OnlyInTLS l

/-- **C38**, for a dialer that returns a TCP connection (a `*net.TCPConn`).  Missing: any other type of network
connection, for which the TLS configuration is ignored (`C38_wrong`). -/
theorem C38_partial {k : Connector} {env : Env} (hcd : RejectsHeaders env.cd) (hE : Streams env) {res : Except NewErr Conn} {src : Source}
    (ht : k.tls = true) (hd : env.dial = some (.tcp, src)) (h : k.new env w = .ok (w', res)) :
    ∃ l, w'.log = w.log ++ l ∧ OnlyInTLS l := by
  cases new_cases hE h with
  | noDial hd' => rw [hd] at hd'; cases hd'
  | plainly hd' ht' hf => rw [hd] at hd'; cases hd'; exact absurd ⟨rfl, ht⟩ ht'
  | refused hd ht hb hp hl =>
    rcases hl with hl | hl
    · exact ⟨[], by simp [hl], fun l1 t b l2 hl => by simp at hl⟩
    · refine ⟨_, hl, fun l1 t b l2 hl => .inl ?_⟩
      cases l1 with
      | cons q l1 => cases l1 <;> simp at hl
      | nil => simp at hl; obtain ⟨⟨rfl, rfl⟩, -⟩ := hl; exact ⟨_, hb, hp, rfl⟩
  | @noTLS _ _ b' hd ht hb hl =>
    refine ⟨[.wrote .tcp b', .handshake false, .closed], by simp [World.close, hl], fun l1 t b l2 hl => .inl ?_⟩
    cases l1 with
    | cons q l1 => rcases l1 with - | ⟨q', - | ⟨q'', l1⟩⟩ <;> simp at hl
    | nil => simp at hl; obtain ⟨⟨rfl, rfl⟩, -⟩ := hl; exact ⟨_, hb, List.prefix_refl _, rfl⟩
  | @overTLS _ src' w1 _ c b' _ _ _ hb hh hl hc hf =>
    obtain ⟨ws, a, tail, b, d⟩ := finished_log hcd (by rw [hc]; exact .new _ _ (hE.2 _ hh)) hf
    have htr : c.transport = .tls := by rw [hc]; rfl
    refine ⟨[.wrote .tcp b', .handshake true] ++ (ws.map (.wrote c.transport ·) ++ tail), by rw [b, hl]; simp, ?_⟩
    intro l1 t x l2 hl
    rcases occurs_append hl with ⟨m, hm⟩ | ⟨m, hm1, hm2⟩
    · left
      cases l1 with
      | cons q l1 => rcases l1 with - | ⟨q', l1⟩ <;> simp at hm
      | nil => simp at hm; obtain ⟨⟨rfl, rfl⟩, -⟩ := hm; exact ⟨_, hb, List.prefix_refl _, rfl⟩
    · refine .inr ⟨?_, by rw [hm1]; simp⟩
      have : Event.wrote t x ∈ ws.map (.wrote c.transport ·) ++ tail := by rw [hm2]; simp
      rcases List.mem_append.mp this with h | h
      · obtain ⟨y, -, hy⟩ := List.mem_map.mp h
        cases hy
        exact htr
      · rcases d with d | d | ⟨d1, d2, d | ⟨y, d | d⟩⟩ <;> rw [d] at h <;> simp at h
        all_goals rw [h.1]; exact htr

/-! ### C39 -/

/-- **C39**, what it asks for. -/
def C39_full : Prop :=
  ∀ (k : Connector) (env : Env) (w w' : World) (res : Except NewErr Conn), Typed k.starter → RejectsHeaders env.cd → Streams env →
    env.dial ≠ none → k.new env w = .ok (w', res) → ∃ l, w'.log = w.log ++ l ∧ NoLeak env.cd l res

theorem authed_noclose {cd : Codec} {scratch : Bytes} {w w' : World} {c c' : Conn} {creds : Credentials} {st : Starter} {e : Option ConnErr}
    (h : Authed cd scratch w c creds st w' c' e) : ∃ l, w'.log = w.log ++ l ∧ Event.closed ∉ l := by
  obtain ⟨ws, a, -⟩ := authed_log (k := ⟨false, st, creds⟩) h
  exact ⟨_, a, by simp⟩

theorem authed_success {cd : Codec} (hcd : RejectsHeaders cd) {scratch : Bytes} {w w' : World} {c c' : Conn} {creds : Credentials} {st : Starter}
    (hc : Life cd c.r) (ht : Typed st) (h : Authed cd scratch w c creds st w' c' none) : ∃ before, Answered cd before .ok c'.r.pending := by
  cases h with
  | one hb h he => exact ⟨_, (wrote_ok hcd hc h rfl (.inl (ht.1 _ _ _ hb))).2⟩
  | two hb h hk hb2 h2 => exact ⟨_, (wrote_ok hcd (wrote_life hc h).1 h2 rfl (.inr (ht.2 _ hk _ _ _ _ hb2))).2⟩

theorem finished_end {k : Connector} {env : Env} (hcd : RejectsHeaders env.cd) (hc : Life env.cd c.r) (ht : Typed k.starter) {res : Except NewErr Conn}
    (h : Finished k env w c w' res) : ∃ l, w'.log = w.log ++ l ∧ NoLeak env.cd l res := by
  cases h with
  | ok h =>
    obtain ⟨l, a, b⟩ := authed_noclose h
    exact ⟨l, a, b, authed_success hcd hc ht h⟩
  | failed h hd =>
    obtain ⟨l, a, b⟩ := authed_noclose h
    exact ⟨l ++ [.closed], by simp [World.close, a], l, rfl, b⟩
  | plainOk h hd hs h2 =>
    obtain ⟨l, a, b⟩ := authed_noclose h
    obtain ⟨l', a', b'⟩ := authed_noclose h2
    exact ⟨l ++ l', by rw [a', a, List.append_assoc], by simp [b, b'], authed_success hcd (authed_life hc h).1 (plain_typed _) h2⟩
  | plainFailed h hd hs h2 =>
    obtain ⟨l, a, b⟩ := authed_noclose h
    obtain ⟨l', a', b'⟩ := authed_noclose h2
    exact ⟨l ++ l' ++ [.closed], by simp [World.close, a', a], l ++ l', rfl, by simp [b, b']⟩

/-- **C39**: on success the connection is open and authenticated.  On an error after dialling it has been closed, as the
last thing, unless sending the request for TLS failed (then the connection is lost, see `C39_wrong`: that part is missing). -/
theorem C39_partial {k : Connector} {env : Env} (ht : Typed k.starter) (hcd : RejectsHeaders env.cd) (hE : Streams env) {res : Except NewErr Conn}
    (hd : env.dial ≠ none) (h : k.new env w = .ok (w', res)) : ∃ l, w'.log = w.log ++ l ∧
      (NoLeak env.cd l res ∨ (k.tls = true ∧ (∃ src, env.dial = some (.tcp, src)) ∧ (∃ x, res = .error (.conn x)) ∧ ∀ ok, Event.handshake ok ∉ l)) := by
  have fin : ∀ {w1 w0 : World} {l0 : List Event}, w0.log = w.log ++ l0 → Event.closed ∉ l0 → (∃ l, w1.log = w0.log ++ l ∧ NoLeak env.cd l res) → ∃ l, w1.log = w.log ++ l ∧
      (NoLeak env.cd l res ∨ (k.tls = true ∧ (∃ src, env.dial = some (.tcp, src)) ∧ (∃ x, res = .error (.conn x)) ∧ ∀ ok, Event.handshake ok ∉ l)) := by
    intro w1 w0 l0 hl hn ⟨l, a, b⟩
    refine ⟨l0 ++ l, by rw [a, hl, List.append_assoc], ?_⟩
    cases res with
    | error e =>
      obtain ⟨m, rfl, hm⟩ := b
      exact .inl ⟨l0 ++ m, by simp, by simp [hn, hm]⟩
    | ok conn =>
      obtain ⟨b1, b2⟩ := b
      exact .inl ⟨by simp [hn, b1], b2⟩
  cases new_cases hE h with
  | noDial hd' => exact absurd hd' hd
  | plainly hd' ht' hf => exact fin (w0 := w) (l0 := []) (by simp) (by simp) (finished_end hcd (.new _ _ (hE.1 _ _ hd')) ht hf)
  | refused hd' ht' hb hp hl =>
    rcases hl with hl | hl
    · exact ⟨[], by simp [hl], .inr ⟨ht', ⟨_, hd'⟩, ⟨_, rfl⟩, by simp⟩⟩
    · exact ⟨_, hl, .inr ⟨ht', ⟨_, hd'⟩, ⟨_, rfl⟩, by simp⟩⟩
  | @noTLS _ _ b' hd' ht' hb hl =>
    exact ⟨[.wrote .tcp b', .handshake false, .closed], by simp [World.close, hl], .inl ⟨[.wrote .tcp b', .handshake false], rfl, by simp⟩⟩
  | overTLS hd' ht' hb hh hl hc hf =>
    exact fin hl (by simp) (finished_end hcd (by rw [hc]; exact .new _ _ (hE.2 _ hh)) ht hf)

theorem finishNew_no_panic {k : Connector} {env : Env} (hc : Life env.cd c.r) (ht : Typed k.starter) (hs : Calm k.starter) :
    finishNew k env w c ≠ .error .panic := by
  intro h
  rw [finishNew] at h
  cases h1 : authenticate env.cd env.scratch w c k.creds k.starter with
  | error x => rw [h1] at h; cases h; exact C36_no_panic hc ht hs h1
  | ok x =>
    obtain ⟨w1, c1, e1⟩ := x
    rw [h1] at h
    cases e1 with
    | none => cases h
    | some e =>
      simp only [Bind.bind, Except.bind] at h
      split at h
      · cases h2 : authenticate env.cd env.scratch w1 c1 k.creds (plain env.g) with
        | error x =>
          rw [h2] at h
          cases h
          exact C36_no_panic (authed_life hc (authenticate_cases h1)).1 (plain_typed _) (plain_calm _) h2
        | ok x =>
          obtain ⟨w2, c2, e2⟩ := x
          rw [h2] at h
          cases e2 <;> cases h
      · cases h

/-- **C39**: no server, fault or dialer makes `New` panic. -/
theorem C39_no_panic {k : Connector} {env : Env} (hE : Streams env) (ht : Typed k.starter) (hs : Calm k.starter) : k.new env w ≠ .error .panic := by
  intro h
  rw [Connector.new] at h
  cases hd : env.dial with
  | none => rw [hd] at h; cases h
  | some x =>
    obtain ⟨t, src⟩ := x
    rw [hd] at h
    dsimp only at h
    have hl := Life.new (cd := env.cd) t src (hE.1 _ _ hd)
    split at h
    · rw [capabilitySet_tls] at h
      simp only [Bind.bind, Except.bind] at h
      obtain ⟨w1, c1, rs, e1, hsend, hlife, -⟩ := C31_safe env.cd (w := w) hl
        (b := [20, 0, 0, 0, 2] ++ [10, 17, 10, 15, 10, 3, 116, 108, 115, 18, 8, 8, 1, 18, 4, 8, 7, 64, 1])
        (fs := [(2, [10, 17, 10, 15, 10, 3, 116, 108, 115, 18, 8, 8, 1, 18, 4, 8, 7, 64, 1])]) (by decide +kernel)
      rw [hsend] at h
      cases e1 with
      | some e1 => cases h
      | none =>
        dsimp only at h
        cases hh : env.handshake with
        | none => rw [hh] at h; cases h
        | some src' =>
          rw [hh] at h
          dsimp only at h
          refine finishNew_no_panic ?_ ht hs h
          have : (c1.reset .tls src').r = (Conn.new .tls src').r := by simp only [Conn.reset, Conn.new, (life_inv hlife).2.1]
          rw [this]
          exact .new _ _ (hE.2 _ hh)
    · exact finishNew_no_panic hl ht hs h

/-! ### C55 -/

theorem send_world {rs : List Response} {b : Bytes} (h : Conn.send cd w c b = .ok (w', c', rs, none)) :
    w' = { w with calls := w.calls + 2, log := w.log ++ [.wrote c.transport b] } := by
  rw [Conn.send, World.write] at h
  cases h1 : w.fault w.calls with
  | some x => rw [h1] at h; cases h
  | none =>
    rw [h1] at h
    dsimp only at h
    cases h2 : w.fault (w.calls + 1) with
    | some x => rw [h2] at h; cases h
    | none =>
      rw [h2] at h
      dsimp only at h
      split at h
      · cases h
      · cases h
      · injection h with h
        injection h with h
        exact h.symm

/-- **C55.** Once the TLS handshake has succeeded, what the peer (or anyone between) had sent in the clear before has no
influence: the run is the same whatever it was, beyond letting `New` get to the handshake.  Two runs whose environments
differ only in the plaintext stream of the TCP connection, and which both get past the handshake, write the same and
return the same. -/
theorem C55_plaintext_ignored {k : Connector} {env : Env} (hE : Streams env) {src src' : Source} (hd : env.dial = some (.tcp, src)) (ht : k.tls = true)
    (hsrc' : src'.err ≠ .bufferFull) {x x' : World × Except NewErr Conn} (h : k.new env w = .ok x)
    (h' : k.new { env with dial := some (.tcp, src') } w = .ok x') {l l' : List Event} (hl : x.1.log = w.log ++ l) (hl' : x'.1.log = w.log ++ l')
    (hh : Event.handshake true ∈ l) (hh' : Event.handshake true ∈ l') : x = x' := by
  have key : ∀ {env : Env} {src : Source} {x : World × Except NewErr Conn} {l : List Event}, Streams env → env.dial = some (.tcp, src) →
      k.new env w = .ok x → x.1.log = w.log ++ l → Event.handshake true ∈ l →
      ∃ src2 b, env.handshake = some src2 ∧ capabilitySet (ascii "tls") true = .ok b ∧
        finishNew k env { w with calls := w.calls + 2, log := w.log ++ [.wrote .tcp b] ++ [.handshake true] } (Conn.new .tls src2) = .ok x := by
    intro env src x l hE hd h hl hh
    rw [Connector.new, hd] at h
    dsimp only at h
    rw [if_pos ⟨rfl, ht⟩] at h
    cases hb : capabilitySet (ascii "tls") true with
    | error x => rw [hb] at h; cases h
    | ok b =>
      rw [hb] at h
      simp only [Bind.bind, Except.bind] at h
      cases hs : Conn.send env.cd w (Conn.new .tcp src) b with
      | error x => rw [hs] at h; cases h
      | ok y =>
        obtain ⟨w1, c1, rs, e1⟩ := y
        have hlife : Life env.cd c1.r := send_size (.new .tcp src (hE.1 _ _ hd)) hs
        rw [hs] at h
        cases e1 with
        | some e1 =>
          cases h
          rcases (send_cases hs).2 with ⟨q, -⟩ | ⟨-, b', -, q | q⟩
          · cases q
          · rw [q] at hl
            simp at hl
            subst hl
            simp at hh
          · rw [q] at hl
            simp at hl
            subst hl
            simp at hh
        | none =>
          have hw := send_world hs
          subst hw
          dsimp only at h
          cases hh2 : env.handshake with
          | none =>
            rw [hh2] at h
            cases h
            simp only [World.close, List.append_assoc, List.append_cancel_left_eq] at hl
            subst hl
            simp at hh
          | some src2 =>
            rw [hh2] at h
            refine ⟨src2, b, rfl, rfl, ?_⟩
            have e : c1.reset .tls src2 = Conn.new .tls src2 := by simp only [Conn.reset, Conn.new, (life_inv hlife).2.1]
            rw [← e]
            exact h
  obtain ⟨s1, b1, p1, p2, p3⟩ := key hE hd h hl hh
  obtain ⟨s2, b2, q1, q2, q3⟩ := key (env := { env with dial := some (.tcp, src') })
    ⟨fun _ _ e => by cases e; exact hsrc', hE.2⟩ rfl h' hl' hh'
  rw [p1] at q1
  cases q1
  rw [p2] at q2
  cases q2
  have e := p3.symm.trans q3
  injection e

/-! ### cases and counterexamples -/

/-- As `toyCodec`, with codes from 1000 on. -/
def connCodec : Codec := { toyCodec with error := fun b => (toyCodec.error b).map fun e => { e with code := 1000 + e.code } }

theorem connCodec_rejects : RejectsHeaders connCodec := fun _ => ⟨rfl, rfl, rfl⟩

def credsEx : Credentials := ⟨ascii "db", ascii "root", ascii "secret"⟩

def noGrow : Grow := fun _ _ => 0

/-- The server asks for the second message, then denies access; then accepts. -/
def deniesEx : Source := ⟨[[5, 0, 0, 0, 3, 10, 1, 2, 3], [3, 0, 0, 0, 1, 0, 45], [1, 0, 0, 0, 4]], .eof, false⟩

def envEx (t : Transport) (src src' : Source) : Env := ⟨connCodec, noGrow, [], some (t, src), some src'⟩

theorem envEx_streams (t : Transport) {src src' : Source} (h : src.err ≠ .bufferFull) (h' : src'.err ≠ .bufferFull) : Streams (envEx t src src') :=
  ⟨fun _ _ e => by cases e; exact h, fun _ e => by cases e; exact h'⟩

/-- What was written, by transport and message type, and whether there is a connection. -/
def trace (x : M (World × Except NewErr Conn)) : Option (List (Option (Transport × Option UInt8)) × Bool) :=
  x.toOption.map fun x => (x.1.log.map (fun | .wrote t b => some (t, b[4]?) | _ => none), match x.2 with | .ok _ => true | .error _ => false)

/-- Over a Unix socket: MYSQL41 (two messages), denied, PLAIN, accepted. -/
example : trace (Connector.new ⟨false, mysql41 noGrow toySha1, credsEx⟩ (envEx .unix deniesEx deniesEx) calm) =
    some ([some (.unix, some 4), some (.unix, some 5), some (.unix, some 4)], true) := by decide +kernel

/-- Over TCP without TLS: denied, closed. -/
example : trace (Connector.new ⟨false, mysql41 noGrow toySha1, credsEx⟩ (envEx .tcp deniesEx deniesEx) calm) =
    some ([some (.tcp, some 4), some (.tcp, some 5), none], false) := by decide +kernel

/-- Over TCP with TLS: the request for TLS (accepted), the handshake, and the same inside TLS. -/
example : trace (Connector.new ⟨true, mysql41 noGrow toySha1, credsEx⟩ (envEx .tcp ⟨[[1, 0, 0, 0, 0]], .eof, false⟩ deniesEx) calm) =
    some ([some (.tcp, some 2), none, some (.tls, some 4), some (.tls, some 5), some (.tls, some 4)], true) := by decide +kernel

example : Insecure ⟨false, mysql41 noGrow toySha1, credsEx⟩ (envEx .tcp deniesEx deniesEx) := ⟨_, _, rfl, .inr ⟨rfl, rfl⟩⟩

/-- For C55: with and without injected plaintext after the answer to the request for TLS. -/
example : trace (Connector.new ⟨true, mysql41 noGrow toySha1, credsEx⟩ (envEx .tcp ⟨[[1, 0, 0, 0, 0, 1, 0, 0, 0, 4]], .eof, false⟩ deniesEx) calm) =
    trace (Connector.new ⟨true, mysql41 noGrow toySha1, credsEx⟩ (envEx .tcp ⟨[[1, 0, 0, 0, 0]], .eof, false⟩ deniesEx) calm) := by decide +kernel

/-- **C38** is false: the TLS configuration is ignored for a network connection that is not a `*net.TCPConn` (as
another dialer may return, or `net.Dialer` for a network that is neither tcp nor unix; see `C65_tls`), and with PLAIN the
password is written in the clear. -/
theorem C38_wrong : ¬C38_full := by
  intro h
  let k : Connector := ⟨true, plain noGrow, credsEx⟩
  let env := envEx .other ⟨[[1, 0, 0, 0, 4]], .eof, false⟩ deniesEx
  have ht : ((k.new env calm).toOption.map fun x => (x.1.log.length, x.1.log.head?.map fun | .wrote t b => (t, b[4]?) | _ => (.tls, none))) = some (1, some (.other, some 4)) := by
    decide +kernel
  cases hr : k.new env calm with
  | error x => rw [hr] at ht; cases ht
  | ok x =>
    obtain ⟨w', res⟩ := x
    rw [hr] at ht
    simp only [Except.toOption, Option.map_some, Option.some.injEq, Prod.mk.injEq] at ht
    obtain ⟨l, hl, ho⟩ := h k env calm w' res rfl connCodec_rejects (envEx_streams _ (by simp) (by simp [deniesEx]))
      (fun src e => by simp [env, envEx] at e) hr
    have hl : w'.log = l := by simpa [calm] using hl
    rw [hl] at ht
    match l, ht with
    | [.wrote t b], ht =>
      simp at ht
      obtain ⟨rfl, ht⟩ := ht
      rcases ho [] _ b [] rfl with ⟨full, h1, h2, -⟩ | ⟨h1, -⟩
      · rw [capabilitySet_tls] at h1
        cases h1
        obtain ⟨z, hz⟩ := h2
        have := congrArg (·[4]?) hz
        simp only [List.getElem?_append_left (List.getElem?_eq_some_iff.mp ht).1, ht] at this
        simp at this
      · cases h1

/-- **C39** is false: if sending the request for TLS fails (here: the server hangs up), `New` returns the error without
closing the connection. -/
theorem C39_wrong : ¬C39_full := by
  intro h
  let k : Connector := ⟨true, plain noGrow, credsEx⟩
  let env := envEx .tcp ⟨[], .eof, false⟩ deniesEx
  have ht : ((k.new env calm).toOption.map fun x => (x.1.log.map (fun | .closed => true | _ => false), match x.2 with | .ok _ => true | .error _ => false)) = some ([false], false) := by
    decide +kernel
  cases hr : k.new env calm with
  | error x => rw [hr] at ht; cases ht
  | ok x =>
    obtain ⟨w', res⟩ := x
    rw [hr] at ht
    simp only [Except.toOption, Option.map_some, Option.some.injEq, Prod.mk.injEq] at ht
    obtain ⟨l, hl, ho⟩ := h k env calm w' res (plain_typed _) connCodec_rejects (envEx_streams _ (by simp) (by simp [deniesEx]))
      (by simp [env, envEx]) hr
    have hl : w'.log = l := by simpa [calm] using hl
    rw [hl] at ht
    cases res with
    | ok c => simp at ht
    | error e =>
      obtain ⟨l0, rfl, -⟩ := ho
      have := congrArg List.getLast? ht.1
      simp at this

end Verif.Props
