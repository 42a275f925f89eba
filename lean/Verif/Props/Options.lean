import Verif.Spec.Options
import Verif.Props.Connector
import Verif.Props.Auth
/-! C65: a connector does what its options say. -/
namespace Verif.Props
open Verif.Go Verif.Model Verif.Spec Verif.Proof

variable {E : Type} {g : Grow} {sha1 : Bytes → Bytes} {network address : Bytes} {ss : List Setting}

/-- **C65.** With the library's options, in any number and order, `New` makes a connector, for the network and address
given, and of each kind of option the last one counts; without one: no user, password and database, no TLS, MYSQL41. -/
theorem C65_settings (g : Grow) (sha1 : Bytes → Bytes) (network address : Bytes) (ss : List Setting) :
    ∃ c, newConnector (E := E) g sha1 network address (ss.map Setting.opt) = .ok c ∧
      c.network = network ∧ c.address = address ∧ c.creds = wantedCreds ss ∧
      c.tls = lastSetting Setting.tls? none ss ∧ c.starter = lastSetting Setting.authentication? (mysql41 g sha1) ss := by
  have key : ∀ (ss : List Setting) (c : Config), ∃ c', applyOptions (E := E) (ss.map Setting.opt) c = .ok c' ∧ c'.network = c.network ∧ c'.address = c.address ∧
      c'.database = lastSetting Setting.database? c.database ss ∧
      (c'.userName, c'.password) = lastSetting Setting.userPassword? (c.userName, c.password) ss ∧
      c'.tls = lastSetting Setting.tls? c.tls ss ∧ c'.starter = lastSetting Setting.authentication? c.starter ss := by
    intro ss
    induction ss with
    | nil => intro c; exact ⟨c, rfl, rfl, rfl, rfl, rfl, rfl, rfl⟩
    | cons s ss ih =>
      intro c
      have snoc : ∀ {α : Type} (f : Setting → Option α) (d : α), lastSetting f d (s :: ss) = lastSetting f ((f s).getD d) ss := by
        intro α f d
        simp only [lastSetting, List.reverse_cons, List.findSome?_append]
        cases ss.reverse.findSome? f <;> cases h : f s <;> simp [h]
      cases s <;> (
        simp only [List.map_cons, applyOptions, Setting.opt, withDatabase, withAuthentication, withUserPassword, withTLSConfig]
        simp only [snoc]
        exact ih _)
  obtain ⟨c, h1, h2, h3, h4, h5, h6, h7⟩ := key ss ⟨network, address, none, mysql41 g sha1, [], [], []⟩
  refine ⟨c, h1, h2, h3, ?_, h6, h7⟩
  simp only [Config.creds, wantedCreds, ← h5, h4]

/-- **C65**, with options of any origin: `New` fails exactly if an option fails, with the error of the first one that does;
the later ones are not called. -/
theorem C65_first_error (opts : List (Opt E)) (c : Config) (e : E) :
    applyOptions opts c = .error e ↔
      ∃ before o after c1, opts = before ++ o :: after ∧ applyOptions before c = .ok c1 ∧ (o c1).2 = some e := by
  induction opts generalizing c with
  | nil => simp [applyOptions]
  | cons o os ih =>
    constructor
    · intro h
      rw [applyOptions] at h
      cases ho : o c with
      | mk c1 r =>
        rw [ho] at h
        cases r with
        | some e' => cases h; exact ⟨[], o, os, c, rfl, rfl, by rw [ho]⟩
        | none =>
          obtain ⟨before, o', after, c2, rfl, h1, h2⟩ := (ih c1).mp h
          exact ⟨o :: before, o', after, c2, rfl, by simp [applyOptions, ho, h1], h2⟩
    · rintro ⟨before, o', after, c2, he, h1, h2⟩
      cases before with
      | nil =>
        simp only [List.nil_append, List.cons.injEq] at he
        obtain ⟨rfl, rfl⟩ := he
        cases h1
        rw [applyOptions]
        cases ho : o c with
        | mk c1 r =>
          rw [ho] at h2
          subst h2
          rfl
      | cons b before =>
        simp only [List.cons_append, List.cons.injEq] at he
        obtain ⟨rfl, rfl⟩ := he
        rw [applyOptions] at h1 ⊢
        cases ho : o c with
        | mk c1 r =>
          rw [ho] at h1
          cases r with
          | some e' => cases h1
          | none => exact (ih c1).mpr ⟨before, o', after, c2, rfl, h1, h2⟩

/-- What is written while connecting: the request for TLS, or a message of the mechanism asked for or of PLAIN with the
credentials asked for, or a part of one. -/
def Asked (ss : List Setting) (mech plainMech : Starter) (b : Bytes) : Prop :=
  ∃ full, b <+: full ∧ (capabilitySet (ascii "tls") true = .ok full ∨
    ∃ st, (st = mech ∨ st = plainMech) ∧ ((∃ buf s, st.start buf (wantedCreds ss) = .ok s ∧ full = s.data) ∨
      ∃ f buf data s, st.cont = some f ∧ f buf (wantedCreds ss) data = .ok s ∧ full = s.data))

theorem finished_asked {k : Connector} {env : Env} {w w' : World} {c : Conn} {res : Except NewErr Conn} (h : Finished k env w c w' res) :
    ∃ l, w'.log = w.log ++ l ∧ ∀ t b, Event.wrote t b ∈ l → ∃ full, b <+: full ∧ (Configured k full ∨ Configured { k with starter := plain env.g } full) := by
  have one : ∀ {k : Connector} {w w' : World} {c c' : Conn} {e : Option ConnErr}, Authed env.cd env.scratch w c k.creds k.starter w' c' e →
      ∃ l, w'.log = w.log ++ l ∧ ∀ t b, Event.wrote t b ∈ l → ∃ full, b <+: full ∧ Configured k full := by
    intro k w w' c c' e h
    obtain ⟨ws, h1, h2⟩ := authed_log h
    refine ⟨_, h1, fun t b hm => ?_⟩
    obtain ⟨b', hb, he⟩ := List.mem_map.mp hm
    cases he
    exact h2 b hb
  cases h with
  | ok h =>
    obtain ⟨l, h1, h2⟩ := one h
    exact ⟨l, h1, fun t b hm => (h2 t b hm).imp fun _ h => ⟨h.1, .inl h.2⟩⟩
  | failed h hd =>
    obtain ⟨l, h1, h2⟩ := one h
    refine ⟨l ++ [.closed], by simp [World.close, h1], fun t b hm => ?_⟩
    exact (h2 t b (by simpa using hm)).imp fun _ h => ⟨h.1, .inl h.2⟩
  | plainOk h hd hs hp =>
    obtain ⟨l, h1, h2⟩ := one h
    obtain ⟨l', h3, h4⟩ := one (k := { k with starter := plain env.g }) hp
    refine ⟨l ++ l', by simp [h3, h1], fun t b hm => ?_⟩
    rcases List.mem_append.mp hm with hm | hm
    · exact (h2 t b hm).imp fun _ h => ⟨h.1, .inl h.2⟩
    · exact (h4 t b hm).imp fun _ h => ⟨h.1, .inr h.2⟩
  | plainFailed h hd hs hp =>
    obtain ⟨l, h1, h2⟩ := one h
    obtain ⟨l', h3, h4⟩ := one (k := { k with starter := plain env.g }) hp
    refine ⟨l ++ l' ++ [.closed], by simp [World.close, h3, h1], fun t b hm => ?_⟩
    rcases List.mem_append.mp hm with hm | hm
    · rcases List.mem_append.mp hm with hm | hm
      · exact (h2 t b hm).imp fun _ h => ⟨h.1, .inl h.2⟩
      · exact (h4 t b hm).imp fun _ h => ⟨h.1, .inr h.2⟩
    · simp at hm

theorem configured_asked {c : Config} (hc : c.creds = wantedCreds ss) {st mech pl : Starter} (hst : st = mech ∨ st = pl) {full b : Bytes} (hp : b <+: full)
    (h : Configured { c.connector with starter := st } full) : Asked ss mech pl b := by
  simp only [Configured, Config.connector, hc] at h
  rcases h with h | h | h
  · exact ⟨full, hp, .inl h⟩
  · exact ⟨full, hp, .inr ⟨st, hst, .inl h⟩⟩
  · exact ⟨full, hp, .inr ⟨st, hst, .inr h⟩⟩

/-- **C65.** A connector dials the network and address it was made for, and nothing else: what it does depends on the dialer
only there, and if dialling fails nothing is written. -/
theorem C65_address {c : Config} (h : newConnector (E := E) g sha1 network address (ss.map Setting.opt) = .ok c)
    (dial : Bytes → Bytes → Option (Transport × Source)) (env : Env) (w : World) :
    (∀ dial', dial' network address = dial network address → c.new dial' env w = c.new dial env w) ∧
    (dial network address = none → c.new dial env w = .ok (w, .error .dial)) := by
  obtain ⟨c', h1, h2, h3, -⟩ := C65_settings (E := E) g sha1 network address ss
  rw [h] at h1
  cases h1
  refine ⟨fun dial' hd => by simp only [Config.new, h2, h3, hd], fun hd => ?_⟩
  simp [Config.new, Connector.new, h2, h3, hd]

/-- **C65.** Everything a connector writes while connecting is the request for TLS, or a message of the mechanism asked for
(MYSQL41 by default) or of PLAIN, with the user, password and database asked for. -/
theorem C65_messages {c : Config} (h : newConnector (E := E) g sha1 network address (ss.map Setting.opt) = .ok c)
    {dial : Bytes → Bytes → Option (Transport × Source)} {env : Env} {w w' : World} {res : Except NewErr Conn}
    (hE : ∀ src, env.handshake = some src → src.err ≠ .bufferFull) (hD : NetDialer dial) (hn : c.new dial env w = .ok (w', res)) :
    ∃ l, w'.log = w.log ++ l ∧ ∀ t b, Event.wrote t b ∈ l → Asked ss (lastSetting Setting.authentication? (mysql41 g sha1) ss) (plain env.g) b := by
  obtain ⟨c', h1, h2, h3, h4, h5, h6⟩ := C65_settings (E := E) g sha1 network address ss
  rw [h] at h1
  cases h1
  have fin : ∀ {w0 w1 : World} {x : Conn}, Finished c.connector { env with dial := dial c.network c.address } w0 x w1 res →
      ∃ l, w1.log = w0.log ++ l ∧ ∀ t b, Event.wrote t b ∈ l → Asked ss (lastSetting Setting.authentication? (mysql41 g sha1) ss) (plain env.g) b := by
    intro w0 w1 x hf
    obtain ⟨l, g1, g2⟩ := finished_asked hf
    refine ⟨l, g1, fun t b hm => ?_⟩
    obtain ⟨full, hp, hc | hc⟩ := g2 t b hm
    · exact configured_asked h4 (.inl h6) hp hc
    · exact configured_asked h4 (.inr rfl) hp hc
  have tls : ∀ {b b' : Bytes}, capabilitySet (ascii "tls") true = .ok b → b' <+: b →
      Asked ss (lastSetting Setting.authentication? (mysql41 g sha1) ss) (plain env.g) b' := fun hb hp => ⟨_, hp, .inl hb⟩
  have hS : Streams { env with dial := dial c.network c.address } := ⟨fun t src hd => (hD _ _ _ _ hd).2.2, hE⟩
  cases new_cases (k := c.connector) hS hn with
  | noDial hd => exact ⟨[], by simp, by simp⟩
  | plainly hd ht hf => exact fin hf
  | @refused _ _ b b' _ hd ht hb hp hl =>
    rcases hl with hl | hl
    · exact ⟨[], by simp [hl], by simp⟩
    · refine ⟨_, hl, fun t y hm => ?_⟩
      simp only [List.mem_singleton, Event.wrote.injEq] at hm
      rw [hm.2]; exact tls hb hp
  | @noTLS _ w1 b hd ht hb hl =>
    refine ⟨[.wrote .tcp b, .handshake false, .closed], by simp [World.close, hl], fun t y hm => ?_⟩
    simp at hm
    rw [hm.2]; exact tls hb (List.prefix_refl _)
  | @overTLS _ _ w1 _ x b _ hd ht hb hh hl hc hf =>
    obtain ⟨l, g1, g2⟩ := fin hf
    refine ⟨[.wrote .tcp b, .handshake true] ++ l, by rw [g1, hl]; simp, fun t y hm => ?_⟩
    rcases List.mem_append.mp hm with hm | hm
    · simp at hm
      rw [hm.2]; exact tls hb (List.prefix_refl _)
    · exact g2 t y hm

/-- **C65, C38** for connectors as the API makes them: over TCP, if the last TLS configuration given is not nil, nothing but
the request for TLS is written outside of TLS, whatever the other options are. -/
theorem C65_tls {c : Config} (h : newConnector (E := E) g sha1 network address (ss.map Setting.opt) = .ok c)
    {dial : Bytes → Bytes → Option (Transport × Source)} {env : Env} {w w' : World} {res : Except NewErr Conn}
    (hcd : RejectsHeaders env.cd) (hE : ∀ src, env.handshake = some src → src.err ≠ .bufferFull) (hD : NetDialer dial)
    (hnet : network ∈ [ascii "tcp", ascii "tcp4", ascii "tcp6"]) {config : Nat} (ht : lastSetting Setting.tls? none ss = some config)
    (hn : c.new dial env w = .ok (w', res)) : ∃ l, w'.log = w.log ++ l ∧ OnlyInTLS l := by
  obtain ⟨c', h1, h2, h3, h4, h5, h6⟩ := C65_settings (E := E) g sha1 network address ss
  rw [h] at h1
  cases h1
  have htls : c.connector.tls = true := by simp [Config.connector, h5, ht]
  cases hd : dial network address with
  | none =>
    obtain ⟨-, hno⟩ := C65_address h dial env w
    rw [hno hd] at hn
    cases hn
    exact ⟨[], by simp, fun l1 t b l2 hl => by simp at hl⟩
  | some x =>
    obtain ⟨t, src⟩ := x
    obtain rfl := (hD _ _ _ _ hd).1 hnet
    have hS : Streams { env with dial := dial c.network c.address } := ⟨fun t src hd => (hD _ _ _ _ hd).2.2, hE⟩
    exact C38_partial (k := c.connector) (env := { env with dial := dial c.network c.address }) hcd hS htls (src := src) (by simp only [h2, h3, hd]) hn

/-! ### cases -/

/-- User and password twice, TLS given and taken back and given again. -/
def settingsEx : List Setting := [.userPassword (ascii "nobody") (ascii "x"), .tls (some 1), .database (ascii "db"), .tls none,
  .userPassword (ascii "root") (ascii "secret"), .tls (some 2)]

example : wantedCreds settingsEx = credsEx ∧ lastSetting Setting.tls? none settingsEx = some 2 ∧
    (lastSetting Setting.authentication? (mysql41 noGrow toySha1) settingsEx) = mysql41 noGrow toySha1 := ⟨rfl, rfl, rfl⟩

/-- The network has one server, at a TCP address. -/
def dialEx (src : Source) : Bytes → Bytes → Option (Transport × Source) := fun network address =>
  if network = ascii "tcp" ∧ address = ascii "localhost:33060" then some (.tcp, src) else none

theorem dialEx_net {src : Source} (h : src.err ≠ .bufferFull) : NetDialer (dialEx src) := by
  intro network address t src' hd
  simp only [dialEx] at hd
  split at hd
  · rename_i hn
    cases hd
    obtain ⟨rfl, -⟩ := hn
    exact ⟨fun _ => rfl, fun hm => absurd hm (by decide +kernel), h⟩
  · cases hd

/-- The hypotheses of C65 are met: the connector asks for TLS, and then authenticates inside it. -/
example : ((newConnector (E := Unit) noGrow toySha1 (ascii "tcp") (ascii "localhost:33060") (settingsEx.map Setting.opt)).toOption.bind fun c =>
      trace (c.new (dialEx ⟨[[1, 0, 0, 0, 0]], .eof, false⟩) (envEx .tcp ⟨[], .eof, false⟩ deniesEx) calm)) =
    some ([some (.tcp, some 2), none, some (.tls, some 4), some (.tls, some 5), some (.tls, some 4)], true) := by decide +kernel

/-- An option of the user that fails. -/
example : newConnector noGrow toySha1 (ascii "tcp") [] [withDatabase (ascii "a"), fun c => (c, some "bad"), fun c => (c, some "worse")] = .error "bad" := rfl

end Verif.Props
