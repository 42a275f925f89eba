import Verif.Model.Connector
import Verif.Proof.Answer
import Verif.Proof.Auth
/-! Authentication and connecting. -/
namespace Verif.Proof
open Verif.Go Verif.Model Verif.Spec

theorem done_continue {cd : Codec} (hcd : RejectsHeaders cd) {ct : UInt8} {p rest data : Bytes} {m : UInt8 × Bytes} {rr : Response}
    (hf : readFrame p = some (m, rest)) (h : act cd ct m.1.toNat (seen p m) = .done rr (some (.requireContinue data))) :
    AsksContinue cd p data rest ∧ ct = 4 := by
  unfold act at h
  split at h
  · cases h
  · split at h
    · split at h <;> cases h
    · split at h
      · split at h
        · cases h
        · split at h
          · cases h
          · split at h <;> cases h
      · split at h
        · cases h
        · split at h
          · rename_i h3
            have h3 : m.1 = 3 := (toNat_eq (n := 3) (by decide)).mp h3
            split at h
            · cases h
            · rename_i hct
              split at h
              · cases h
              · rename_i d hd
                cases h
                have hne : m.2 ≠ [] := by
                  intro h0
                  rw [seen_empty hf h0, (hcd _).2.2] at hd
                  cases hd
                refine ⟨.last (p := m.2) ?_ hne ?_, by simpa using hct⟩
                · rw [hf, ← h3]
                · rw [seen, if_neg hne] at hd; exact hd
          · cases h

theorem read_continue {cd : Codec} (hcd : RejectsHeaders cd) (ct : UInt8) (size : Nat) (E : IOErr) (k : Nat) :
    ∀ {p rest data : Bytes} {rr : Response}, p.length ≤ k → readP cd ct size E p = (rest, rr, some (.requireContinue data)) →
      AsksContinue cd p data rest ∧ ct = 4 := by
  induction k with
  | zero =>
    intro p rest data rr hk h
    rw [readP, if_pos (by omega)] at h
    cases h
  | succ k ih =>
    intro p rest data rr hk h
    cases hf : readFrame p with
    | none =>
      have := readP_noframe cd ct size E hf
      rw [h] at this
      simp at this
    | some mr =>
      obtain ⟨m, r1⟩ := mr
      rw [readP_frame cd ct size E hf] at h
      cases ha : act cd ct m.1.toNat (seen p m) with
      | done rr' e' =>
        rw [ha] at h
        cases h
        exact done_continue hcd hf ha
      | stuck e' =>
        rw [ha] at h
        have : e' = .unmarshalMeta := by
          unfold act at ha
          repeat' (split at ha)
          all_goals first | (cases ha; rfl) | cases ha
        subst this
        cases h
      | next =>
        rw [ha] at h
        have hs := (readFrame_shorter hf).1
        obtain ⟨a, b⟩ := ih (by omega) h
        exact ⟨.more hf (next_intermediate hcd hf ha) a, b⟩

/-- What one `WriteOne` does. -/
inductive Wrote (cd : Codec) (w : World) (c : Conn) (b : Bytes) : World → Conn → Option ConnErr → Prop where
  /-- nothing was written -/
  | noDeadline {w' : World} {x : IOErr} (h : w'.log = w.log) : Wrote cd w c b w' c (some (.setDeadline x))
  /-- writing failed somewhere -/
  | failed {w' : World} {x : IOErr} {b' : Bytes} (hp : b' <+: b) (h : w'.log = w.log ++ [.wrote c.transport b']) : Wrote cd w c b w' c (some (.write x))
  /-- written and answered -/
  | sent {w' : World} {t : UInt8} {r' : Bufio} {rr : Response} {e : Option ReadErr} (h : w'.log = w.log ++ [.wrote c.transport b])
      (ht : b[4]? = some t) (hr : readOne cd t c.r = some (r', rr, e)) : Wrote cd w c b w' { c with r := r' } (e.map .read)

theorem writeOne_cases {cd : Codec} {w w' : World} {c c' : Conn} {b : Bytes} {rr : Response} {e : Option ConnErr}
    (h : writeOne cd w c b = .ok (w', c', rr, e)) : Wrote cd w c b w' c' e := by
  rw [writeOne, World.write] at h
  cases h1 : w.fault w.calls with
  | some x =>
    rw [h1] at h
    cases h
    exact .noDeadline rfl
  | none =>
    rw [h1] at h
    dsimp only at h
    cases h2 : w.fault (w.calls + 1) with
    | some x =>
      rw [h2] at h
      cases h
      exact .failed (List.take_prefix _ _) rfl
    | none =>
      rw [h2] at h
      dsimp only at h
      cases h3 : b[4]? with
      | none => rw [h3] at h; cases h
      | some t =>
        rw [h3] at h
        dsimp only at h
        cases h4 : readOne cd t c.r with
        | none => rw [h4] at h; cases h
        | some x =>
          obtain ⟨r', rr', e'⟩ := x
          rw [h4] at h
          cases h
          exact .sent rfl h3 h4

/-- A `WriteOne` without error. -/
theorem wrote_ok {cd : Codec} (hcd : RejectsHeaders cd) {w w' : World} {c c' : Conn} {b : Bytes} {e : Option ConnErr} (hc : Life cd c.r)
    (h : Wrote cd w c b w' c' e) (he : e = none) (h4 : b[4]? = some 4 ∨ b[4]? = some 5) :
    w'.log = w.log ++ [.wrote c.transport b] ∧ Answered cd c.r.pending .ok c'.r.pending := by
  obtain ⟨i1, i2, i3⟩ := life_inv hc
  cases h with
  | noDeadline h => cases he
  | failed hp h => cases he
  | @sent t r' rr e h ht hr =>
    obtain rfl : e = none := by cases e with
      | none => rfl
      | some e => cases he
    obtain ⟨q, rr', e', q1, q2, q3, q4⟩ := readOne_spec cd t i1 (by omega) i3
    rw [hr] at q1
    simp only [Option.some.injEq, Prod.mk.injEq] at q1
    obtain ⟨rfl, rfl, rfl⟩ := q1
    obtain ⟨a, b⟩ := read_answered hcd t _ _ _ (Nat.le_refl _) q4 (.inl rfl)
    have ht' : t = 4 ∨ t = 5 := by
      rw [ht] at h4
      simpa using h4
    cases rr with
    | ok => exact ⟨h, a⟩
    | error x =>
      rw [endErr, if_pos (by rcases ht' with h | h <;> simp [h])] at b
      cases b

/-- A `WriteOne` to which the server answered with an error. -/
theorem wrote_error {cd : Codec} (hcd : RejectsHeaders cd) {w w' : World} {c c' : Conn} {b : Bytes} {e : Option ConnErr} (hc : Life cd c.r)
    (h : Wrote cd w c b w' c' e) {x : SrvError} (he : e = some (.read (.mysqlx x))) :
    w'.log = w.log ++ [.wrote c.transport b] ∧ Answered cd c.r.pending (.error x) c'.r.pending := by
  obtain ⟨i1, i2, i3⟩ := life_inv hc
  cases h with
  | noDeadline h => cases he
  | failed hp h => cases he
  | @sent t r' rr e h ht hr =>
    obtain rfl : e = some (.mysqlx x) := by cases e with
      | none => cases he
      | some e => cases he; rfl
    obtain ⟨q, rr', e', q1, q2, q3, q4⟩ := readOne_spec cd t i1 (by omega) i3
    rw [hr] at q1
    simp only [Option.some.injEq, Prod.mk.injEq] at q1
    obtain ⟨rfl, rfl, rfl⟩ := q1
    obtain ⟨a, b⟩ := read_answered hcd t _ _ _ (Nat.le_refl _) q4 (.inr ⟨x, rfl⟩)
    cases rr with
    | ok => cases b
    | error y =>
      rw [endErr] at b
      split at b
      · simp at b; subst b; exact ⟨h, a⟩
      · cases b

/-- A `WriteOne` after which the server wants more. -/
theorem wrote_continue {cd : Codec} (hcd : RejectsHeaders cd) {w w' : World} {c c' : Conn} {b data : Bytes} {e : Option ConnErr} (hc : Life cd c.r)
    (h : Wrote cd w c b w' c' e) (he : e = some (.read (.requireContinue data))) :
    w'.log = w.log ++ [.wrote c.transport b] ∧ AsksContinue cd c.r.pending data c'.r.pending := by
  obtain ⟨i1, i2, i3⟩ := life_inv hc
  cases h with
  | noDeadline h => cases he
  | failed hp h => cases he
  | @sent t r' rr e h ht hr =>
    obtain rfl : e = some (.requireContinue data) := by cases e with
      | none => cases he
      | some e => cases he; rfl
    obtain ⟨q, rr', e', q1, q2, q3, q4⟩ := readOne_spec cd t i1 (by omega) i3
    rw [hr] at q1
    simp only [Option.some.injEq, Prod.mk.injEq] at q1
    obtain ⟨rfl, rfl, rfl⟩ := q1
    exact ⟨h, (read_continue hcd t _ _ _ (Nat.le_refl _) q4).1⟩

theorem wrote_life {cd : Codec} {w w' : World} {c c' : Conn} {b : Bytes} {e : Option ConnErr} (hc : Life cd c.r)
    (h : Wrote cd w c b w' c' e) : Life cd c'.r ∧ c'.transport = c.transport := by
  cases h with
  | noDeadline h => exact ⟨hc, rfl⟩
  | failed hp h => exact ⟨hc, rfl⟩
  | sent h ht hr => exact ⟨.read hc hr, rfl⟩

theorem wrote_transport {cd : Codec} {w w' : World} {c c' : Conn} {b : Bytes} {e : Option ConnErr}
    (h : Wrote cd w c b w' c' e) : c'.transport = c.transport := by
  cases h <;> rfl

/-- The log grows by at most this message, or a part of it. -/
theorem wrote_log {cd : Codec} {w w' : World} {c c' : Conn} {b : Bytes} {e : Option ConnErr} (h : Wrote cd w c b w' c' e) :
    w'.log = w.log ∨ ∃ b', b' <+: b ∧ w'.log = w.log ++ [.wrote c.transport b'] := by
  cases h with
  | noDeadline h => exact .inl h
  | failed hp h => exact .inr ⟨_, hp, h⟩
  | sent h ht hr => exact .inr ⟨b, List.prefix_refl _, h⟩

/-- What `Authenticate` does. -/
inductive Authed (cd : Codec) (scratch : Bytes) (w : World) (c : Conn) (creds : Credentials) (st : Starter) : World → Conn → Option ConnErr → Prop where
  /-- one message -/
  | one {b : Slice} {w' : World} {c' : Conn} {e : Option ConnErr} (hb : st.start ⟨[], List.replicate 128 0⟩ creds = .ok b)
      (h : Wrote cd w c b.data w' c' e) (he : ∀ d, e ≠ some (.read (.requireContinue d))) : Authed cd scratch w c creds st w' c' e
  /-- one message, and the server wants a second one that the mechanism does not have -/
  | noMore {b : Slice} {w' : World} {c' : Conn} {data : Bytes} (hb : st.start ⟨[], List.replicate 128 0⟩ creds = .ok b)
      (h : Wrote cd w c b.data w' c' (some (.read (.requireContinue data)))) (hk : st.cont = none) :
      Authed cd scratch w c creds st w' c' (some .unexpectedContinue)
  /-- two messages -/
  | two {b b2 : Slice} {w1 w' : World} {c1 c' : Conn} {data : Bytes} {k : Slice → Credentials → Bytes → M Slice} {e : Option ConnErr}
      (hb : st.start ⟨[], List.replicate 128 0⟩ creds = .ok b)
      (h : Wrote cd w c b.data w1 c1 (some (.read (.requireContinue data)))) (hk : st.cont = some k)
      (hb2 : k ⟨[], scratch⟩ creds data = .ok b2) (h2 : Wrote cd w1 c1 b2.data w' c' e) : Authed cd scratch w c creds st w' c' e

theorem authenticate_cases {cd : Codec} {scratch : Bytes} {w w' : World} {c c' : Conn} {creds : Credentials} {st : Starter} {e : Option ConnErr}
    (h : authenticate cd scratch w c creds st = .ok (w', c', e)) : Authed cd scratch w c creds st w' c' e := by
  rw [authenticate] at h
  cases hb : st.start ⟨[], List.replicate 128 0⟩ creds with
  | error x => rw [hb] at h; cases h
  | ok b =>
    rw [hb] at h
    change (do let x ← writeOne cd w c b.data; _) = _ at h
    cases h1 : writeOne cd w c b.data with
    | error x => rw [h1] at h; cases h
    | ok x =>
      obtain ⟨w1, c1, rr, e1⟩ := x
      have hw := writeOne_cases h1
      rw [h1] at h
      cases e1 with
      | none => cases h; exact .one hb hw (by simp)
      | some e1 =>
        cases e1 with
        | setDeadline x => cases h; exact .one hb hw (by simp)
        | write x => cases h; exact .one hb hw (by simp)
        | unexpectedContinue => cases h; exact .one hb hw (by simp)
        | read x =>
          cases x with
          | requireContinue data =>
            cases hk : st.cont with
            | none =>
              simp only [Bind.bind, Except.bind, hk] at h
              cases h
              exact .noMore hb hw hk
            | some k =>
              simp only [Bind.bind, Except.bind, hk] at h
              cases hb2 : k ⟨[], scratch⟩ creds data with
              | error x => rw [hb2] at h; cases h
              | ok b2 =>
                rw [hb2] at h
                dsimp only at h
                cases h2 : writeOne cd w1 c1 b2.data with
                | error x => rw [h2] at h; cases h
                | ok x =>
                  obtain ⟨w2, c2, rr2, e2⟩ := x
                  rw [h2] at h
                  cases h
                  exact .two hb hw hk hb2 (writeOne_cases h2)
          | io x => cases h; exact .one hb hw (by simp)
          | tooShort => cases h; exact .one hb hw (by simp)
          | unmarshalMeta => cases h; exact .one hb hw (by simp)
          | unmarshalError => cases h; exact .one hb hw (by simp)
          | unmarshalContinue => cases h; exact .one hb hw (by simp)
          | mysqlx x => cases h; exact .one hb hw (by simp)
          | unexpectedContinue => cases h; exact .one hb hw (by simp)

theorem authed_life {cd : Codec} {scratch : Bytes} {w w' : World} {c c' : Conn} {creds : Credentials} {st : Starter} {e : Option ConnErr}
    (hc : Life cd c.r) (h : Authed cd scratch w c creds st w' c' e) : Life cd c'.r ∧ c'.transport = c.transport := by
  cases h with
  | one hb h he => exact wrote_life hc h
  | noMore hb h hk => exact wrote_life hc h
  | two hb h hk hb2 h2 =>
    obtain ⟨a, b⟩ := wrote_life hc h
    obtain ⟨a', b'⟩ := wrote_life a h2
    exact ⟨a', b'.trans b⟩

end Verif.Proof
