import Verif.Spec.Server
import Verif.Proof.Read
/-! Reading complete answers. -/
namespace Verif.Proof
open Verif.Go Verif.Model Verif.Spec

theorem le32_cons (a b c d : UInt8) (r : Bytes) :
    le32 (a :: b :: c :: d :: r) = a.toNat + 256 * (b.toNat + 256 * (c.toNat + 256 * d.toNat)) := by
  have ha := a.toNat_lt; have hb := b.toNat_lt; have hc := c.toNat_lt; have hd := d.toNat_lt
  have e1 : a.toNat ||| (b.toNat <<< 8) = a.toNat + 256 * b.toNat := by
    rw [Nat.or_comm, ← Nat.shiftLeft_add_eq_or_of_lt (by omega : a.toNat < 2 ^ 8), Nat.shiftLeft_eq]; omega
  have e2 : (a.toNat + 256 * b.toNat) ||| (c.toNat <<< 16) = a.toNat + 256 * b.toNat + 65536 * c.toNat := by
    rw [Nat.or_comm, ← Nat.shiftLeft_add_eq_or_of_lt (by omega : a.toNat + 256 * b.toNat < 2 ^ 16), Nat.shiftLeft_eq]; omega
  have e3 : (a.toNat + 256 * b.toNat + 65536 * c.toNat) ||| (d.toNat <<< 24) = a.toNat + 256 * b.toNat + 65536 * c.toNat + 16777216 * d.toNat := by
    rw [Nat.or_comm, ← Nat.shiftLeft_add_eq_or_of_lt (by omega : a.toNat + 256 * b.toNat + 65536 * c.toNat < 2 ^ 24), Nat.shiftLeft_eq]; omega
  simp only [le32, List.getD_eq_getElem?_getD, List.getElem?_cons_zero, List.getElem?_cons_succ, Option.getD_some]
  rw [e1, e2, e3]; omega

/-- The frame at the front of a byte string, in terms of the header arithmetic of the code. -/
theorem readFrame_iff {bs rest : Bytes} {m : UInt8 × Bytes} : readFrame bs = some (m, rest) ↔
    5 ≤ bs.length ∧ 1 ≤ le32 bs ∧ le32 bs - 1 ≤ (bs.drop 5).length ∧ m = (bs.getD 4 0, (bs.drop 5).take (le32 bs - 1)) ∧
      rest = bs.drop (5 + (le32 bs - 1)) := by
  match bs with
  | [] => simp [readFrame, readFixed]
  | [_] => simp [readFrame, readFixed]
  | [_, _] => simp [readFrame, readFixed]
  | [_, _, _] => simp [readFrame, readFixed]
  | a :: b :: c :: d :: r =>
    have hrf : readFixed 4 (a :: b :: c :: d :: r) = some (le32 (a :: b :: c :: d :: r), r) := by
      rw [le32_cons]; simp [readFixed]
    rw [readFrame, hrf]
    generalize le32 (a :: b :: c :: d :: r) = n
    dsimp only
    rw [readN]
    cases r with
    | nil => cases n <;> simp
    | cons t r =>
      cases n with
      | zero => simp
      | succ n =>
        by_cases h : n ≤ r.length
        · have h5 : 5 + n = n + 1 + 1 + 1 + 1 + 1 := by omega
          simp [h, h5]
          obtain ⟨m1, m2⟩ := m
          simp only [Prod.mk.injEq]
          constructor
          · rintro ⟨⟨rfl, rfl⟩, rfl⟩; exact ⟨⟨rfl, rfl⟩, rfl⟩
          · rintro ⟨⟨rfl, rfl⟩, rfl⟩; exact ⟨⟨rfl, rfl⟩, rfl⟩
        · simp [h]

/-- What the code unmarshals for a message at the front of `p`: the header if there is no payload. -/
def seen (p : Bytes) (m : UInt8 × Bytes) : Bytes := if m.2 = [] then p.take 5 else m.2

theorem seen_empty {p rest : Bytes} {m : UInt8 × Bytes} (h : readFrame p = some (m, rest)) (hm : m.2 = []) :
    seen p m = [1, 0, 0, 0, m.1] := by
  obtain ⟨h1, h2, h3, h4, -⟩ := readFrame_iff.mp h
  rw [seen, if_pos hm]
  have h6 : le32 p = 1 := by
    have := congrArg (fun x => x.2.length) h4
    simp only [hm, List.length_nil, List.length_take] at this
    omega
  have h7 : m.1 = p.getD 4 0 := by rw [h4]
  rw [h7]
  match p, h1, h6 with
  | a :: b :: c :: d :: t :: r, _, h6 =>
    rw [le32_cons] at h6
    have ha := a.toNat_lt; have hb := b.toNat_lt; have hc := c.toNat_lt; have hd := d.toNat_lt
    have ea : a = 1 := UInt8.toNat_inj.mp (by show a.toNat = 1; omega)
    have eb : b = 0 := UInt8.toNat_inj.mp (by show b.toNat = 0; omega)
    have ec : c = 0 := UInt8.toNat_inj.mp (by show c.toNat = 0; omega)
    have ed : d = 0 := UInt8.toNat_inj.mp (by show d.toNat = 0; omega)
    simp [ea, eb, ec, ed]

theorem readP_frame (cd : Codec) (ct : UInt8) (size : Nat) (E : IOErr) {p rest : Bytes} {m : UInt8 × Bytes}
    (h : readFrame p = some (m, rest)) :
    readP cd ct size E p =
      match act cd ct m.1.toNat (seen p m) with
      | .done rr e => (rest, rr, e)
      | .stuck e => (if m.2.length ≤ size then p.drop 5 else rest, .ok, some e)
      | .next => readP cd ct size E rest := by
  obtain ⟨h1, h2, h3, h4, h5⟩ := readFrame_iff.mp h
  have hl : m.2.length = le32 p - 1 := by rw [h4, List.length_take]; omega
  have hz : (m.2 = []) ↔ (le32 p - 1 = 0) := by rw [← List.length_eq_zero_iff, hl]
  have hs : seen p m = if le32 p - 1 = 0 then p.take 5 else (p.drop 5).take (le32 p - 1) := by
    rw [seen]
    by_cases h0 : m.2 = []
    · rw [if_pos h0, if_pos (hz.mp h0)]
    · rw [if_neg h0, if_neg (fun q => h0 (hz.mpr q)), h4]
  rw [readP]
  rw [if_neg (by omega), if_neg (by omega), if_neg (by omega), hs, hl, h5]
  rw [show m.1 = p.getD 4 0 by rw [h4]]
  rfl

theorem readP_noframe (cd : Codec) (ct : UInt8) (size : Nat) (E : IOErr) {p : Bytes} (h : readFrame p = none) :
    (readP cd ct size E p).2.2 = some .tooShort ∨ ∃ x, (readP cd ct size E p).2.2 = some (.io x) := by
  have hn : ¬(5 ≤ p.length ∧ 1 ≤ le32 p ∧ le32 p - 1 ≤ (p.drop 5).length) := by
    rintro ⟨h1, h2, h3⟩
    have := readFrame_iff.mpr ⟨h1, h2, h3, rfl, rfl⟩
    rw [h] at this
    cases this
  rw [readP]
  split
  · right; exact ⟨_, rfl⟩
  · dsimp only
    split
    · left; rfl
    · split
      · right
        split <;> exact ⟨_, rfl⟩
      · exact absurd ⟨by omega, by omega, by omega⟩ hn

theorem readFrame_shorter {p rest : Bytes} {m : UInt8 × Bytes} (h : readFrame p = some (m, rest)) :
    rest.length + 5 + m.2.length = p.length ∧ rest = p.drop (5 + m.2.length) := by
  obtain ⟨h1, h2, h3, h4, h5⟩ := readFrame_iff.mp h
  have hl : m.2.length = le32 p - 1 := by rw [h4, List.length_take]; omega
  refine ⟨?_, by rw [hl, h5]⟩
  rw [h5, hl, List.length_drop]
  simp at h3
  omega

theorem toNat_eq {t : UInt8} {n : Nat} (hn : n < 256) : t.toNat = n ↔ t = UInt8.ofNat n := by
  rw [← UInt8.toNat_inj, UInt8.toNat_ofNat_of_lt' hn]

theorem act_terminal_ok (cd : Codec) (ct : UInt8) {t : UInt8} (h : t = 0 ∨ t = 4 ∨ t = 17) (b : Bytes) :
    act cd ct t.toNat b = .done .ok none := by
  rcases h with h | h | h <;> subst h <;> rfl

theorem isFatal_iff {e : SrvError} : e.isFatal = true ↔ e.severity = 1 := by simp [SrvError.isFatal]

/-- The error result that goes with a terminal message. -/
def endErr (ct : UInt8) : Response → Option ReadErr
  | .ok => none
  | .error e => if e.severity = 1 ∨ ct = 4 ∨ ct = 5 ∨ ct = 6 then some (.mysqlx e) else none

theorem act_terminal (cd : Codec) (ct : UInt8) {p rest : Bytes} {m : UInt8 × Bytes} {rr : Response} (h : Terminal cd m rr) :
    readFrame p = some (m, rest) → act cd ct m.1.toNat (seen p m) = .done rr (endErr ct rr) := by
  intro hf
  cases h with
  | ok h => exact act_terminal_ok cd ct h _
  | @error p' e hp h =>
    have hs : seen p (1, _) = _ := if_neg hp
    rw [hs]
    simp only [act, h, endErr]
    by_cases h1 : e.isFatal = true
    · simp [h1, isFatal_iff.mp h1]
    · have h1' : ¬e.severity = 1 := fun h => h1 (isFatal_iff.mpr h)
      have hi : (ct = 4 ∨ ct = 5 ∨ ct = 6) ↔ (ct = 6 ∨ ct = 4 ∨ ct = 5) := by
        constructor <;> rintro (h | h | h) <;> simp [h]
      by_cases h2 : ct = 6 ∨ ct = 4 ∨ ct = 5
      · simp [h1, h1', h2, hi]
      · simp [h1, h1', h2, hi]

theorem act_intermediate (cd : Codec) (ct : UInt8) {p rest : Bytes} {m : UInt8 × Bytes} (h : Intermediate cd m) :
    readFrame p = some (m, rest) → act cd ct m.1.toNat (seen p m) = .next := by
  intro hf
  obtain ⟨h0, h1, h3, h4, h17, h12⟩ := h
  have e0 : ¬ m.1.toNat = 0 := fun h => h0 ((toNat_eq (n := 0) (by decide)).mp h)
  have e1 : ¬ m.1.toNat = 1 := fun h => h1 ((toNat_eq (n := 1) (by decide)).mp h)
  have e3 : ¬ m.1.toNat = 3 := fun h => h3 ((toNat_eq (n := 3) (by decide)).mp h)
  have e4 : ¬ m.1.toNat = 4 := fun h => h4 ((toNat_eq (n := 4) (by decide)).mp h)
  have e17 : ¬ m.1.toNat = 17 := fun h => h17 ((toNat_eq (n := 17) (by decide)).mp h)
  simp only [act, e0, e1, e3, e4, e17, or_self, if_false]
  split
  · rename_i h
    obtain ⟨q1, q2⟩ := h12 ((toNat_eq (n := 12) (by decide)).mp h)
    rw [seen, if_neg q1, q2]; simp
  · split <;> rfl

theorem answered_read (cd : Codec) (ct : UInt8) (size : Nat) (E : IOErr) {p rest : Bytes} {rr : Response} (h : Answered cd p rr rest) :
    readP cd ct size E p = (rest, rr, endErr ct rr) := by
  induction h with
  | last hf ht => rw [readP_frame cd ct size E hf, act_terminal cd ct ht hf]
  | more hf hm _ ih => rw [readP_frame cd ct size E hf, act_intermediate cd ct hm hf]; exact ih

/-- A message for which reading goes on is intermediate. -/
theorem next_intermediate {cd : Codec} (hcd : RejectsHeaders cd) {ct : UInt8} {p rest : Bytes} {m : UInt8 × Bytes}
    (hf : readFrame p = some (m, rest)) (h : act cd ct m.1.toNat (seen p m) = .next) : Intermediate cd m := by
  have key : ∀ k : Nat, k < 256 → m.1 = UInt8.ofNat k → m.1.toNat = k := fun k hk h => (toNat_eq hk).mpr h
  refine ⟨?_, ?_, ?_, ?_, ?_, ?_⟩
  · intro e; rw [key 0 (by omega) e] at h; simp [act] at h
  · intro e; rw [key 1 (by omega) e] at h
    simp only [act] at h
    revert h
    simp
    cases cd.error (seen p m) with
    | none => simp
    | some e => dsimp only; repeat' (first | simp; done | split)
  · intro e; rw [key 3 (by omega) e] at h
    simp only [act] at h
    revert h
    by_cases hc : ct = 4
    · cases cd.authContinue (seen p m) <;> simp [hc]
    · simp [hc]
  · intro e; rw [key 4 (by omega) e] at h; simp [act] at h
  · intro e; rw [key 17 (by omega) e] at h; simp [act] at h
  · intro e
    rw [key 12 (by omega) e] at h
    simp only [act] at h
    have hc : cd.columnMeta (seen p m) = true := by
      revert h; simp
    have hne : m.2 ≠ [] := by
      intro h0
      rw [seen_empty hf h0, (hcd _).2.1] at hc
      cases hc
    exact ⟨hne, by rw [seen, if_neg hne] at hc; exact hc⟩

/-- A message for which reading ends without an error, or with the server's error, is terminal. -/
theorem done_terminal {cd : Codec} (hcd : RejectsHeaders cd) {ct : UInt8} {p rest : Bytes} {m : UInt8 × Bytes} {rr : Response}
    {e : Option ReadErr} (hf : readFrame p = some (m, rest)) (h : act cd ct m.1.toNat (seen p m) = .done rr e)
    (he : e = none ∨ ∃ x, e = some (.mysqlx x)) : Terminal cd m rr ∧ e = endErr ct rr := by
  have hm : m = (m.1, m.2) := rfl
  by_cases h0 : m.1.toNat = 0 ∨ m.1.toNat = 4 ∨ m.1.toNat = 17
  · have ht : m.1 = 0 ∨ m.1 = 4 ∨ m.1 = 17 := by
      rcases h0 with h | h | h
      · exact .inl ((toNat_eq (n := 0) (by decide)).mp h)
      · exact .inr (.inl ((toNat_eq (n := 4) (by decide)).mp h))
      · exact .inr (.inr ((toNat_eq (n := 17) (by decide)).mp h))
    rw [act_terminal_ok cd ct ht] at h
    cases h
    exact ⟨.ok ht, rfl⟩
  · simp only [act, h0, if_false] at h
    split at h
    · split at h <;> cases h
    · split at h
      · rename_i h1
        have h1 : m.1 = 1 := (toNat_eq (n := 1) (by decide)).mp h1
        cases hc : cd.error (seen p m) with
        | none =>
          rw [hc] at h
          cases h
          simp at he
        | some x =>
          have hne : m.2 ≠ [] := by
            intro h0
            rw [seen_empty hf h0, (hcd _).1] at hc
            cases hc
          rw [hc] at h
          have hs : seen p m = m.2 := if_neg hne
          rw [hs] at hc
          have hT : Terminal cd m (.error x) := by rw [hm, h1]; exact .error hne hc
          dsimp only at h
          by_cases hfa : x.isFatal = true
          · simp only [hfa, if_true] at h
            cases h
            exact ⟨hT, by simp [endErr, isFatal_iff.mp hfa]⟩
          · have hfa' : ¬x.severity = 1 := fun h => hfa (isFatal_iff.mpr h)
            simp only [hfa] at h
            by_cases h2 : ct = 6 ∨ ct = 4 ∨ ct = 5
            · rw [if_pos h2] at h
              simp at h
              obtain ⟨rfl, rfl⟩ := h
              exact ⟨hT, by rw [endErr, if_pos (by rcases h2 with h | h | h <;> simp [h])]⟩
            · rw [if_neg h2] at h
              simp at h
              obtain ⟨rfl, rfl⟩ := h
              refine ⟨hT, ?_⟩
              rw [endErr, if_neg]
              rintro (h | h | h | h)
              · exact hfa' h
              · exact h2 (.inr (.inl h))
              · exact h2 (.inr (.inr h))
              · exact h2 (.inl h)
      · split at h
        · cases h
        · split at h
          · split at h
            · cases h; simp at he
            · split at h
              · cases h; simp at he
              · cases h; simp at he
          · cases h

theorem read_answered {cd : Codec} (hcd : RejectsHeaders cd) (ct : UInt8) (size : Nat) (E : IOErr) (k : Nat) :
    ∀ {p rest : Bytes} {rr : Response} {e : Option ReadErr}, p.length ≤ k → readP cd ct size E p = (rest, rr, e) →
      (e = none ∨ ∃ x, e = some (.mysqlx x)) → Answered cd p rr rest ∧ e = endErr ct rr := by
  induction k with
  | zero =>
    intro p rest rr e hk h he
    rw [readP, if_pos (by omega)] at h
    cases h
    simp at he
  | succ k ih =>
    intro p rest rr e hk h he
    cases hf : readFrame p with
    | none =>
      have := readP_noframe cd ct size E hf
      rw [h] at this
      rcases he with rfl | ⟨x, rfl⟩ <;> simp at this
    | some mr =>
      obtain ⟨m, r1⟩ := mr
      rw [readP_frame cd ct size E hf] at h
      cases ha : act cd ct m.1.toNat (seen p m) with
      | done rr' e' =>
        rw [ha] at h
        cases h
        obtain ⟨a, b⟩ := done_terminal hcd hf ha he
        exact ⟨.last hf a, b⟩
      | stuck e' =>
        rw [ha] at h
        have : e' = .unmarshalMeta := by
          unfold act at ha
          repeat' (split at ha)
          all_goals first | (cases ha; rfl) | cases ha
        subst this
        cases h
        simp at he
      | next =>
        rw [ha] at h
        have hs := (readFrame_shorter hf).1
        obtain ⟨a, b⟩ := ih (by omega) h he
        exact ⟨.more hf (next_intermediate hcd hf ha) a, b⟩

theorem le32_append {q : Bytes} (h : 4 ≤ q.length) (s : Bytes) : le32 (q ++ s) = le32 q := by
  rw [← le32_take (p := q ++ s) h, List.take_left]

/-- A frame read from a prefix is read from the whole. -/
theorem readFrame_append {q rest : Bytes} {m : UInt8 × Bytes} (h : readFrame q = some (m, rest)) (s : Bytes) :
    readFrame (q ++ s) = some (m, rest ++ s) := by
  obtain ⟨h1, h2, h3, h4, h5⟩ := readFrame_iff.mp h
  have h3' : le32 q - 1 ≤ q.length - 5 := by simpa using h3
  rw [readFrame_iff, le32_append (by omega)]
  refine ⟨by simp; omega, h2, by simp; omega, ?_, ?_⟩
  · rw [h4, List.drop_append_of_le_length h1, List.take_append_of_le_length h3]
    congr 1
    simp only [List.getD_eq_getElem?_getD]
    rw [List.getElem?_append_left (by omega)]
  · rw [h5, List.drop_append_of_le_length (by omega)]

/-- The frame alone. -/
theorem readFrame_alone {p rest : Bytes} {m : UInt8 × Bytes} (h : readFrame p = some (m, rest)) (x : Bytes) :
    readFrame (p.take (5 + m.2.length) ++ x) = some (m, x) := by
  obtain ⟨h1, h2, h3, h4, h5⟩ := readFrame_iff.mp h
  have h3' : le32 p - 1 ≤ p.length - 5 := by simpa using h3
  have hl : m.2.length = le32 p - 1 := by rw [h4, List.length_take]; omega
  have : readFrame (p.take (5 + m.2.length)) = some (m, []) := by
    rw [readFrame_iff, le32_take (by omega), hl]
    refine ⟨by simp; omega, h2, by simp; omega, ?_, ?_⟩
    · rw [h4, List.drop_take, List.take_take, show min (le32 p - 1) (5 + (le32 p - 1) - 5) = le32 p - 1 by omega]
      congr 1
      simp only [List.getD_eq_getElem?_getD, List.getElem?_take]
      rw [if_pos (by omega)]
    · rw [List.drop_eq_nil_of_le (by simp; omega)]
  simpa using readFrame_append this x

/-- An answer does not depend on what follows it. -/
theorem answered_split {cd : Codec} {p rest : Bytes} {rr : Response} (h : Answered cd p rr rest) :
    ∃ c, p = c ++ rest ∧ 5 ≤ c.length ∧ ∀ q, Answered cd (c ++ q) rr q := by
  induction h with
  | @last bs rest m rr hf ht =>
    have := readFrame_shorter hf
    refine ⟨bs.take (5 + m.2.length), ?_, by simp; omega, fun q => .last (readFrame_alone hf q) ht⟩
    conv => lhs; rw [← List.take_append_drop (5 + m.2.length) bs]
    rw [← this.2]
  | @more bs bs' rest m rr hf hm _ ih =>
    obtain ⟨c, hc, hl, hq⟩ := ih
    have := readFrame_shorter hf
    refine ⟨bs.take (5 + m.2.length) ++ c, ?_, by simp; omega, fun q => .more (bs' := c ++ q) ?_ hm (hq q)⟩
    · conv => lhs; rw [← List.take_append_drop (5 + m.2.length) bs]
      rw [← this.2, hc, List.append_assoc]
    · rw [List.append_assoc]; exact readFrame_alone hf _

/-- Cutting an answer short leads to an I/O error. -/
theorem answered_truncated (cd : Codec) (ct : UInt8) (size : Nat) (E : IOErr) {p rest : Bytes} {rr : Response} (h : Answered cd p rr rest) :
    ∀ {q s : Bytes}, p = q ++ s → rest.length < s.length → ∃ x, (readP cd ct size E q).2.2 = some (.io x) := by
  have short : ∀ {p rest q s : Bytes} {m : UInt8 × Bytes}, readFrame p = some (m, rest) → p = q ++ s → readFrame q = none →
      ∃ x, (readP cd ct size E q).2.2 = some (.io x) := by
    intro p rest q s m hf hp hq
    obtain ⟨h1, h2, h3, h4, h5⟩ := readFrame_iff.mp hf
    rw [readP]
    split
    · exact ⟨_, rfl⟩
    · have hle : le32 p = le32 q := by rw [hp, le32_append (by omega)]
      dsimp only
      rw [if_neg (by omega)]
      split
      · split <;> exact ⟨_, rfl⟩
      · have := readFrame_iff.mpr ⟨(by omega : 5 ≤ q.length), (by omega : 1 ≤ le32 q), by omega, rfl, rfl⟩
        rw [hq] at this
        cases this
  induction h with
  | @last bs rest m rr hf ht =>
    intro q s hp hs
    cases hq : readFrame q with
    | none => exact short hf hp hq
    | some mr =>
      obtain ⟨m', r'⟩ := mr
      have := readFrame_append hq s
      rw [← hp, hf] at this
      simp only [Option.some.injEq, Prod.mk.injEq] at this
      have := congrArg List.length this.2
      simp at this
      omega
  | @more bs bs' rest m rr hf hm _ ih =>
    intro q s hp hs
    cases hq : readFrame q with
    | none => exact short hf hp hq
    | some mr =>
      obtain ⟨m', r'⟩ := mr
      have := readFrame_append hq s
      rw [← hp, hf] at this
      simp only [Option.some.injEq, Prod.mk.injEq] at this
      obtain ⟨rfl, h2⟩ := this
      rw [readP_frame cd ct size E hq, act_intermediate cd ct hm hq]
      exact ih h2 hs

/-! The responses to a whole request. -/

def readAllP (cd : Codec) (size : Nat) (E : IOErr) : List UInt8 → Bytes → Bytes × List Response × Option ReadErr
  | [], p => (p, [], none)
  | ct :: cts, p =>
    match readP cd ct size E p with
    | (p', rr, none) => let (q, rs, e) := readAllP cd size E cts p'; (q, rr :: rs, e)
    | (p', rr, some e) => (p', [rr], some e)

theorem readResponses_spec (cd : Codec) (b : Bytes) (k : Nat) : ∀ {f i : Nat} {r : Bufio} {acc : List Response} {fs : List (UInt8 × Bytes)},
    readFramesAux k (b.drop i) = some fs → (b.drop i).length < f → Inv r → 5 ≤ r.size → r.src.err ≠ .bufferFull →
    ∃ r' rs e, readResponses cd b f i r acc = .ok (some (r', acc ++ rs, e)) ∧ Inv r' ∧ Same r r' ∧
      readAllP cd r.size r.src.err (fs.map Prod.fst) r.pending = (r'.pending, rs, e) := by
  induction k with
  | zero =>
    intro f i r acc fs hfs hf hi hs hE
    cases hb : b.drop i with
    | cons x y => rw [hb] at hfs; simp [readFramesAux] at hfs
    | nil =>
      rw [hb] at hfs; simp only [readFramesAux, Option.some.injEq] at hfs
      subst hfs
      obtain ⟨f, rfl⟩ := Nat.exists_eq_succ_of_ne_zero (show f ≠ 0 by omega)
      rw [readResponses, if_pos (by simpa using hb)]
      exact ⟨r, [], none, by simp, hi, .refl r, rfl⟩
  | succ k ih =>
    intro f i r acc fs hfs hf hi hs hE
    obtain ⟨f, rfl⟩ := Nat.exists_eq_succ_of_ne_zero (show f ≠ 0 by omega)
    rw [readResponses]
    cases hb : b.drop i with
    | nil =>
      rw [hb] at hfs; simp only [readFramesAux, Option.some.injEq] at hfs
      subst hfs
      rw [if_pos (by simpa using hb)]
      exact ⟨r, [], none, by simp, hi, .refl r, rfl⟩
    | cons x y =>
      rw [hb, readFramesAux, ← hb] at hfs
      cases hq : readFrame (b.drop i) with
      | none => rw [hq] at hfs; cases hfs
      | some mr =>
        obtain ⟨m, rest⟩ := mr
        rw [hq] at hfs
        dsimp only at hfs
        cases hr : readFramesAux k rest with
        | none => rw [hr] at hfs; cases hfs
        | some frs =>
          rw [hr] at hfs
          simp only [Option.some.injEq] at hfs
          subst hfs
          obtain ⟨h1, h2, h3, h4, h5⟩ := readFrame_iff.mp hq
          have hl1 : (b.drop i).length = b.length - i := List.length_drop
          rw [if_neg (by omega), if_neg (by omega)]
          have hct : b.getD (i + 4) 0 = m.1 := by
            rw [h4]; simp [List.getD_eq_getElem?_getD]
          rw [hct]
          obtain ⟨r1, rr, e, q1, q2, q3, q4⟩ := readOne_spec cd m.1 hi hs hE
          rw [q1]
          simp only [List.map_cons, readAllP, q4]
          cases e with
          | some e => exact ⟨r1, [rr], some e, rfl, q2, q3, rfl⟩
          | none =>
            dsimp only
            have hdr : b.drop (i + 4 + le32 (b.drop i)) = rest := by
              rw [h5, List.drop_drop]; congr 1; omega
            obtain ⟨r', rs, e, w1, w2, w3, w4⟩ := ih (f := f) (i := i + 4 + le32 (b.drop i)) (r := r1) (acc := acc ++ [rr]) (fs := frs)
              (by rw [hdr]; exact hr) (by
                have := (readFrame_shorter hq).1
                rw [hdr]; omega) q2 (by rw [q3.size]; exact hs) (by rw [q3.err]; exact hE)
            refine ⟨r', rr :: rs, e, by rw [← hb, w1]; simp, w2, q3.trans w3, ?_⟩
            rw [q3.size, q3.err] at w4
            rw [w4]

theorem readAll_spec (cd : Codec) {b : Bytes} {fs : List (UInt8 × Bytes)} (hb : readFrames b = some fs) {r : Bufio} (hi : Inv r)
    (hs : 5 ≤ r.size) (hE : r.src.err ≠ .bufferFull) :
    ∃ r' rs e, readAll cd b r = .ok (some (r', rs, e)) ∧ Inv r' ∧ Same r r' ∧
      readAllP cd r.size r.src.err (fs.map Prod.fst) r.pending = (r'.pending, rs, e) := by
  obtain ⟨r', rs, e, h⟩ := readResponses_spec cd b b.length (f := b.length + 1) (i := 0) (r := r) (acc := []) (fs := fs) hb (by simp) hi hs hE
  exact ⟨r', rs, e, by simpa [readAll] using h⟩

/-! Arbitrary requests. -/

/-- Two readers with the same bytes to come. -/
structure Sim (r r' : Bufio) : Prop where
  i : Inv r
  i' : Inv r'
  size : r.size = r'.size
  err : r.src.err = r'.src.err
  pending : r.pending = r'.pending

theorem readOne_sim (cd : Codec) (ct : UInt8) {r r' : Bufio} (h : Sim r r') (hs : 5 ≤ r.size) (hE : r.src.err ≠ .bufferFull) :
    ∃ q q' rr e, readOne cd ct r = some (q, rr, e) ∧ readOne cd ct r' = some (q', rr, e) ∧ Sim q q' ∧ Same r q := by
  obtain ⟨q, rr, e, a, b, c, d⟩ := readOne_spec cd ct h.i hs hE
  obtain ⟨q', rr', e', a', b', c', d'⟩ := readOne_spec cd ct h.i' (by rw [← h.size]; exact hs) (by rw [← h.err]; exact hE)
  rw [h.size, h.err, h.pending, d'] at d
  simp only [Prod.mk.injEq] at d
  obtain ⟨d1, rfl, rfl⟩ := d
  exact ⟨q, q', _, _, a, a', ⟨b, b', by rw [c.size, c'.size, h.size], by rw [c.err, c'.err, h.err], d1.symm⟩, c⟩

/-- Whatever the request is: the readers end alike, or both panic at a malformed request. -/
theorem readResponses_sim (cd : Codec) (b : Bytes) (f : Nat) : ∀ {i : Nat} {r r' : Bufio} {acc : List Response}, Sim r r' → 5 ≤ r.size →
    r.src.err ≠ .bufferFull →
    (readResponses cd b f i r acc = readResponses cd b f i r' acc ∧ (readResponses cd b f i r acc = .error .panic ∨ readResponses cd b f i r acc = .ok none)) ∨
    ∃ q q' rs e, readResponses cd b f i r acc = .ok (some (q, rs, e)) ∧ readResponses cd b f i r' acc = .ok (some (q', rs, e)) ∧ Sim q q' ∧ Same r q := by
  induction f with
  | zero => intro i r r' acc _ _ _; left; simp [readResponses]
  | succ f ih =>
    intro i r r' acc h hs hE
    simp only [readResponses]
    split
    · right; exact ⟨r, r', acc, none, rfl, rfl, h, .refl r⟩
    · split
      · left; simp
      · obtain ⟨q, q', rr, e, a, a', s, c⟩ := readOne_sim cd (b.getD (i + 4) 0) h hs hE
        rw [a, a']
        cases e with
        | some e => right; exact ⟨q, q', _, _, rfl, rfl, s, c⟩
        | none =>
          rcases ih (i := i + 4 + le32 (b.drop i)) (acc := acc ++ [rr]) s (by rw [c.size]; exact hs) (by rw [c.err]; exact hE) with w | ⟨p, p', rs, e, w1, w2, w3, w4⟩
          · left; exact w
          · right; exact ⟨p, p', rs, e, w1, w2, w3, c.trans w4⟩

theorem life_inv {cd : Codec} {r : Bufio} (h : Life cd r) : Inv r ∧ r.size = 4096 ∧ r.src.err ≠ .bufferFull := by
  induction h with
  | new t src h => exact ⟨new_inv _ _, rfl, h⟩
  | @read r r' ct rr e _ hr ih =>
    obtain ⟨q, rr', e', a, b, c, _⟩ := readOne_spec cd ct ih.1 (by omega) ih.2.2
    rw [hr] at a
    simp only [Option.some.injEq, Prod.mk.injEq] at a
    obtain ⟨rfl, -, -⟩ := a
    exact ⟨b, by rw [c.size]; exact ih.2.1, by rw [c.err]; exact ih.2.2⟩
  | @sent r r' b rs e _ hr ih =>
    rcases readResponses_sim cd b (b.length + 1) (i := 0) (acc := []) (r' := r) ⟨ih.1, ih.1, rfl, rfl, rfl⟩ (by omega) ih.2.2 with ⟨_, w | w⟩ | ⟨p, p', rs, e, w1, w2, w3, w4⟩
    · rw [readAll, w] at hr; cases hr
    · rw [readAll, w] at hr; cases hr
    · rw [readAll, w1] at hr
      simp only [Except.ok.injEq, Option.some.injEq, Prod.mk.injEq] at hr
      obtain ⟨rfl, -, -⟩ := hr
      exact ⟨w3.i, by rw [w4.size]; exact ih.2.1, by rw [w4.err]; exact ih.2.2⟩

/-- The rest of the first answer is not touched. -/
theorem readP_upto {cd : Codec} (hcd : RejectsHeaders cd) (ct : UInt8) (size : Nat) (E : IOErr) (k : Nat) :
    ∀ {p : Bytes}, p.length ≤ k → ∃ rest, Upto cd p rest ∧ rest <:+ (readP cd ct size E p).1 := by
  induction k with
  | zero =>
    intro p hk
    obtain rfl : p = [] := List.length_eq_zero_iff.mp (by omega)
    exact ⟨[], .cut rfl, List.nil_suffix⟩
  | succ k ih =>
    intro p hk
    cases hf : readFrame p with
    | none => exact ⟨[], .cut hf, List.nil_suffix⟩
    | some mr =>
      obtain ⟨m, r1⟩ := mr
      rw [readP_frame cd ct size E hf]
      obtain ⟨hs, hs2⟩ := readFrame_shorter hf
      cases ha : act cd ct m.1.toNat (seen p m) with
      | done rr e =>
        exact ⟨r1, .last hf (fun hm => by rw [act_intermediate cd ct hm hf] at ha; cases ha), List.suffix_refl _⟩
      | stuck e =>
        refine ⟨r1, .last hf (fun hm => by rw [act_intermediate cd ct hm hf] at ha; cases ha), ?_⟩
        dsimp only
        split
        · rw [hs2, ← List.drop_drop]; exact List.drop_suffix _ _
        · exact List.suffix_refl _
      | next =>
        obtain ⟨rest, a, b⟩ := ih (p := r1) (by omega)
        exact ⟨rest, .more hf (next_intermediate hcd hf ha) a, b⟩

theorem answeredAll_read (cd : Codec) (size : Nat) (E : IOErr) {cts : List UInt8} {p rest : Bytes} {rrs : List Response}
    (h : AnsweredAll cd cts p rrs rest) : readAllP cd size E cts p = (rest, rrs, none) := by
  induction h with
  | nil => rfl
  | @cons ct cts bs bs' rest rr rrs ha he _ ih =>
    rw [readAllP, answered_read cd ct size E ha]
    have : endErr ct rr = none := by
      cases rr with
      | ok => rfl
      | error e => exact if_neg he
    rw [this]
    dsimp only
    rw [ih]

theorem answeredAll_length {cd : Codec} {cts : List UInt8} {p rest : Bytes} {rrs : List Response}
    (h : AnsweredAll cd cts p rrs rest) : rrs.length = cts.length := by
  induction h with
  | nil => rfl
  | cons _ _ _ ih => simp [ih]

theorem answeredAll_append {cd : Codec} {cts cts' : List UInt8} {p mid rest : Bytes} {rrs rrs' : List Response}
    (h : AnsweredAll cd cts p rrs mid) (h' : AnsweredAll cd cts' mid rrs' rest) : AnsweredAll cd (cts ++ cts') p (rrs ++ rrs') rest := by
  induction h with
  | nil => exact h'
  | cons a b _ ih => exact .cons a b (ih h')

theorem readAllP_append (cd : Codec) (size : Nat) (E : IOErr) {cts cts' : List UInt8} {p mid : Bytes} {rrs : List Response}
    (h : AnsweredAll cd cts p rrs mid) : readAllP cd size E (cts ++ cts') p =
      ((readAllP cd size E cts' mid).1, rrs ++ (readAllP cd size E cts' mid).2.1, (readAllP cd size E cts' mid).2.2) := by
  induction h with
  | nil => rfl
  | @cons ct cts bs bs' rest rr rrs ha he _ ih =>
    rw [List.cons_append, readAllP, answered_read cd ct size E ha]
    have : endErr ct rr = none := by
      cases rr with
      | ok => rfl
      | error e => exact if_neg he
    rw [this]
    dsimp only
    rw [ih]
    rfl

theorem readAllP_length (cd : Codec) (size : Nat) (E : IOErr) : ∀ (cts : List UInt8) (p : Bytes),
    (readAllP cd size E cts p).2.1.length ≤ cts.length
  | [], _ => by simp [readAllP]
  | ct :: cts, p => by
    rw [readAllP]
    obtain ⟨p', rr, e, hp⟩ : ∃ p' rr e, readP cd ct size E p = (p', rr, e) := ⟨_, _, _, rfl⟩
    rw [hp]
    cases e with
    | some e => simp
    | none => have := readAllP_length cd size E cts p'; simpa using this

theorem read_answeredAll {cd : Codec} (hcd : RejectsHeaders cd) (size : Nat) (E : IOErr) {cts : List UInt8} :
    ∀ {p rest : Bytes} {rrs : List Response}, readAllP cd size E cts p = (rest, rrs, none) → AnsweredAll cd cts p rrs rest := by
  induction cts with
  | nil =>
    intro p rest rrs h
    simp only [readAllP, Prod.mk.injEq] at h
    obtain ⟨rfl, rfl, -⟩ := h
    exact .nil p
  | cons ct cts ih =>
    intro p rest rrs h
    rw [readAllP] at h
    obtain ⟨p', rr, e, hp⟩ : ∃ p' rr e, readP cd ct size E p = (p', rr, e) := ⟨_, _, _, rfl⟩
    rw [hp] at h
    cases e with
    | some e => simp at h
    | none =>
      dsimp only at h
      obtain ⟨a, b⟩ := read_answered hcd ct size E p.length (Nat.le_refl _) hp (.inl rfl)
      obtain ⟨q, rs, e, hq⟩ : ∃ q rs e, readAllP cd size E cts p' = (q, rs, e) := ⟨_, _, _, rfl⟩
      rw [hq] at h
      simp only [Prod.mk.injEq] at h
      obtain ⟨rfl, rfl, rfl⟩ := h
      refine .cons a ?_ (ih hq)
      cases rr with
      | ok => exact id
      | error e => intro he; unfold Ends at he; rw [endErr, if_pos he] at b; cases b

theorem answeredAll_truncated {cd : Codec} {size : Nat} {E : IOErr} {cts : List UInt8} {p rest : Bytes} {rrs : List Response}
    (h : AnsweredAll cd cts p rrs rest) : ∀ {q s : Bytes}, p = q ++ s → rest.length < s.length →
    ∃ x, (readAllP cd size E cts q).2.2 = some (.io x) := by
  induction h with
  | nil bs =>
    intro q s h hl
    have := congrArg List.length h
    simp at this
    omega
  | @cons ct cts bs bs' rest rr rrs ha he hs ih =>
    intro q s hp hl
    obtain ⟨c, hc, h5, hcut⟩ := answered_split ha
    by_cases hb : bs'.length < s.length
    · obtain ⟨x, hx⟩ := answered_truncated cd ct size E ha hp hb
      rw [readAllP]
      obtain ⟨p', rr', e', hq⟩ : ∃ p' rr e, readP cd ct size E q = (p', rr, e) := ⟨_, _, _, rfl⟩
      rw [hq] at hx ⊢
      simp only at hx
      subst hx
      exact ⟨x, rfl⟩
    · -- the first answer is complete
      have hq : ∃ q', q = c ++ q' ∧ bs' = q' ++ s := by
        rw [hc] at hp
        rcases List.append_eq_append_iff.mp hp with ⟨z, h1, h2⟩ | ⟨z, h1, h2⟩
        · exact ⟨z, h1, h2⟩
        · have : z = [] := by
            have := congrArg List.length h2
            simp at this
            exact List.length_eq_zero_iff.mp (by omega)
          subst this
          exact ⟨[], by simpa using h1.symm, by simpa using h2.symm⟩
      obtain ⟨q', rfl, hq'⟩ := hq
      have hA : Answered cd (c ++ q') rr q' := hcut q'
      have h0 : endErr ct rr = none := by
        cases rr with
        | ok => rfl
        | error e => exact if_neg he
      rw [readAllP, answered_read cd ct size E hA, h0]
      exact ih hq' hl

end Verif.Proof
