import Verif.Model.Connection
import Verif.Proof.Bufio
/-! `Read` as a function of the bytes to come. -/
namespace Verif.Proof
open Verif.Go Verif.Model

/-- What a complete message leads to. -/
inductive Action where
  | done (rr : Response) (e : Option ReadErr)
  | stuck (e : ReadErr)
  | next
  deriving DecidableEq

def act (cd : Codec) (ct : UInt8) (st : Nat) (b : Bytes) : Action :=
  if st = 0 ∨ st = 4 ∨ st = 17 then .done .ok none
  else if st = 12 then if cd.columnMeta b then .next else .stuck .unmarshalMeta
  else if st = 1 then
    match cd.error b with
    | none => .done .ok (some .unmarshalError)
    | some e =>
      if e.isFatal then .done (.error e) (some (.mysqlx e))
      else if ct = 6 ∨ ct = 4 ∨ ct = 5 then .done (.error e) (some (.mysqlx e))
      else .done (.error e) none
  else if st = 11 then .next
  else if st = 3 then
    if ct ≠ 4 then .done .ok (some .unexpectedContinue)
    else
      match cd.authContinue b with
      | none => .done .ok (some .unmarshalContinue)
      | some data => .done .ok (some (.requireContinue data))
  else .next

/-- `Read` on the bytes to come, after which the stream ends with the error `E`. -/
def readP (cd : Codec) (ct : UInt8) (size : Nat) (E : IOErr) (p : Bytes) : Bytes × Response × Option ReadErr :=
  if p.length < 5 then (p, .ok, some (.io E))
  else
    let n := le32 p - 1
    if le32 p < 1 then (p.drop 5, .ok, some .tooShort)
    else if (p.drop 5).length < n then
      if n ≤ size then (p.drop 5, .ok, some (.io E)) else ([], .ok, some (.io (shortErr E (p.drop 5).length)))
    else
      match act cd ct (p.getD 4 0).toNat (if n = 0 then p.take 5 else (p.drop 5).take n) with
      | .done rr e => (p.drop (5 + n), rr, e)
      | .stuck e => (if n ≤ size then p.drop 5 else p.drop (5 + n), .ok, some e)
      | .next => readP cd ct size E (p.drop (5 + n))
termination_by p.length
decreasing_by simp; omega

theorem le32_take {p : Bytes} {k : Nat} (hk : 4 ≤ k) : le32 (p.take k) = le32 p := by
  simp only [le32, List.getD_eq_getElem?_getD, List.getElem?_take]
  rw [if_pos (by omega), if_pos (by omega), if_pos (by omega), if_pos (by omega)]

theorem payload_spec {r : Bufio} (hi : Inv r) (hs : 0 < r.size) (hE : r.src.err ≠ .bufferFull) (hd : Bytes) (n : Nat) :
    ∃ r', Inv r' ∧ Same r r' ∧
      (n ≤ r.pending.length → ∃ k, payload r hd n = (r', .ok (if n = 0 then hd else r.pending.take n, k)) ∧ k ≤ r'.buf.length ∧
        r'.pending.drop k = r.pending.drop n ∧ r'.pending = (if n ≤ r.size then r.pending else r.pending.drop n)) ∧
      (r.pending.length < n → r'.pending = (if n ≤ r.size then r.pending else []) ∧
        payload r hd n = (r', .error (if n ≤ r.size then r.src.err else shortErr r.src.err r.pending.length))) := by
  unfold payload
  by_cases hn : 0 < n
  · rw [if_pos hn]
    by_cases hl : n ≤ r.size
    · obtain ⟨r', a, b, c, d, e⟩ := peek_small hi hl
      refine ⟨r', a, b, fun h => ?_, fun h => ?_⟩
      · obtain ⟨d1, d2⟩ := d h
        rw [d2]
        exact ⟨n, by simp [show n ≠ 0 by omega], d1, by rw [c], by rw [if_pos hl, c]⟩
      · obtain ⟨bb, e⟩ := e h
        rw [e]
        simp [hE, hl, c]
    · obtain ⟨r', bb, a, b, c, d⟩ := peek_large hi (n := n) (by omega)
      rw [d]
      obtain ⟨r2, a2, b2, c2, d2⟩ := readFull_spec a (by rw [b.size]; exact hs) n
      refine ⟨r2, a2, b.trans b2, fun h => ?_, fun h => ?_⟩
      · rw [c] at c2
        obtain ⟨q1, q2⟩ := c2 h
        refine ⟨0, by simp [q2, show n ≠ 0 by omega], by simp, by simp [q1], by rw [if_neg hl, q1]⟩
      · rw [c] at d2
        obtain ⟨q1, b', q2⟩ := d2 h
        simp [q2, q1, hl, b.err]
  · obtain rfl : n = 0 := by omega
    exact ⟨r, hi, .refl r, fun _ => ⟨0, by simp⟩, fun h => by omega⟩

theorem act_tail (cd : Codec) (ct : UInt8) (f : Nat) (r : Bufio) (st : Nat) (b : Bytes) (n : Nat) :
    (if st = 0 ∨ st = 4 ∨ st = 17 then some (r.discard n, Response.ok, none)
          else if st = 12 then
            if cd.columnMeta b then readLoop cd ct f (r.discard n) else some (r, .ok, some .unmarshalMeta)
          else if st = 1 then
            match cd.error b with
            | none => some (r.discard n, .ok, some .unmarshalError)
            | some e =>
              if e.isFatal then some (r.discard n, .error e, some (.mysqlx e))
              else if ct = 6 ∨ ct = 4 ∨ ct = 5 then some (r.discard n, .error e, some (.mysqlx e))
              else some (r.discard n, .error e, none)
          else if st = 11 then readLoop cd ct f (r.discard n)
          else if st = 3 then
            if ct ≠ 4 then some (r.discard n, .ok, some .unexpectedContinue)
            else
              match cd.authContinue b with
              | none => some (r.discard n, .ok, some .unmarshalContinue)
              | some data => some (r.discard n, .ok, some (.requireContinue data))
          else readLoop cd ct f (r.discard n)) =
    (match act cd ct st b with
      | .done rr e => some (r.discard n, rr, e)
      | .stuck e => some (r, .ok, some e)
      | .next => readLoop cd ct f (r.discard n)) := by
  unfold act
  repeat' (first | rfl | split)
  all_goals simp_all

theorem exists_congr_left {α β γ : Type} {x y : Option (α × β × γ)} {P : α → β → γ → Prop} (h : x = y)
    (hy : ∃ a b c, y = some (a, b, c) ∧ P a b c) : ∃ a b c, x = some (a, b, c) ∧ P a b c := h ▸ hy

theorem readLoop_spec (cd : Codec) (ct : UInt8) (f : Nat) : ∀ {r : Bufio}, Inv r → 5 ≤ r.size → r.src.err ≠ .bufferFull →
    r.pending.length < f →
    ∃ r' rr e, readLoop cd ct f r = some (r', rr, e) ∧ Inv r' ∧ Same r r' ∧
      readP cd ct r.size r.src.err r.pending = (r'.pending, rr, e) := by
  induction f with
  | zero => intro r _ _ _ h; omega
  | succ f ih =>
    intro r hi hs hE hf
    rw [readLoop, readP]
    obtain ⟨r1, a1, b1, c1, d1, e1⟩ := peek_small hi hs
    by_cases h5 : r.pending.length < 5
    · obtain ⟨b, e1⟩ := e1 h5
      rw [e1, if_pos h5]
      exact ⟨r1, _, _, rfl, a1, b1, by rw [c1]⟩
    · obtain ⟨d1, d2⟩ := d1 (by omega)
      rw [d2, if_neg h5]
      dsimp only
      rw [le32_take (by omega)]
      have hst : (r.pending.take 5).getD 4 0 = r.pending.getD 4 0 := by
        simp [List.getD_eq_getElem?_getD]
      rw [hst]
      obtain ⟨a2, b2, c2⟩ := discard_spec a1 d1
      rw [c1] at c2
      by_cases hu : le32 r.pending < 1
      · rw [if_pos hu, if_pos hu]
        exact ⟨_, _, _, rfl, a2, b1.trans b2, by rw [c2]⟩
      · rw [if_neg hu, if_neg hu]
        have b3 := b1.trans b2
        generalize r1.discard 5 = r2 at a2 b2 b3 c2 ⊢
        obtain ⟨r3, a4, b4, c4, d4⟩ := payload_spec a2 (by rw [b3.size]; omega) (by rw [b3.err]; exact hE) (r.pending.take 5) (le32 r.pending - 1)
        have b5 := b3.trans b4
        rw [c2, b3.size] at c4 d4
        rw [b3.err] at d4
        by_cases hl : (r.pending.drop 5).length < le32 r.pending - 1
        · obtain ⟨q1, q2⟩ := d4 hl
          rw [q2, if_pos hl]
          refine ⟨_, _, _, rfl, a4, b5, ?_⟩
          rw [q1]
          split <;> rfl
        · obtain ⟨k, q1, q2, q3, q4⟩ := c4 (by omega)
          rw [q1, if_neg hl]
          dsimp only
          refine exists_congr_left (act_tail cd ct f r3 _ _ k) ?_
          obtain ⟨a6, b6, c6⟩ := discard_spec a4 q2
          rw [q3, List.drop_drop] at c6
          cases act cd ct _ _ with
          | done rr e => exact ⟨_, _, _, rfl, a6, b5.trans b6, by dsimp only; rw [c6]⟩
          | stuck e =>
            refine ⟨_, _, _, rfl, a4, b5, ?_⟩
            dsimp only
            rw [q4]
            split <;> simp
          | next =>
            have b7 := b5.trans b6
            obtain ⟨r', rr, e, w1, w2, w3, w4⟩ := ih a6 (by rw [b7.size]; exact hs) (by rw [b7.err]; exact hE) (by
              rw [c6]; simp; omega)
            refine ⟨r', rr, e, w1, w2, b7.trans w3, ?_⟩
            rw [b7.size, b7.err, c6] at w4
            exact w4

theorem readOne_spec (cd : Codec) (ct : UInt8) {r : Bufio} (hi : Inv r) (hs : 5 ≤ r.size) (hE : r.src.err ≠ .bufferFull) :
    ∃ r' rr e, readOne cd ct r = some (r', rr, e) ∧ Inv r' ∧ Same r r' ∧
      readP cd ct r.size r.src.err r.pending = (r'.pending, rr, e) :=
  readLoop_spec cd ct _ hi hs hE (Nat.lt_succ_self _)

end Verif.Proof
