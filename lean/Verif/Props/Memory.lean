import Verif.Model.Memory
import Verif.Spec.Memory
import Verif.Props.Connection
/-! C70: how much memory a server can make the client allocate. -/
namespace Verif.Props
open Verif.Go Verif.Model Verif.Spec Verif.Proof

variable {cd : Codec} {ct : UInt8} {r r' : Bufio} {rr : Response} {e : Option ReadErr} {l : List Nat} {b : Bytes} {rs : List Response}

theorem act_tailM (cd : Codec) (ct : UInt8) (r : Bufio) (st : Nat) (b : Bytes) (n : Nat) (new : List Nat)
    (again : Option ((Bufio × Response × Option ReadErr) × List Nat)) :
    (if st = 0 ∨ st = 4 ∨ st = 17 then some ((r.discard n, Response.ok, none), new)
          else if st = 12 then
            if cd.columnMeta b then again else some ((r, .ok, some .unmarshalMeta), new)
          else if st = 1 then
            match cd.error b with
            | none => some ((r.discard n, .ok, some .unmarshalError), new)
            | some e =>
              if e.isFatal then some ((r.discard n, .error e, some (.mysqlx e)), new)
              else if ct = 6 ∨ ct = 4 ∨ ct = 5 then some ((r.discard n, .error e, some (.mysqlx e)), new)
              else some ((r.discard n, .error e, none), new)
          else if st = 11 then again
          else if st = 3 then
            if ct ≠ 4 then some ((r.discard n, .ok, some .unexpectedContinue), new)
            else
              match cd.authContinue b with
              | none => some ((r.discard n, .ok, some .unmarshalContinue), new)
              | some data => some ((r.discard n, .ok, some (.requireContinue data)), new)
          else again) =
    (match act cd ct st b with
      | .done rr e => some ((r.discard n, rr, e), new)
      | .stuck e => some ((r, .ok, some e), new)
      | .next => again) := by
  unfold act
  repeat' (first | rfl | split)
  all_goals simp_all

theorem le32_lt (p : Bytes) : le32 p < 2 ^ 32 := by
  have h : ∀ (k : Nat), (p.getD k 0).toNat < 2 ^ 8 := fun k => (p.getD k 0).toNat_lt
  unfold le32
  refine Nat.or_lt_two_pow (Nat.or_lt_two_pow (Nat.or_lt_two_pow ?_ ?_) ?_) ?_
  · have := h 0; omega
  all_goals rw [Nat.shiftLeft_eq]
  · have := h 1; omega
  · have := h 2; omega
  · have := h 3; omega

theorem scratch_eq (hi : Inv r) (hE : r.src.err ≠ .bufferFull) (cap n : Nat) :
    scratch r cap n = if r.size < n ∧ cap < n then [n] else [] := by
  unfold scratch
  by_cases hn : 0 < n
  · rw [if_pos hn]
    by_cases hl : n ≤ r.size
    · have hnone : (if r.size < n ∧ cap < n then [n] else []) = [] := if_neg (by omega)
      rw [hnone]
      obtain ⟨r', -, -, -, h1, h2⟩ := peek_small hi hl
      by_cases hp : n ≤ r.pending.length
      · rw [(h1 hp).2]
      · obtain ⟨b, h2⟩ := h2 (by omega)
        rw [h2]
        cases hx : r.src.err with
        | bufferFull => exact absurd hx hE
        | _ => rfl
    · obtain ⟨r', b, -, -, -, h⟩ := peek_large hi (n := n) (by omega)
      rw [h]
      by_cases hc : cap < n
      · simp only [if_pos hc]; rw [if_pos ⟨by omega, hc⟩]
      · simp only [if_neg hc]; rw [if_neg (by omega)]
  · rw [if_neg hn, if_neg (by omega)]

theorem announced_step {p : Bytes} (h5 : 5 ≤ p.length) (hu : 1 ≤ le32 p) {ns : List Nat} {q : Bytes}
    (h : Announced (p.drop (5 + (le32 p - 1))) ns q) : Announced p ((le32 p - 1) :: ns) q := by
  match p, h5 with
  | a :: b :: c :: d :: t :: rest, _ =>
    refine .cons (t := t) (rest := rest) ?_ (by simpa [Nat.add_comm 5] using h)
    rw [Nat.sub_add_cancel hu, le32_cons]
    simp [readFixed]

theorem readLoopM_spec (f : Nat) : ∀ {r : Bufio} (cap : Nat), Inv r → 5 ≤ r.size → r.src.err ≠ .bufferFull → r.pending.length < f →
    ∃ r' rr e l, readLoopM cd ct f r cap = some ((r', rr, e), l) ∧ readLoop cd ct f r = some (r', rr, e) ∧ Inv r' ∧ Same r r' ∧
      Spent r.size r.pending r'.pending e l ∧ (cap :: l).Pairwise (· < ·) := by
  induction f with
  | zero => intro r cap _ _ _ h; omega
  | succ f ih =>
    intro r cap hi hs hE hf
    have nothing : ∀ {after : Bytes} {e : Option ReadErr}, after.length ≤ r.pending.length → e ≠ none → Spent r.size r.pending after e [] ∧ [cap].Pairwise (· < ·) := fun h he =>
      ⟨⟨by simp, ⟨[], _, .nil _, .slnil, fun h => absurd h he⟩, by simp; omega, [], [], rfl, by simp, by simpa using h⟩, by simp⟩
    rw [readLoopM, readLoop]
    obtain ⟨r1, a1, b1, c1, d1, e1⟩ := peek_small hi hs
    by_cases h5 : r.pending.length < 5
    · obtain ⟨b, e1⟩ := e1 h5
      rw [e1]
      exact ⟨r1, _, _, _, rfl, rfl, a1, b1, nothing (by rw [c1]; exact Nat.le_refl _) (by simp)⟩
    · obtain ⟨d1, d2⟩ := d1 (by omega)
      rw [d2]
      dsimp only
      rw [le32_take (by omega)]
      obtain ⟨a2, b2, c2⟩ := discard_spec a1 d1
      rw [c1] at c2
      by_cases hu : le32 r.pending < 1
      · rw [if_pos hu, if_pos hu]
        exact ⟨_, _, _, _, rfl, rfl, a2, b1.trans b2, nothing (by rw [c2]; simp) (by simp)⟩
      · rw [if_neg hu, if_neg hu]
        have b3 := b1.trans b2
        generalize r1.discard 5 = r2 at a2 b2 b3 c2 ⊢
        rw [scratch_eq a2 (by rw [b3.err]; exact hE), b3.size]
        have h32 := le32_lt r.pending
        generalize hnew : (if r.size < le32 r.pending - 1 ∧ cap < le32 r.pending - 1 then [le32 r.pending - 1] else []) = new
        have new_cases : new = [] ∨ (new = [le32 r.pending - 1] ∧ r.size < le32 r.pending - 1 ∧ cap < le32 r.pending - 1) := by
          rw [← hnew]
          split
          · exact .inr ⟨rfl, by assumption⟩
          · exact .inl rfl
        have new_large : ∀ a ∈ new, r.size < a ∧ a < 2 ^ 32 := by
          rcases new_cases with h | ⟨h, h1, h2⟩
          · simp [h]
          · rw [h]; intro a ha; rw [List.mem_singleton] at ha; subst ha; exact ⟨h1, by omega⟩
        have new_grows : (cap :: new).Pairwise (· < ·) := by rcases new_cases with h | ⟨h, h1, h2⟩ <;> simp [h]; exact h2
        have new_asked : ∀ {ns : List Nat} {q : Bytes}, Announced (r.pending.drop (5 + (le32 r.pending - 1))) ns q →
            ∀ {l : List Nat}, l.Sublist ns → ∃ ns', Announced r.pending ns' q ∧ (new ++ l).Sublist ns' := fun ha l hl => by
          refine ⟨_, announced_step (by omega) (by omega) ha, ?_⟩
          rcases new_cases with h | ⟨h, -⟩
          · rw [h]; exact .cons _ hl
          · rw [h]; exact .cons_cons _ hl
        have new_short : new.length ≤ 1 := by rcases new_cases with h | ⟨h, -⟩ <;> simp [h]
        have new_sum : new.sum ≤ le32 r.pending - 1 := by rcases new_cases with h | ⟨h, -⟩ <;> simp [h]
        obtain ⟨r3, a4, b4, c4, d4⟩ := payload_spec a2 (by rw [b3.size]; omega) (by rw [b3.err]; exact hE) (r.pending.take 5) (le32 r.pending - 1)
        have b5 := b3.trans b4
        rw [c2, b3.size] at c4 d4
        rw [b3.err] at d4
        by_cases hl : (r.pending.drop 5).length < le32 r.pending - 1
        · obtain ⟨q1, q2⟩ := d4 hl
          rw [q2]
          obtain ⟨ns, k1, k2⟩ := new_asked (.nil _) (l := []) .slnil
          rw [List.append_nil] at k2
          refine ⟨_, _, _, _, rfl, rfl, a4, b5, ⟨new_large, ⟨ns, _, k1, k2, (fun h => by simp at h)⟩, fun h => absurd ⟨_, rfl⟩ h, [], new, rfl, new_short, ?_⟩, new_grows⟩
          rw [q1]
          split <;> simp
        · obtain ⟨k, q1, q2, q3, q4⟩ := c4 (by omega)
          rw [q1]
          dsimp only
          suffices h : ∃ r' rr e l,
              (match act cd ct ((r.pending.take 5).getD 4 0).toNat (if le32 r.pending - 1 = 0 then r.pending.take 5 else (r.pending.drop 5).take (le32 r.pending - 1)) with
                | .done rr e => some ((r3.discard k, rr, e), new)
                | .stuck e => some ((r3, .ok, some e), new)
                | .next => (readLoopM cd ct f (r3.discard k) (new.headD cap)).map fun x => (x.1, new ++ x.2)) = some ((r', rr, e), l) ∧
              (match act cd ct ((r.pending.take 5).getD 4 0).toNat (if le32 r.pending - 1 = 0 then r.pending.take 5 else (r.pending.drop 5).take (le32 r.pending - 1)) with
                | .done rr e => some (r3.discard k, rr, e)
                | .stuck e => some (r3, .ok, some e)
                | .next => readLoop cd ct f (r3.discard k)) = some (r', rr, e) ∧ Inv r' ∧ Same r r' ∧
              Spent r.size r.pending r'.pending e l ∧ (cap :: l).Pairwise (· < ·) by
            obtain ⟨r', rr, e, l, x1, x2, x3⟩ := h
            exact ⟨r', rr, e, l, (act_tailM cd ct r3 _ _ k new _).trans x1, (act_tail cd ct f r3 _ _ k).trans x2, x3⟩
          obtain ⟨a6, b6, c6⟩ := discard_spec a4 q2
          rw [q3, List.drop_drop] at c6
          have hlen : (r.pending.drop 5).length = r.pending.length - 5 := by simp
          have c6l : ((r3.discard k).pending).length = r.pending.length - (5 + (le32 r.pending - 1)) := by rw [c6]; simp
          obtain ⟨ns, k1, k2⟩ := new_asked (.nil _) (l := []) .slnil
          rw [List.append_nil] at k2
          cases hact : act cd ct _ _ with
          | done rr e =>
            have hsum : new.sum + (r3.discard k).pending.length ≤ r.pending.length := by rw [c6l]; omega
            exact ⟨_, _, _, _, rfl, rfl, a6, b5.trans b6,
              ⟨new_large, ⟨ns, _, k1, k2, fun _ => c6.symm⟩, fun _ => hsum, new, [], by simp, by simp, hsum⟩, new_grows⟩
          | stuck e =>
            have hsum : new.sum + r3.pending.length ≤ r.pending.length := by
              rw [q4]
              rcases new_cases with h | ⟨h, h1, h2⟩
              · rw [h]; split <;> simp <;> omega
              · rw [h, if_neg (by omega)]; simp; omega
            exact ⟨_, _, _, _, rfl, rfl, a4, b5,
              ⟨new_large, ⟨ns, _, k1, k2, (fun h => by simp at h)⟩, fun _ => hsum, new, [], by simp, by simp, hsum⟩, new_grows⟩
          | next =>
            have b7 := b5.trans b6
            obtain ⟨r', rr, e, l, w0, w1, w2, w3, ⟨w4, ⟨ns', q', y1, y2, y3⟩, w6, l0, l1, w7, w8, w9⟩, w5⟩ :=
              ih (new.headD cap) a6 (by rw [b7.size]; exact hs) (by rw [b7.err]; exact hE) (by rw [c6l]; omega)
            rw [w0, w1]
            rw [c6l] at w6 w9
            rw [b7.size] at w4
            rw [c6] at y1
            obtain ⟨ns2, z1, z2⟩ := new_asked y1 y2
            refine ⟨_, _, _, _, rfl, rfl, w2, b7.trans w3, ⟨?_, ⟨ns2, q', z1, z2, y3⟩, fun h => ?_, new ++ l0, l1, by simp [w7], w8, ?_⟩, ?_⟩
            · intro a ha
              rcases List.mem_append.mp ha with ha | ha
              · exact new_large a ha
              · exact w4 a ha
            · have := w6 h
              simp only [List.sum_append]
              omega
            · simp only [List.sum_append]
              omega
            · rcases new_cases with h | ⟨h, h1, h2⟩
              · rw [h] at w5 ⊢; exact w5
              · rw [h] at w5 ⊢
                simp only [List.headD_cons, List.singleton_append] at w5 ⊢
                refine .cons (fun a ha => ?_) w5
                rcases List.mem_cons.mp ha with rfl | ha
                · exact h2
                · have := (List.pairwise_cons.mp w5).1 a ha
                  omega

theorem readOneM_spec (hc : Life cd r) : ∃ r' rr e l, readOneM cd ct r = some ((r', rr, e), l) ∧ readOne cd ct r = some (r', rr, e) ∧
    Life cd r' ∧ Spent 4096 r.pending r'.pending e l ∧ l.Pairwise (· < ·) := by
  obtain ⟨h1, h2, h3⟩ := life_inv hc
  obtain ⟨r', rr, e, l, a, b, c, d, x, y⟩ := readLoopM_spec (cd := cd) (ct := ct) _ 0 h1 (by omega) h3 (Nat.lt_succ_self _)
  rw [h2] at x
  exact ⟨r', rr, e, l, a, b, hc.read b, x, (List.pairwise_cons.mp y).2⟩

theorem announced_trans {p q s : Bytes} {ns ms : List Nat} (h : Announced p ns q) (h' : Announced q ms s) : Announced p (ns ++ ms) s := by
  induction h with
  | nil p => exact h'
  | cons h _ ih => exact .cons h (ih h')

theorem readResponsesM_spec (b : Bytes) (f : Nat) : ∀ {r : Bufio} (i : Nat) (acc : List Response), Life cd r →
    (readResponses cd b f i r acc = .error .panic ∧ readResponsesM cd b f i r acc = .error .panic) ∨
    (readResponses cd b f i r acc = .ok none ∧ readResponsesM cd b f i r acc = .ok none) ∨
    ∃ r' rs e l, readResponsesM cd b f i r acc = .ok (some ((r', rs, e), l)) ∧ readResponses cd b f i r acc = .ok (some (r', rs, e)) ∧
      Spent 4096 r.pending r'.pending e l := by
  induction f with
  | zero => intro r i acc _; exact .inr (.inl ⟨rfl, rfl⟩)
  | succ f ih =>
    intro r i acc hc
    rw [readResponsesM, readResponses]
    by_cases h1 : b.length ≤ i
    · rw [if_pos h1, if_pos h1]
      exact .inr (.inr ⟨_, _, _, _, rfl, rfl, by simp, ⟨[], _, .nil _, .slnil, fun _ => rfl⟩, by simp, [], [], rfl, by simp, by simp⟩)
    · rw [if_neg h1, if_neg h1]
      by_cases h2 : b.length ≤ i + 4
      · rw [if_pos h2, if_pos h2]; exact .inl ⟨rfl, rfl⟩
      · rw [if_neg h2, if_neg h2]
        obtain ⟨r1, rr, e, l, x1, x2, x3, x4, -⟩ := readOneM_spec (ct := b.getD (i + 4) 0) hc
        rw [x1, x2]
        cases e with
        | some e => exact .inr (.inr ⟨_, _, _, _, rfl, rfl, x4⟩)
        | none =>
          dsimp only
          rcases ih (i + 4 + le32 (b.drop i)) (acc ++ [rr]) x3 with ⟨y1, y2⟩ | ⟨y1, y2⟩ | ⟨r', rs, e, l', y1, y2, y3⟩
          · rw [y1, y2]; exact .inl ⟨rfl, rfl⟩
          · rw [y1, y2]; exact .inr (.inl ⟨rfl, rfl⟩)
          · rw [y1, y2]
            obtain ⟨ns, q, z1, z2, z3⟩ := x4.asked
            obtain ⟨ns', q', z1', z2', z3'⟩ := y3.asked
            obtain ⟨l0, l1, u1, u2, u3⟩ := y3.last
            have hx := x4.filled (by rintro ⟨x, h⟩; cases h)
            cases z3 rfl
            refine .inr (.inr ⟨_, _, _, _, rfl, rfl, ?_, ⟨_, _, announced_trans z1 z1', z2.append z2', z3'⟩, fun h => ?_, l ++ l0, l1, by simp [u1], u2, ?_⟩)
            · intro a ha
              rcases List.mem_append.mp ha with ha | ha
              · exact x4.large a ha
              · exact y3.large a ha
            · have := y3.filled h
              simp only [List.sum_append]; omega
            · simp only [List.sum_append]; omega

/-- **C70**, as for the model: counting the buffers changes nothing else. -/
theorem C70_same (hc : Life cd r) (b : Bytes) :
    (∃ x, readAllM cd b r = .error x ∧ readAll cd b r = .error x) ∨ ∃ o, readAllM cd b r = .ok o ∧ readAll cd b r = .ok (o.map (·.1)) := by
  rcases readResponsesM_spec b (b.length + 1) 0 [] hc with ⟨h1, h2⟩ | ⟨h1, h2⟩ | ⟨r', rs, e, l, h1, h2, -⟩
  · exact .inl ⟨_, h2, h1⟩
  · exact .inr ⟨_, h2, h1⟩
  · exact .inr ⟨_, h1, h2⟩

/-- The whole of **C70**: for the answers to a request, `Send` allocates no more than the server has sent. -/
def C70_full : Prop := ∀ (cd : Codec) (b : Bytes) (r r' : Bufio) (rs : List Response) (e : Option ReadErr) (l : List Nat), Life cd r →
  readAllM cd b r = .ok (some ((r', rs, e), l)) → l.sum ≤ r.pending.length

/-- **C70**, what is true: buffers are allocated for announced payloads of more than 4096 bytes only, one at most for each; unless
the network failed they have all been filled, so that they are no more than the bytes read; and if it failed, this
holds for all but one.  Missing: that one, of any size below 4 GiB, allocated on the word of the server alone
(`C70_wrong`). -/
theorem C70_partial (hc : Life cd r) (h : readAllM cd b r = .ok (some ((r', rs, e), l))) : Spent 4096 r.pending r'.pending e l := by
  rcases readResponsesM_spec b (b.length + 1) 0 [] hc with ⟨-, h2⟩ | ⟨-, h2⟩ | ⟨r', rs, e, l, h2, -, h3⟩
  · cases h.symm.trans h2
  · cases h.symm.trans h2
  · cases h.symm.trans h2; exact h3

/-- **C70**: as long as no message has a payload of more than 4096 bytes, nothing is allocated. -/
theorem C70_small_partial (hc : Life cd r) (hs : ∀ ns q, Announced r.pending ns q → ∀ n ∈ ns, n ≤ 4096)
    (h : readAllM cd b r = .ok (some ((r', rs, e), l))) : l = [] := by
  have hp := C70_partial hc h
  obtain ⟨ns, q, h1, h2, -⟩ := hp.asked
  cases l with
  | nil => rfl
  | cons a l =>
    have := hs ns q h1 a (h2.subset (by simp))
    have := (hp.large a (by simp)).1
    omega

/-- **C70**, for a single answer: however many messages come before it, the buffers are of strictly growing size, the
next one replacing the one before. -/
theorem C70_read_partial (hc : Life cd r) (h : readOneM cd ct r = some ((r', rr, e), l)) :
    Spent 4096 r.pending r'.pending e l ∧ l.Pairwise (· < ·) := by
  obtain ⟨r', rr, e, l, h2, -, -, h3⟩ := readOneM_spec (ct := ct) hc
  cases h.symm.trans h2
  exact h3

/-- **C70**, the exception: a header announcing more than 4096 bytes that do not come makes `Read` allocate all of them. -/
theorem C70_hostile (hc : Life cd r) {n : Nat} {t : UInt8} {rest : Bytes} (hp : readFixed 4 r.pending = some (n + 1, t :: rest)) (hn : 4096 < n)
    (hr : rest.length < n) : ∃ r' x, readOneM cd ct r = some ((r', .ok, some (.io x)), [n]) := by
  obtain ⟨hi, hs, hE⟩ := life_inv hc
  obtain ⟨h5, hl, hd⟩ : 5 ≤ r.pending.length ∧ le32 r.pending = n + 1 ∧ r.pending.drop 5 = rest := by
    match h : r.pending with
    | a :: b :: c :: d :: t' :: rest' =>
      rw [h] at hp
      rw [le32_cons]
      simp only [readFixed, Option.some.injEq, Prod.mk.injEq, List.cons.injEq] at hp
      simp only [List.length_cons, List.drop_succ_cons, List.drop_zero]
      refine ⟨by omega, ?_, ?_⟩ <;> simp_all
    | [] | [_] | [_, _] | [_, _, _] | [_, _, _, _] => rw [h] at hp; simp [readFixed] at hp
  rw [readOneM, readLoopM]
  obtain ⟨r1, a1, b1, c1, d1, e1⟩ := peek_small hi (n := 5) (by omega)
  obtain ⟨d1, d2⟩ := d1 h5
  rw [d2]
  dsimp only
  rw [le32_take (by omega), hl, if_neg (by omega)]
  obtain ⟨a2, b2, c2⟩ := discard_spec a1 d1
  have b3 := b1.trans b2
  rw [c1, hd] at c2
  rw [scratch_eq a2 (by rw [b3.err]; exact hE), b3.size, hs, Nat.add_sub_cancel, if_pos ⟨hn, by omega⟩]
  obtain ⟨r3, -, -, -, d4⟩ := payload_spec a2 (by rw [b3.size]; omega) (by rw [b3.err]; exact hE) (r.pending.take 5) n
  rw [(d4 (by rw [c2]; exact hr)).2]
  exact ⟨_, _, rfl⟩

/-- Five bytes, then the end: 4 GiB. -/
def evil : Bufio := (Conn.new .tcp ⟨[[255, 255, 255, 255, 0]], .eof, false⟩).r

theorem evil_life : Life toyCodec evil := .new _ _ (by simp)

/-- The full property is false of the code: five bytes suffice for 4 GiB less two bytes. -/
theorem C70_wrong : ¬C70_full := by
  intro h
  obtain ⟨r', x, hr⟩ := C70_hostile (ct := 12) evil_life (n := 2 ^ 32 - 2) (t := 0) (rest := []) rfl (by decide) (by decide)
  have := h toyCodec [1, 0, 0, 0, 12] evil r' [.ok] (some (.io x)) [2 ^ 32 - 2] evil_life (by
    rw [readAllM, List.length_cons, readResponsesM, if_neg (by decide), if_neg (by decide)]
    rw [show ([1, 0, 0, 0, 12] : Bytes).getD (0 + 4) 0 = 12 from rfl, hr]
    rfl)
  exact absurd this (by decide)

/-- A row of 5000 bytes, a notice of 10, another row of 4500, then OK: one buffer, of 5000 bytes, is made. -/
def rowsEx : Bufio := (Conn.new .tcp ⟨[[137, 19, 0, 0, 13] ++ List.replicate 5000 7, [11, 0, 0, 0, 11] ++ List.replicate 10 1,
  [149, 17, 0, 0, 13] ++ List.replicate 4500 8, [1, 0, 0, 0, 17, 42]], .eof, false⟩).r

example : (readAllM toyCodec [1, 0, 0, 0, 12] rowsEx).toOption.join.map (fun x => (x.1.2, x.1.1.pending, x.2)) = some (([.ok], none), [42], [5000]) := by
  decide +kernel

/-- The same request twice, the second time with a larger row: two buffers. -/
example : (readAllM toyCodec [1, 0, 0, 0, 12, 1, 0, 0, 0, 12] (Conn.new .tcp ⟨[[137, 19, 0, 0, 13] ++ List.replicate 5000 7, [1, 0, 0, 0, 17],
    [149, 17, 0, 0, 13] ++ List.replicate 4500 8, [1, 0, 0, 0, 17, 42]], .eof, false⟩).r).toOption.join.map
      (fun x => (x.1.2, x.1.1.pending, x.2)) = some (([.ok, .ok], none), [42], [5000, 4500]) := by
  decide +kernel

/-- The hypothesis of `C70_small_partial` can be met. -/
example : ∀ ns q, Announced (Conn.new .tcp ⟨[[3, 0, 0, 0, 13, 7, 7], [1, 0, 0, 0, 17]], .eof, false⟩).r.pending ns q → ∀ n ∈ ns, n ≤ 4096 := by
  intro ns q h
  cases h with
  | nil => simp
  | cons h hr =>
    cases h
    cases hr with
    | nil => simp
    | cons h hr =>
      cases h
      cases hr with
      | nil => simp
      | cons h _ => cases h

end Verif.Props
