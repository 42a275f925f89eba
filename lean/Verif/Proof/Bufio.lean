import Verif.Go.Bufio
/-! The buffered reader refines its pending bytes: results depend on the concatenation of the pieces only. -/
namespace Verif.Proof
open Verif.Go

theorem readAux_spec (err : IOErr) (joined : Bool) {n : Nat} (hn : 0 < n) (cs : List Bytes) :
    ∃ d e cs', Source.readAux err joined n cs = (d, e, cs') ∧ d ++ cs'.flatten = cs.flatten ∧ d.length ≤ n ∧
      (d = [] → cs.flatten = [] ∧ e = some err) ∧ (∀ x, e = some x → x = err ∧ cs'.flatten = []) := by
  induction cs with
  | nil => exact ⟨[], some err, [], rfl, rfl, by simp, by simp, fun x hx => ⟨(Option.some.inj hx).symm, rfl⟩⟩
  | cons c cs ih =>
    cases c with
    | nil => simpa [Source.readAux] using ih
    | cons b c =>
      simp only [Source.readAux]
      split
      · rename_i h
        refine ⟨_, _, _, rfl, by simp, by simp; omega, by simp, ?_⟩
        intro x hx
        split at hx
        · rename_i hj
          simp only [Bool.and_eq_true, List.isEmpty_iff] at hj
          exact ⟨(Option.some.inj hx).symm, hj.2⟩
        · cases hx
      · rename_i h
        refine ⟨_, _, _, rfl, by simp [← List.append_assoc, List.take_append_drop], by simp; omega, ?_, by simp⟩
        intro hd
        simp [List.take_eq_nil_iff] at hd
        omega

/-- The buffer is no larger than its size; a pending error is the final one and nothing is to be read any more. -/
structure Inv (r : Bufio) : Prop where
  len : r.buf.length ≤ r.size
  err : ∀ e, r.err = some e → e = r.src.err ∧ r.src.chunks.flatten = []

/-- The same connection. -/
structure Same (r r' : Bufio) : Prop where
  size : r'.size = r.size
  err : r'.src.err = r.src.err

theorem Same.refl (r : Bufio) : Same r r := ⟨rfl, rfl⟩
theorem Same.trans {a b c : Bufio} (h : Same a b) (h' : Same b c) : Same a c := ⟨h'.1.trans h.1, h'.2.trans h.2⟩

theorem new_inv (size : Nat) (src : Source) : Inv (Bufio.new size src) := ⟨by simp [Bufio.new], by simp [Bufio.new]⟩

theorem fill_spec {r : Bufio} (he : r.err = none) (hl : r.buf.length < r.size) :
    Inv r.fill ∧ Same r r.fill ∧ r.fill.pending = r.pending ∧ (r.buf.length < r.fill.buf.length ∨ r.fill.err ≠ none) := by
  obtain ⟨d, e, cs', h, h1, h2, h3, h4⟩ := readAux_spec r.src.err r.src.joined (n := r.size - r.buf.length) (by omega) r.src.chunks
  simp only [Bufio.fill, Source.read, h, he]
  refine ⟨⟨?_, ?_⟩, ⟨rfl, rfl⟩, ?_, ?_⟩
  · simp; omega
  · intro x hx
    have : e = some x := by cases e <;> simp_all
    exact h4 x this
  · simp [Bufio.pending, h1]
  · by_cases hd : d = []
    · right; simp [h3 hd]
    · left
      have := List.length_pos_iff.mpr hd
      simp; omega

theorem peekLoop_spec (n f : Nat) : ∀ {r : Bufio}, Inv r → (n ≤ f + r.buf.length ∨ r.err ≠ none) →
    Inv (Bufio.peekLoop n f r) ∧ Same r (Bufio.peekLoop n f r) ∧ (Bufio.peekLoop n f r).pending = r.pending ∧
    ¬((Bufio.peekLoop n f r).buf.length < n ∧ (Bufio.peekLoop n f r).buf.length < (Bufio.peekLoop n f r).size ∧
      (Bufio.peekLoop n f r).err = none) := by
  induction f with
  | zero =>
    intro r hi hn
    refine ⟨hi, .refl r, rfl, ?_⟩
    simp only [Bufio.peekLoop]
    rintro ⟨h1, _, h3⟩
    rcases hn with h | h
    · omega
    · exact h h3
  | succ f ih =>
    intro r hi hn
    simp only [Bufio.peekLoop]
    split
    · rename_i hc
      obtain ⟨a, b, c, d⟩ := fill_spec hc.2.2 hc.2.1
      obtain ⟨a', b', c', d'⟩ := ih a (by
        rcases d with d | d
        · left
          rcases hn with h | h
          · omega
          · exact absurd hc.2.2 h
        · right; exact d)
      exact ⟨a', b.trans b', c'.trans c, d'⟩
    · rename_i hc
      exact ⟨hi, .refl r, rfl, hc⟩

/-- `Peek` of at most the buffer size: the next bytes, or the final error. -/
theorem peek_small {r : Bufio} (hi : Inv r) {n : Nat} (hn : n ≤ r.size) :
    ∃ r', Inv r' ∧ Same r r' ∧ r'.pending = r.pending ∧
      (n ≤ r.pending.length → n ≤ r'.buf.length ∧ r.peek n = (r', r.pending.take n, none)) ∧
      (r.pending.length < n → ∃ b, r.peek n = (r', b, some r.src.err)) := by
  obtain ⟨a, b, c, d⟩ := peekLoop_spec n n (r := r) hi (by left; omega)
  simp only [Bufio.peek]
  generalize hr : Bufio.peekLoop n n r = r1 at a b c d ⊢
  have hs : ¬ r1.size < n := by have := b.size; omega
  rw [if_neg hs]
  by_cases hl : r1.buf.length < n
  · have hne : r1.err ≠ none := fun h => d ⟨hl, by omega, h⟩
    obtain ⟨e, he⟩ := Option.ne_none_iff_exists'.mp hne
    have hee := a.err e he
    have hp : r1.pending = r1.buf := by simp [Bufio.pending, hee.2]
    refine ⟨r1.readErr.2, ⟨a.len, by simp [Bufio.readErr]⟩, ⟨b.size, b.err⟩, c, ?_, ?_⟩
    · intro h
      rw [← c, hp] at h; omega
    · intro _
      rw [if_pos hl]
      exact ⟨r1.buf, by simp [Bufio.readErr, he, hee.1, b.err]⟩
  · refine ⟨r1, a, b, c, ?_, ?_⟩
    · intro _
      rw [if_neg hl]
      refine ⟨by omega, ?_⟩
      rw [← c, Bufio.pending, List.take_append_of_le_length (by omega)]
    · intro h
      rw [← c, Bufio.pending, List.length_append] at h; omega

/-- `Peek` of more than the buffer size. -/
theorem peek_large {r : Bufio} (hi : Inv r) {n : Nat} (hn : r.size < n) :
    ∃ r' b, Inv r' ∧ Same r r' ∧ r'.pending = r.pending ∧ r.peek n = (r', b, some .bufferFull) := by
  obtain ⟨a, b, c, d⟩ := peekLoop_spec n n (r := r) hi (by left; omega)
  refine ⟨_, (Bufio.peekLoop n n r).buf, a, b, c, ?_⟩
  simp only [Bufio.peek]
  rw [if_pos (by rw [b.size]; exact hn)]

/-- `Discard` of buffered bytes. -/
theorem discard_spec {r : Bufio} (hi : Inv r) {n : Nat} (hn : n ≤ r.buf.length) :
    Inv (r.discard n) ∧ Same r (r.discard n) ∧ (r.discard n).pending = r.pending.drop n := by
  simp only [Bufio.discard]
  split
  · rename_i h; subst h; exact ⟨hi, .refl r, by simp⟩
  · rename_i h
    obtain ⟨m, rfl⟩ := Nat.exists_eq_succ_of_ne_zero h
    have hz : ¬ r.buf.length = 0 := by omega
    have hm : min r.buf.length m.succ = m.succ := by omega
    simp only [Bufio.discardLoop, if_neg hz, hm, Nat.sub_self, if_true]
    refine ⟨⟨by have := hi.len; simp; omega, hi.err⟩, ⟨rfl, rfl⟩, ?_⟩
    simp only [Bufio.pending]
    rw [List.drop_append_of_le_length hn]

/-- One `Read`. -/
theorem read_spec {r : Bufio} (hi : Inv r) (hs : 0 < r.size) {n : Nat} (hn : 0 < n) :
    ∃ r' d e, r.read n = (r', d, e) ∧ Inv r' ∧ Same r r' ∧ d ++ r'.pending = r.pending ∧ d.length ≤ n ∧
      (d = [] → r.pending = [] ∧ e = some r.src.err) ∧ (∀ x, e = some x → x = r.src.err ∧ r'.pending = []) := by
  simp only [Bufio.read]
  split
  · rename_i hb
    split
    · rename_i he
      obtain ⟨e, he⟩ := Option.ne_none_iff_exists'.mp he
      have hee := hi.err e he
      refine ⟨_, _, _, rfl, ⟨hi.len, by simp [Bufio.readErr]⟩, ⟨rfl, rfl⟩, ?_, by simp, ?_, ?_⟩
      · simp [Bufio.readErr, Bufio.pending]
      · intro _; simp [Bufio.pending, hb, hee.2, Bufio.readErr, he, hee.1]
      · intro x hx
        simp only [Bufio.readErr, he, Option.some.injEq] at hx
        exact ⟨by rw [← hx, hee.1], by simp [Bufio.readErr, Bufio.pending, hb, hee.2]⟩
    · rename_i he
      have he : r.err = none := by simpa using he
      split
      · obtain ⟨d, e, cs', h, h1, h2, h3, h4⟩ := readAux_spec r.src.err r.src.joined hn r.src.chunks
        simp only [Source.read, h]
        refine ⟨_, _, _, rfl, ⟨by simp [hb], by simp [he]⟩, ⟨rfl, rfl⟩, by simp [Bufio.pending, hb, h1], h2, ?_, ?_⟩
        · intro hd; exact ⟨by simp [Bufio.pending, hb, h3 hd], (h3 hd).2⟩
        · intro x hx; exact ⟨(h4 x hx).1, by simp [Bufio.pending, hb, (h4 x hx).2]⟩
      · obtain ⟨d, e, cs', h, h1, h2, h3, h4⟩ := readAux_spec r.src.err r.src.joined hs r.src.chunks
        simp only [Source.read, h]
        split
        · rename_i hd
          refine ⟨_, _, _, rfl, ⟨by simp [hb], by simp⟩, ⟨rfl, rfl⟩, ?_, by simp, ?_, ?_⟩
          · rw [hd] at h1; simp at h1; simp [Bufio.pending, hb, h1]
          · intro _; exact ⟨by simp [Bufio.pending, hb, h3 hd], (h3 hd).2⟩
          · intro x hx; exact ⟨(h4 x hx).1, by simp [Bufio.pending, hb, (h4 x hx).2]⟩
        · rename_i hd
          refine ⟨_, _, _, rfl, ⟨by simp; omega, h4⟩, ⟨rfl, rfl⟩, ?_, by simp; omega, ?_, by simp⟩
          · simp only [Bufio.pending, hb, List.nil_append]
            rw [← List.append_assoc, List.take_append_drop, h1]
          · intro h0
            rw [List.take_eq_nil_iff] at h0
            rcases h0 with h0 | h0
            · omega
            · exact absurd h0 hd
  · rename_i hb
    refine ⟨_, _, _, rfl, ⟨by have := hi.len; simp; omega, hi.err⟩, ⟨rfl, rfl⟩, ?_, by simp; omega, ?_, by simp⟩
    · simp only [Bufio.pending]
      rw [← List.append_assoc, List.take_append_drop]
    · intro h0
      rw [List.take_eq_nil_iff] at h0
      rcases h0 with h0 | h0
      · omega
      · exact absurd h0 hb

/-- The error of `io.ReadFull` when the stream ends after `k` of the bytes. -/
def shortErr (E : IOErr) (k : Nat) : IOErr := if E = .eof then (if k = 0 then .eof else .unexpectedEOF) else E

theorem readFullLoop_spec (f : Nat) : ∀ {r : Bufio} {need : Nat} {acc : Bytes}, Inv r → 0 < r.size → need ≤ f →
    ∃ r', Inv r' ∧ Same r r' ∧
      (need ≤ r.pending.length → r'.pending = r.pending.drop need ∧
        Bufio.readFullLoop f r need acc = (r', acc ++ r.pending.take need, none)) ∧
      (r.pending.length < need → r'.pending = [] ∧
        ∃ b, Bufio.readFullLoop f r need acc = (r', b, some (shortErr r.src.err (acc.length + r.pending.length)))) := by
  induction f with
  | zero =>
    intro r need acc hi hs hn
    obtain rfl : need = 0 := by omega
    exact ⟨r, hi, .refl r, fun _ => by simp [Bufio.readFullLoop], fun h => by omega⟩
  | succ f ih =>
    intro r need acc hi hs hn
    simp only [Bufio.readFullLoop]
    by_cases hz : need = 0
    · subst hz
      exact ⟨r, hi, .refl r, fun _ => by simp, fun h => by omega⟩
    · rw [if_neg hz]
      obtain ⟨r1, d, e, h, a, b, c, l, g1, g2⟩ := read_spec hi hs (n := need) (by omega)
      rw [h]
      dsimp only
      have hpl : r.pending.length = d.length + r1.pending.length := by rw [← c]; simp
      by_cases hd : d.length = need
      · rw [if_pos hd]
        refine ⟨r1, a, b, fun _ => ⟨by rw [← c, List.drop_append_of_le_length (by omega), ← hd]; simp, ?_⟩, fun h => by omega⟩
        rw [← c, List.take_append_of_le_length (by omega), ← hd, List.take_length]
      · rw [if_neg hd]
        cases e with
        | none =>
          have hdn : d ≠ [] := fun h0 => by have := (g1 h0).2; simp at this
          have := List.length_pos_iff.mpr hdn
          obtain ⟨r2, a2, b2, c2, d2⟩ := ih (r := r1) (need := need - d.length) (acc := acc ++ d) a (by rw [b.size]; exact hs) (by omega)
          refine ⟨r2, a2, b.trans b2, fun hle => ?_, fun hlt => ?_⟩
          · obtain ⟨q1, q2⟩ := c2 (by omega)
            refine ⟨?_, ?_⟩
            · rw [q1, ← c, List.drop_append]
              simp only [List.drop_eq_nil_of_le l, List.nil_append]
            · simp only [q2, ← c, List.take_append, List.take_of_length_le l, List.append_assoc]
          · obtain ⟨q1, b', q2⟩ := d2 (by omega)
            refine ⟨q1, b', ?_⟩
            simp only [q2, b.err]
            rw [hpl]; simp [Nat.add_assoc]
        | some x =>
          obtain ⟨hx, hp⟩ := g2 x rfl
          have hlt : r.pending.length < need := by rw [hpl, hp]; simp; omega
          refine ⟨r1, a, b, fun h => by omega, fun _ => ⟨hp, ?_⟩⟩
          have hk : acc.length + r.pending.length = (acc ++ d).length := by rw [hpl, hp]; simp
          rw [hk]
          subst hx
          cases hE : r.src.err with
          | eof =>
            refine ⟨_, by simp only [shortErr, if_true, List.length_eq_zero_iff]; rfl⟩
          | unexpectedEOF => exact ⟨_, by simp [shortErr]; rfl⟩
          | bufferFull => exact ⟨_, by simp [shortErr]; rfl⟩
          | other k => exact ⟨_, by simp [shortErr]; rfl⟩

theorem readFull_spec {r : Bufio} (hi : Inv r) (hs : 0 < r.size) (n : Nat) :
    ∃ r', Inv r' ∧ Same r r' ∧
      (n ≤ r.pending.length → r'.pending = r.pending.drop n ∧ r.readFull n = (r', r.pending.take n, none)) ∧
      (r.pending.length < n → r'.pending = [] ∧ ∃ b, r.readFull n = (r', b, some (shortErr r.src.err r.pending.length))) := by
  obtain ⟨r', a, b, c, d⟩ := readFullLoop_spec n (need := n) (acc := []) hi hs (Nat.le_refl _)
  exact ⟨r', a, b, by simpa [Bufio.readFull] using c, by simpa [Bufio.readFull] using d⟩

end Verif.Proof
