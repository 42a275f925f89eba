import Verif.Model.ErrorText
import Verif.Spec.ErrorText
import Verif.Proof.TextRead
/-! C71: the text of an error of the server. -/
namespace Verif.Props
open Verif.Go Verif.Model Verif.Model.Pb Verif.Spec Verif.Proof

variable {e e' : SrvError}

theorem splitOn_free {c : UInt8} {a : Bytes} (ha : c ∉ a) (b : Bytes) : splitOn c (a ++ c :: b) = some (a, b) := by
  induction a with
  | nil => simp [splitOn]
  | cons x a ih =>
    simp only [List.mem_cons, not_or] at ha
    rw [List.cons_append, splitOn, if_neg (Ne.symm ha.1), ih ha.2]
    rfl

theorem severity_read {n : Nat} (h : n < 2 ^ 32) : readSeverity (severityText n) = some n ∧ (32 : UInt8) ∉ severityText n := by
  have sp : ∀ k, (32 : UInt8) ∉ decimal k := fun k hk => by
    obtain ⟨m, hm⟩ := decimal_digits k _ hk
    have := congrArg UInt8.toNat hm
    rw [digit_toNat] at this
    simp at this
    omega
  have hE : ∀ k (x : UInt8), x ∈ decimal k → 48 ≤ x.toNat ∧ x.toNat < 58 := fun k x hx => by
    obtain ⟨m, hm⟩ := decimal_digits k x hx
    rw [hm, digit_toNat]
    omega
  unfold severityText
  split
  · subst n; exact ⟨rfl, by decide⟩
  split
  · subst n; exact ⟨rfl, by decide⟩
  split
  · rename_i hn
    refine ⟨?_, sp n⟩
    have h1 : decimal n ≠ ascii "ERROR" := fun hx => by
      have := hE n 69 (by rw [hx]; decide)
      simp at this
    have h2 : decimal n ≠ ascii "FATAL" := fun hx => by
      have := hE n 70 (by rw [hx]; decide)
      simp at this
    have hs := readSign_digits (decimal_digits n) (decimal_ne n) []
    rw [List.append_nil] at hs
    rw [readSeverity, if_neg h1, if_neg h2, hs]
    dsimp only
    rw [readNat_decimal n]
    simp only [Option.bind_some]
    rw [if_pos hn]
  · rename_i hn
    refine ⟨?_, ?_⟩
    · change readSeverity (45 :: decimal (2 ^ 32 - n)) = _
      rw [readSeverity, if_neg (by intro hx; cases hx), if_neg (by intro hx; cases hx), readSign_neg]
      dsimp only
      rw [readNat_decimal]
      simp only [Option.bind_some]
      rw [if_pos (by omega)]
      congr 1
      omega
    · change (32 : UInt8) ∉ 45 :: decimal (2 ^ 32 - n)
      simp only [List.mem_cons, not_or]
      exact ⟨by decide, sp _⟩

/-- The whole of **C71**: the text of an error says everything there is to say about it; two errors with the same text are
the same error. -/
def C71_full : Prop := ∀ e e' : SrvError, e.severity < 2 ^ 32 → e'.severity < 2 ^ 32 → errorText e = errorText e' → e = e'

/-- **C71**, what is true: from the text of an error all four parts can be read back if the SQL state contains no
closing parenthesis.  Missing: other SQL states, for which it is false (`C71_wrong`). -/
theorem C71_partial (hs : e.severity < 2 ^ 32) (h : (41 : UInt8) ∉ e.sqlState) :
    readError (errorText e) = some (e.severity, e.code, e.sqlState, e.msg) := by
  obtain ⟨h1, h2⟩ := severity_read hs
  have ht : errorText e = severityText e.severity ++ 32 :: (decimal e.code ++ 32 :: 40 :: (e.sqlState ++ 41 :: 58 :: 32 :: e.msg)) := by
    rw [errorText, show ascii " " = [32] from rfl, show ascii " (" = [32, 40] from rfl, show ascii "): " = [41, 58, 32] from rfl]
    simp only [List.append_assoc, List.cons_append, List.nil_append]
  rw [ht, readError, splitOn_free h2]
  dsimp only [bind, Option.bind]
  rw [splitOn_digits (by decide) (decimal_digits _)]
  dsimp only
  rw [h1, readNat_decimal]
  simp only [splitOn_free h]

/-- **C71**: errors of a server that keeps to the standard's SQL states are told apart by their texts. -/
theorem C71_states_partial (hs : e.severity < 2 ^ 32) (hs' : e'.severity < 2 ^ 32) (h : IsState e.sqlState) (h' : IsState e'.sqlState)
    (ht : errorText e = errorText e') : e = e' := by
  have free : ∀ {s : Bytes}, IsState s → (41 : UInt8) ∉ s := fun hs hm => by
    have := hs.2 _ hm
    simp at this
  have a := C71_partial hs (free h)
  rw [ht, C71_partial hs' (free h')] at a
  obtain ⟨a1, a2, a3, a4⟩ := e
  obtain ⟨b1, b2, b3, b4⟩ := e'
  simp only [Option.some.injEq, Prod.mk.injEq] at a
  obtain ⟨rfl, rfl, rfl, rfl⟩ := a
  rfl

/-- What `Error` puts between SQL state and message. -/
def stateEnd : Bytes := ascii "): "

theorem apart {s s' m m' : Bytes} (h : s ++ (stateEnd ++ m) = s' ++ (stateEnd ++ m')) :
    (s = s' ∧ m = m') ∨ (∃ t, s' = s ++ (stateEnd ++ t) ∧ m = t ++ (stateEnd ++ m')) ∨
      ∃ t, s = s' ++ (stateEnd ++ t) ∧ m' = t ++ (stateEnd ++ m) := by
  have key : ∀ {a m m' : Bytes}, stateEnd ++ m = a ++ (stateEnd ++ m') → (a = [] ∧ m = m') ∨ ∃ t, a = stateEnd ++ t ∧ m = t ++ (stateEnd ++ m') := by
    intro a m m' h
    rw [show stateEnd = [41, 58, 32] from rfl] at h ⊢
    match a, h with
    | [], h => exact .inl ⟨rfl, by simpa using h⟩
    | [_], h => simp at h
    | [_, _], h => simp at h
    | x :: y :: z :: t, h =>
      simp only [List.cons_append, List.nil_append, List.cons.injEq] at h
      obtain ⟨rfl, rfl, rfl, h⟩ := h
      exact .inr ⟨t, rfl, h⟩
  rcases List.append_eq_append_iff.1 h with ⟨a, rfl, ha⟩ | ⟨a, rfl, ha⟩
  · rcases key ha with ⟨rfl, hm⟩ | ⟨t, rfl, hm⟩
    · exact .inl ⟨by simp, hm⟩
    · exact .inr (.inl ⟨t, rfl, hm⟩)
  · rcases key ha with ⟨rfl, hm⟩ | ⟨t, rfl, hm⟩
    · exact .inl ⟨by simp, hm.symm⟩
    · exact .inr (.inr ⟨t, rfl, hm⟩)

theorem text_parts (hs : e.severity < 2 ^ 32) (hs' : e'.severity < 2 ^ 32) (h : errorText e = errorText e') :
    e.severity = e'.severity ∧ e.code = e'.code ∧ e.sqlState ++ (stateEnd ++ e.msg) = e'.sqlState ++ (stateEnd ++ e'.msg) := by
  have ht : ∀ e : SrvError, errorText e = severityText e.severity ++ 32 :: (decimal e.code ++ 32 :: 40 :: (e.sqlState ++ (stateEnd ++ e.msg))) := by
    intro e
    rw [errorText, show ascii " " = [32] from rfl, show ascii " (" = [32, 40] from rfl, ← stateEnd]
    simp only [List.append_assoc, List.cons_append, List.nil_append]
  obtain ⟨h1, h2⟩ := severity_read hs
  obtain ⟨h1', h2'⟩ := severity_read hs'
  have a := congrArg (splitOn 32) h
  rw [ht, ht, splitOn_free h2, splitOn_free h2'] at a
  simp only [Option.some.injEq, Prod.mk.injEq] at a
  have c := congrArg (splitOn 32) a.2
  rw [splitOn_digits (by decide) (decimal_digits _), splitOn_digits (by decide) (decimal_digits _)] at c
  simp only [Option.some.injEq, Prod.mk.injEq, List.cons.injEq, true_and] at c
  have sev := congrArg readSeverity a.1
  rw [h1, h1'] at sev
  have cod := congrArg readNat c.1
  rw [readNat_decimal, readNat_decimal] at cod
  exact ⟨Option.some.inj sev, Option.some.inj cod, c.2⟩

/-- **C71**, exactly: the text of an error leaves no doubt which error it is if and only if neither its SQL state nor its message
contains what `Error` puts between the two. -/
theorem C71_exact (hs : e.severity < 2 ^ 32) :
    (∀ e', e'.severity < 2 ^ 32 → errorText e' = errorText e → e' = e) ↔ ¬stateEnd <:+: e.sqlState ∧ ¬stateEnd <:+: e.msg := by
  constructor
  · intro h
    refine ⟨?_, ?_⟩
    · rintro ⟨a, b, hab⟩
      have := h { e with sqlState := a, msg := b ++ stateEnd ++ e.msg } hs (by
        simp only [errorText, ← hab, stateEnd, List.append_assoc])
      have := congrArg (fun e => e.sqlState.length) this
      simp only [← hab, List.length_append, show stateEnd.length = 3 from rfl] at this
      omega
    · rintro ⟨a, b, hab⟩
      have := h { e with sqlState := e.sqlState ++ stateEnd ++ a, msg := b } hs (by
        simp only [errorText, ← hab, stateEnd, List.append_assoc])
      have := congrArg (fun e => e.sqlState.length) this
      simp only [List.length_append, show stateEnd.length = 3 from rfl] at this
      omega
  · rintro ⟨h1, h2⟩ e' hs' ht
    obtain ⟨a, b, c⟩ := text_parts hs' hs ht
    rcases apart c with ⟨p, q⟩ | ⟨t, p, _⟩ | ⟨t, _, q⟩
    · obtain ⟨_, _, _, _⟩ := e
      obtain ⟨_, _, _, _⟩ := e'
      simp only at a b p q
      rw [a, b, p, q]
    · exact absurd ⟨e'.sqlState, t, by rw [p, List.append_assoc]⟩ h1
    · exact absurd ⟨t, e'.msg, by rw [q, List.append_assoc]⟩ h2

/-- Two errors with the same text have the same severity and code, and the SQL state of one is the beginning of that of the other. -/
theorem C71_same (hs : e.severity < 2 ^ 32) (hs' : e'.severity < 2 ^ 32) (ht : errorText e = errorText e') :
    e.severity = e'.severity ∧ e.code = e'.code ∧ (e.sqlState <+: e'.sqlState ∨ e'.sqlState <+: e.sqlState) := by
  obtain ⟨a, b, c⟩ := text_parts hs hs' ht
  refine ⟨a, b, ?_⟩
  rcases apart c with ⟨p, _⟩ | ⟨t, p, _⟩ | ⟨t, p, _⟩
  · exact .inl (p ▸ List.prefix_refl _)
  · exact .inl ⟨_, p.symm⟩
  · exact .inr ⟨_, p.symm⟩

/-- What is decoded from a message satisfies the hypothesis on the severity. -/
theorem C71_decoded {b : Bytes} (h : unmarshalError b = some e) : e.severity < 2 ^ 32 ∧ e.code < 2 ^ 32 := by
  unfold unmarshalError at h
  split at h
  · cases h
  split at h
  · cases h
    refine ⟨?_, Nat.mod_lt _ (by decide)⟩
    dsimp only
    split
    · exact Nat.mod_lt _ (by decide)
    · decide
  · cases h

/-- The full property is false of the code: an SQL state `a): b` with the message `c`, and `a` with `b): c`.  Both can
come from a server. -/
theorem C71_wrong : ¬C71_full := fun h => by
  have := h ⟨0, 1, ascii "a): b", ascii "c"⟩ ⟨0, 1, ascii "a", ascii "b): c"⟩ (by decide) (by decide) (by decide +kernel)
  exact absurd this (by decide +kernel)

/-- Duplicate entry, as MySQL reports it. -/
def dupEx : SrvError := ⟨0, 1062, ascii "23000", ascii "Duplicate entry '1' for key 'PRIMARY'"⟩

example : errorText dupEx = ascii "ERROR 1062 (23000): Duplicate entry '1' for key 'PRIMARY'" := by decide +kernel
example : readError (errorText dupEx) = some (0, 1062, ascii "23000", ascii "Duplicate entry '1' for key 'PRIMARY'") := by decide +kernel
example : ∀ e', e'.severity < 2 ^ 32 → errorText e' = errorText dupEx → e' = dupEx := (C71_exact (by decide)).2 (by decide +kernel)
/-- The text of an error of MySQL, with a message that quotes what the user wrote. -/
def quoteEx : SrvError := ⟨0, 1366, ascii "HY000", ascii "Incorrect value: 'x): y'"⟩

/-- An error of MySQL whose message quotes a value with these signs is not told apart from one with another state. -/
example : ∃ e', e'.severity < 2 ^ 32 ∧ errorText e' = errorText quoteEx ∧ e' ≠ quoteEx :=
  ⟨⟨0, 1366, ascii "HY000): Incorrect value: 'x", ascii "y'"⟩, by decide, by decide +kernel, by decide +kernel⟩
example : IsState dupEx.sqlState := by unfold IsState; decide
example : errorText ⟨2 ^ 32 - 7, 0, [], ascii ": )"⟩ = ascii "-7 0 (): : )" := by decide +kernel
example : unmarshalError ([8, 1, 16, 21] ++ [26, 1, 99] ++ [34, 5] ++ ascii "a): b") = some ⟨1, 21, ascii "a): b", ascii "c"⟩ := by decide +kernel

end Verif.Props
