import Verif.Props.Headers
import Verif.Props.Values
import Verif.Props.Decimal
/-! Where properties that the code violates hold, exactly: C24, C28, C48. -/
namespace Verif.Props
open Verif.Go Verif.Spec Verif.Model Verif.Proof

variable {g : Grow} {p : Slice} {tag : UInt8}

/-- Reading one field leaves nothing over. -/
theorem readFields_single {bs : Bytes} {f : Field} (h : readFields bs = some [f]) : readField bs = some (f, []) := by
  unfold readFields at h
  cases bs with
  | nil => simp [readFieldsAux] at h
  | cons b bs =>
    rw [List.length_cons, readFieldsAux] at h
    split at h
    · cases h
    · rename_i fld rest hf
      rw [hf]
      split at h
      · cases h
      · rename_i fs hr
        cases h
        cases rest with
        | nil => rfl
        | cons c rest =>
          cases hn : bs.length with
          | zero => rw [hn] at hr; simp [readFieldsAux] at hr
          | succ n =>
            rw [hn, readFieldsAux] at hr
            split at hr
            · cases hr
            · split at hr <;> cases hr

/-- **C24**, exactly: what is written for a variable is a field at all, with the number asked for, if and only if the name
has less than 124 bytes; and then it holds the variable. -/
theorem C24_exact (ht : SmallTag tag) {name : Bytes} {q : Slice} (h : appendExpr g p tag (.variable name) = .ok (q, none)) :
    ∃ bs, q.data = p.data ++ bs ∧ ((∃ body, readFields bs = some [(tag.toNat, .bytes body)]) ↔ name.length < 124) ∧
      (ExprField tag.toNat bs (.variable name) ↔ name.length < 124) := by
  obtain ⟨e, he, hq⟩ := appendExpr_accepted ht h
  cases he
  refine ⟨_, hq, ?_⟩
  have good : name.length < 124 → ExprField tag.toNat (codeExprF tag (.variable name)) (.variable name) := fun hn => by
    rcases C24_variable_partial (g := g) (p := p) ht name hn with h' | ⟨bs, sp, h', hf⟩
    · rw [h] at h'; cases h'
    · rw [h] at h'
      cases h'
      rw [List.append_cancel_left hq] at hf
      exact hf
  have bad : ∀ body, readFields (codeExprF tag (.variable name)) = some [(tag.toNat, .bytes body)] → name.length < 124 := fun body hr => by
    have hr := readFields_single hr
    rw [codeExprF, codeVarF] at hr
    generalize hT : (varint name.length).length + name.length = T at hr
    have hlen : ([3, 26] ++ varint name.length ++ name : Bytes).length = T + 2 := by simp; omega
    have hvar : 1 ≤ (varint name.length).length := varint_length_pos _
    simp only [List.cons_append, List.nil_append] at hr hlen
    generalize 3 :: 26 :: (varint name.length ++ name) = X at hr hlen
    have hT2 : name.length + 1 ≤ T := by omega
    rw [← List.singleton_append, ← keyBytes_eq (by have := ht.2; omega), readField,
      readVarint_varint _ (by have := ht.2; omega)] at hr
    dsimp only at hr
    have h1 := ht.1
    have h2 := ht.2
    rw [if_neg (by omega), show (tag.toNat * 8 + 2) % 8 = 2 by omega] at hr
    have hL : (3 + UInt8.ofNat T : UInt8).toNat = (3 + T) % 256 := by simp
    generalize (3 + UInt8.ofNat T : UInt8) = L at hr hL
    have key : ∀ (n : Nat) (rest : Bytes), readVarint (L :: 8 :: X) = some (n, rest) → rest.length = n := fun n rest hv => by
      replace hr : (match readVarint (L :: 8 :: X) with
          | some (n, rest) =>
            match readN n rest with
            | some (b, rest) => some (((tag.toNat * 8 + 2) / 8, WireVal.bytes b), rest)
            | none => none
          | none => none) = some ((tag.toNat, WireVal.bytes body), []) := hr
      rw [hv] at hr
      simp only [readN] at hr
      by_cases hn : n ≤ rest.length
      · simp only [if_pos hn] at hr
        simp only [Option.some.injEq, Prod.mk.injEq] at hr
        have := congrArg List.length hr.2
        simp at this
        omega
      · simp only [if_neg hn] at hr
        cases hr
    by_cases hl : L.toNat < 128
    · have := key L.toNat (8 :: X) (by simp [readVarint, readVarintAux, hl]; omega)
      simp only [List.length_cons] at this
      omega
    · have := key (L.toNat - 128 + 128 * 8) X (by
        have : L.toNat < 256 := L.toNat_lt
        simp [readVarint, readVarintAux, hl]; omega)
      omega
  exact ⟨⟨fun ⟨body, hr⟩ => bad body hr, fun hn => (good hn).imp fun _ h => h.1⟩, fun ⟨body, hr, _⟩ => bad body hr, good⟩

example : (written (appendExpr grow0 ⟨[], []⟩ 2 (.variable (List.replicate 124 97)))).isSome = true := by decide +kernel

/-- **C28**, exactly: in every sendable unit of work the frames, one per message, have the right header if and only if
they are of less than 4 GiB (with the type byte). -/
theorem C28_exact {prog : Prog} {b b' : Builder} {o out} (hb : Ready b) (h : run g prog [] b = .ok (o, b', out)) (he : b'.err = none) :
    ∃ ms vs, ∃ frs : List Bytes, Exec libDur 0 prog (.ok []) (.ok ms) out vs ∧ b'.buf.data = b.buf.data ++ frs.flatten ∧
      frs.length = ms.length ∧ ∀ f ∈ frs, HeaderOK f ↔ f.length < 2 ^ 32 + 4 := by
  obtain ⟨ms, vs, frs, h1, h2, h3, h4⟩ := C28_headers_partial hb h he
  refine ⟨ms, vs, frs, h1, h2, h3, fun f hf => ⟨fun ⟨n, rest, hr, hn⟩ => ?_, h4 f hf⟩⟩
  have := readFixed_spec hr
  omega

/-- **C48**, exactly: the text is a literal for the number sent if and only if there are at least as many digits as
decimals, or the number is zero (unless the point comes before the sign). -/
theorem C48_exact {scale : UInt8} {ds : List Nat} {sign pad : Nat} (rest : Bytes) (hd : ∀ d ∈ ds, d ≤ 9) (hl : 0 < ds.length)
    (hs : 10 ≤ sign ∧ sign < 16) (hp : pad < 16) :
    (∃ text lit, decimalString (wireDecimal scale ds sign pad ++ rest) = .ok text ∧ readLiteral text = some lit ∧
      SameNumber lit (signNegative sign, digitsValue ds, scale.toNat)) ↔
    scale.toNat ≤ ds.length ∨ (digitsValue ds = 0 ∧ ¬(signNegative sign = true ∧ scale.toNat = ds.length + 1)) := by
  by_cases h1 : scale.toNat ≤ ds.length
  · obtain ⟨text, h2, h3⟩ := C48_string_exact_partial (scale := scale) (sign := sign) (pad := pad) rest hd hl h1 hs hp
    exact ⟨fun _ => .inl h1, fun _ => ⟨text, _, h2, h3, rfl, rfl⟩⟩
  · by_cases h2 : signNegative sign = true ∧ scale.toNat = ds.length + 1
    · refine ⟨fun ⟨text, lit, h3, h4, _⟩ => ?_, fun h => ?_⟩
      · exfalso
        have hb := stringLoop_spec hs hp rest ds hd [45] (by simp)
        rw [if_pos h2.1] at hb
        simp only [wireDecimal, List.cons_append, decimalString] at h3
        rw [hb, if_pos (by omega), if_pos (by simp [chars_length, h2.2])] at h3
        rw [show (([45] : Bytes) ++ chars ds).length - scale.toNat = 0 by simp [chars_length, h2.2]] at h3
        cases h3
        simp [readLiteral, readUnsigned, literalDigits] at h4
      · rcases h with h | h
        · exact absurd h h1
        · exact absurd h2 h.2
    · obtain ⟨text, h3, h4⟩ := C48_scale_dropped (scale := scale) (sign := sign) (pad := pad) rest hd hl hs hp (by
        split
        · rename_i hn; simp only [hn, true_and] at h2; omega
        · omega)
      refine ⟨fun ⟨text', lit, h5, h6, h7⟩ => ?_, fun h => ?_⟩
      · rw [h3] at h5
        cases h5
        rw [h4] at h6
        cases h6
        refine .inr ⟨?_, h2⟩
        have h8 := h7.2
        simp only [Nat.pow_zero, Nat.mul_one] at h8
        by_cases h0 : digitsValue ds = 0
        · exact h0
        · exfalso
          have : 10 ^ 1 ≤ 10 ^ scale.toNat := Nat.pow_le_pow_right (by omega) (by omega)
          have : digitsValue ds * 10 ^ 1 ≤ digitsValue ds * 10 ^ scale.toNat := Nat.mul_le_mul_left _ this
          omega
      · rcases h with h | h
        · exact absurd h h1
        · exact ⟨text, _, h3, h4, rfl, by simp [h.1]⟩

/-- 0.000 sent as one digit is "0", −0.00 as one digit is ".-0"; 0.012 as two digits is "12". -/
example : decimalString (wireDecimal 3 [0] 12 0) = .ok [48] ∧ decimalString (wireDecimal 2 [0] 13 0) = .ok [46, 45, 48] := ⟨rfl, rfl⟩

end Verif.Props
