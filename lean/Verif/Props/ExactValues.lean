import Verif.Props.Values
import Verif.Props.Exprs
/-! Where properties that the code violates hold, exactly: C07, C23, C27. -/
namespace Verif.Props
open Verif.Go Verif.Spec Verif.Model Verif.Proof

/-- **C07**, exactly: of all durations only `math.MinInt64` nanoseconds is sent wrongly. -/
theorem C07_exact (d : BitVec 64) : (∀ (g : Grow) (p : Slice) (tag : UInt8), SmallTag tag → ∃ text : Bytes,
      readDuration text = some (d.toInt.tdiv 1000000000) ∧
      Writes (appendAny g p tag (.duration d)) p (fun bs => AnyField tag.toNat bs (.octets text none)) ∧
      Writes (appendExpr g p tag (.duration d)) p (fun bs => ExprField tag.toNat bs (.literal (.octets text none)))) ↔
    d ≠ BitVec.intMin 64 := by
  constructor
  · rintro h rfl
    refine C07_min_wrong fun g p tag ht d => ?_
    by_cases hd : d = BitVec.intMin 64
    · subst hd; exact h g p tag ht
    · exact C07_duration_exact_partial ht d hd
  · intro hd g p tag ht
    exact C07_duration_exact_partial ht d hd

/-- **C23**, exactly: of the binary operators only `Regexp`, of the ternary ones only `NotBetween` is not sent under a name the protocol knows
for it. -/
theorem C23_exact :
    (∀ k, (∀ a b x y, Operand a x → Operand b y → k.documented ∈ protocolOperators ∧
      Sent (binary k a b) (.operator (ascii k.documented) [x, y])) ↔ k ≠ .regexp) ∧
    (∀ k, (∀ a b c x y z, Operand a x → Operand b y → Operand c z → k.documented ∈ protocolOperators ∧
      Sent (ternary k a b c) (.operator (ascii k.documented) [x, y, z])) ↔ k ≠ .notBetween) := by
  have hc : Operand (.column []) (.ident []) := ⟨rfl, rfl⟩
  refine ⟨fun k => ⟨?_, fun hk a b x y ha hb => C23_operators_partial.2.1 k a b x y hk ha hb⟩,
    fun k => ⟨?_, fun hk a b c x y z ha hb hc => C23_operators_partial.2.2.1 k a b c x y z hk ha hb hc⟩⟩
  · rintro h rfl
    have := Sent.unique (h _ _ _ _ hc hc).2 (C23_wrong.2.1 _ _ _ _ hc hc) ⟨_, rfl, by decide +kernel⟩
    simp only [PExpr.operator.injEq] at this
    exact absurd this.1 (by decide)
  · rintro h rfl
    have := Sent.unique (h _ _ _ _ _ _ hc hc hc).2 (C23_wrong.2.2.1 _ _ _ _ _ _ hc hc hc) ⟨_, rfl, by decide +kernel⟩
    simp only [PExpr.operator.injEq] at this
    exact absurd this.1 (by decide)

/-- nothing can be said of a nil interface behind pointers -/
theorem ptrs_nil (n : Nat) : appendAny grow0 ⟨[], []⟩ 2 (ptrs (n + 1) .nil) = .ok (Slice.nil, some .unsupportedType) := by
  induction n with
  | zero => rfl
  | succ n ih => rw [ptrs, ptrs] at *; exact ih

theorem ptrs_nilPtr (n : Nat) : appendAny grow0 ⟨[], []⟩ 2 (ptrs n (.nilPtr true)) = .error .panic := by
  induction n with
  | zero => rfl
  | succ n ih =>
    cases n with
    | zero => rfl
    | succ n => rw [ptrs, ptrs] at *; exact ih

/-- **C27**, exactly: a pointer (to a pointer, and so on) means what it points to unless that is a nil interface, and a nil pointer NULL
unless its type is one of the library's own. -/
theorem C27_exact :
    (∀ n v s, argMeaning v = some s → ((∀ (g : Grow) (p : Slice) (tag : UInt8), SmallTag tag →
      Writes (appendAny g p tag (ptrs (n + 1) v)) p fun bs => bs.length < 2 ^ 63 → AnyField tag.toNat bs s) ↔ v ≠ .nil)) ∧
    (∀ n b, (∀ (g : Grow) (p : Slice) (tag : UInt8), SmallTag tag →
      Writes (appendAny g p tag (ptrs n (.nilPtr b))) p fun bs => AnyField tag.toNat bs .null) ↔ b = false) := by
  refine ⟨fun n v s hs => ⟨?_, fun hv g p tag ht => (C27_pointers_partial ht).1 (n + 1) v s hv hs⟩, fun n b => ⟨?_, ?_⟩⟩
  · rintro h rfl
    rcases h grow0 ⟨[], []⟩ 2 ⟨by decide, by decide⟩ with h | ⟨bs, sp, h, _⟩
    · rw [ptrs_nil] at h; cases h
    · rw [ptrs_nil] at h; cases h
  · intro h
    cases b with
    | false => rfl
    | true =>
      rcases h grow0 ⟨[], []⟩ 2 ⟨by decide, by decide⟩ with h | ⟨bs, sp, h, _⟩
      · rw [ptrs_nilPtr] at h; cases h
      · rw [ptrs_nilPtr] at h; cases h
  · rintro rfl g p tag ht
    exact (C27_pointers_partial ht).2 n

example : argMeaning .nil = some .null := rfl

end Verif.Props
