import Verif.Spec.Message
/-! Equality of messages is decidable (for the examples). -/
namespace Verif.Proof
open Verif.Go Verif.Spec

deriving instance DecidableEq for PScalar

mutual
def beqE : PExpr → PExpr → Bool
  | .ident a, .ident b => a == b
  | .literal a, .literal b => decide (a = b)
  | .variable a, .variable b => a == b
  | .funcCall a p, .funcCall b q => a == b && beqEs p q
  | .operator a p, .operator b q => a == b && beqEs p q
  | .placeholder a, .placeholder b => a == b
  | _, _ => false
def beqEs : List PExpr → List PExpr → Bool
  | [], [] => true
  | a :: as, b :: bs => beqE a b && beqEs as bs
  | _, _ => false
end

mutual
theorem beqE_iff : ∀ a b, beqE a b = true ↔ a = b
  | .ident a, b => by cases b <;> simp [beqE]
  | .literal a, b => by cases b <;> simp [beqE]
  | .variable a, b => by cases b <;> simp [beqE]
  | .funcCall a p, b => by cases b <;> simp [beqE, beqEs_iff p]
  | .operator a p, b => by cases b <;> simp [beqE, beqEs_iff p]
  | .placeholder a, b => by cases b <;> simp [beqE]
theorem beqEs_iff : ∀ a b, beqEs a b = true ↔ a = b
  | [], b => by cases b <;> simp [beqEs]
  | a :: as, b => by cases b <;> simp [beqEs, beqE_iff a, beqEs_iff as]
end

instance : DecidableEq PExpr := fun a b => decidable_of_iff _ (beqE_iff a b)

deriving instance DecidableEq for ClientMsg

example : decodeStream [1, 0, 0, 0, 25] = some [.expectClose] := by decide +kernel

end Verif.Proof
