import Verif.Model.ErrCodes
import Verif.Model.Connector
/-! C78: the constants for server errors. -/
namespace Verif.Props
open Verif.Go Verif.Model

/-- strictly increasing -/
def increasing : Nat → List (String × Nat) → Bool
  | _, [] => true
  | n, e :: es => Nat.blt n e.2 && increasing e.2 es

theorem increasing_above : ∀ {es : List (String × Nat)} {n : Nat}, increasing n es = true → ∀ e ∈ es, n < e.2
  | [], _, _, _, h => by cases h
  | x :: es, n, h, e, he => by
    simp only [increasing, Bool.and_eq_true, Nat.blt_eq] at h
    rcases List.mem_cons.mp he with rfl | he
    · exact h.1
    · exact Nat.lt_trans h.1 (increasing_above h.2 e he)

theorem increasing_inj : ∀ {es : List (String × Nat)} {n : Nat}, increasing n es = true → ∀ x ∈ es, ∀ y ∈ es, x.2 = y.2 → x = y
  | [], _, _, _, h => by cases h
  | e :: es, n, h, x, hx => by
    simp only [increasing, Bool.and_eq_true, Nat.blt_eq] at h
    intro y hy hxy
    rcases List.mem_cons.mp hx with rfl | hx' <;> rcases List.mem_cons.mp hy with rfl | hy'
    · rfl
    · have := increasing_above h.2 y hy'; omega
    · have := increasing_above h.2 x hx'; omega
    · exact increasing_inj h.2 x hx' y hy' hxy

/-- Where MySQL puts errors that a server sends: the old and the new range of the server, the range of the X plugin. -/
def ServerRange (n : Nat) : Prop := 1000 ≤ n ∧ n < 2000 ∨ 3000 ≤ n ∧ n < 4000 ∨ 5000 ≤ n ∧ n < 6000

instance (n : Nat) : Decidable (ServerRange n) := by unfold ServerRange; infer_instance

set_option maxRecDepth 100000 in
theorem codes_increasing : increasing 999 errCodes = true := by decide +kernel

set_option maxRecDepth 100000 in
theorem codes_range : errCodes.all (fun e => decide (ServerRange e.2)) = true := by decide +kernel

/-- C78: no two constants have the same code, so the code of an error is that of one constant at most; and all are codes that a
server sends. -/
theorem C78_codes : (∀ x ∈ errCodes, ∀ y ∈ errCodes, x.2 = y.2 → x = y) ∧ ∀ x ∈ errCodes, ServerRange x.2 :=
  ⟨increasing_inj codes_increasing, fun x hx => of_decide_eq_true (List.all_eq_true.mp codes_range x hx)⟩

set_option maxRecDepth 100000 in
theorem denied_mem : ("ErAccessDeniedError", 1045) ∈ errCodes := by
  have : errCodes.any (fun e => Nat.beq e.2 1045 && e.1 == "ErAccessDeniedError") = true := by decide +kernel
  obtain ⟨⟨n, c⟩, he, h⟩ := List.any_eq_true.mp this
  simp only [Bool.and_eq_true, beq_iff_eq, Nat.beq_eq] at h
  obtain ⟨rfl, rfl⟩ := h
  exact he

set_option maxRecDepth 100000 in
theorem denied_only : errCodes.all (fun e => e.1 != "ErAccessDeniedError" || Nat.beq e.2 1045) = true := by decide +kernel

/-- C78: the errors on which `New` falls back to PLAIN are those whose code is that of `ErAccessDeniedError`. -/
theorem C78_denied (e : SrvError) : denied (.read (.mysqlx e)) = true ↔ ∃ x ∈ errCodes, x.1 = "ErAccessDeniedError" ∧ x.2 = e.code := by
  constructor
  · intro h
    exact ⟨_, denied_mem, rfl, (of_decide_eq_true h).symm⟩
  · rintro ⟨x, hx, h1, h2⟩
    have := List.all_eq_true.mp denied_only x hx
    simp only [Bool.or_eq_true, bne_iff_ne, h1, ne_eq, not_true_eq_false, false_or, Nat.beq_eq] at this
    simp [denied, ← h2, this]

example : denied (.read (.mysqlx ⟨1, 1045, [], []⟩)) = true ∧ denied (.read (.mysqlx ⟨1, 1698, [], []⟩)) = false := by decide

end Verif.Props
