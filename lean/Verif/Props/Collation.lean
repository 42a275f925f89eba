import Verif.Model.Collation
import Verif.Proof.TextRead
/-! C53: names of collations. -/
namespace Verif.Props
open Verif.Go Verif.Spec Verif.Model Verif.Proof

/-- Evaluates the table in one pass, if its slices are consecutive. -/
def walk : List (Nat × Nat × Nat) → Nat → Bytes → Option (List (Nat × Bytes))
  | [], _, _ => some []
  | (id, lo, hi) :: m, pos, bs =>
    if lo = pos ∧ lo ≤ hi then (walk m hi (bs.drop (hi - lo))).map fun r => (id, bs.take (hi - lo)) :: r else none

theorem walk_eq (name : Bytes) (m : List (Nat × Nat × Nat)) : ∀ pos r, walk m pos (name.drop pos) = some r →
    r = m.map fun e => (e.1, (name.drop e.2.1).take (e.2.2 - e.2.1)) := by
  induction m with
  | nil => intro pos r h; cases h; rfl
  | cons e m ih =>
    intro pos r h
    obtain ⟨id, lo, hi⟩ := e
    simp only [walk] at h
    split at h
    · rename_i hc
      obtain ⟨rfl, hle⟩ := hc
      rw [List.drop_drop, show lo + (hi - lo) = hi by omega] at h
      cases hw : walk m hi (name.drop hi) with
      | none => rw [hw] at h; cases h
      | some r' =>
        rw [hw] at h
        cases h
        rw [List.map_cons, ← ih hi r' hw]
    · cases h

/-- A letter in lower case. -/
def lower (b : UInt8) : UInt8 := if 65 ≤ b ∧ b ≤ 90 then b + 32 else b

/-- A Go identifier and a MySQL name that agree up to case and underscores. -/
def sameLetters (ident : String) (name : Bytes) : Bool := (ascii ident).map lower == name.filter (· != 95)

def checkNames (names : List (Nat × Bytes)) : Bool :=
  decide (names.map (·.2)).Nodup && names.all (fun e => e.2.head? != some 67) &&
  collationConstants.all (fun c => (names.lookup c.2).elim false (sameLetters c.1)) &&
  decide (collationConstants.map (·.2) = names.map (·.1))

set_option maxRecDepth 100000 in
theorem checked : (walk collationMap 0 collationName).map checkNames = some true := by decide +kernel

theorem checked_names : checkNames collationNames = true := by
  have h := checked
  cases hw : walk collationMap 0 collationName with
  | none => rw [hw] at h; cases h
  | some r =>
    rw [hw] at h
    have := walk_eq collationName collationMap 0 r hw
    have e : r = collationNames := this
    rw [← e]; exact Option.some.inj h

theorem lookup_mem {l : List (Nat × Bytes)} {a : Nat} {n : Bytes} (h : l.lookup a = some n) : (a, n) ∈ l := by
  induction l with
  | nil => cases h
  | cons e l ih =>
    obtain ⟨k, v⟩ := e
    rw [List.lookup_cons] at h
    split at h
    · rename_i hk
      cases h
      rw [show a = k by simpa using hk]; exact .head _
    · exact .tail _ (ih h)

theorem mem_inj {l : List (Nat × Bytes)} (hn : (l.map (·.2)).Nodup) {x y : Nat × Bytes} (hx : x ∈ l) (hy : y ∈ l) (h : x.2 = y.2) : x = y := by
  induction l with
  | nil => cases hx
  | cons e l ih =>
    rw [List.map_cons, List.nodup_cons] at hn
    cases hx with
    | head =>
      cases hy with
      | head => rfl
      | tail _ hy => exact absurd (h ▸ List.mem_map_of_mem hy) hn.1
    | tail _ hx =>
      cases hy with
      | head => exact absurd (h ▸ List.mem_map_of_mem hx) hn.1
      | tail _ hy => exact ih hn.2 hx hy

theorem splitOn_paren (n : Nat) : splitOn 41 (decimal n ++ [41]) = some (decimal n, []) :=
  splitOn_digits (by decide) (decimal_digits n) []

theorem fallback_inj {m n : Nat} (h : decimal m ++ [41] = decimal n ++ [41]) : m = n := by
  have h := List.append_cancel_right h
  have := congrArg readNat h
  rw [readNat_decimal, readNat_decimal] at this
  exact Option.some.inj this

/-- **C53.** Different collation ids have different names. -/
theorem C53_names_injective (a b : BitVec 64) (h : collationString a = collationString b) : a = b := by
  have hc := checked_names
  simp only [checkNames, Bool.and_eq_true, decide_eq_true_eq, List.all_eq_true] at hc
  obtain ⟨⟨⟨hn, hf⟩, _⟩, _⟩ := hc
  apply BitVec.eq_of_toNat_eq
  have hp : ascii "Collation(" = 67 :: [111, 108, 108, 97, 116, 105, 111, 110, 40] := by decide +kernel
  have hq : ascii ")" = [41] := by decide +kernel
  unfold collationString at h
  rw [hp, hq] at h
  cases ha : collationNames.lookup a.toNat with
  | none =>
    cases hb : collationNames.lookup b.toNat with
    | none =>
      rw [ha, hb] at h
      simp only [List.append_assoc] at h
      exact fallback_inj (List.append_cancel_left h)
    | some y =>
      rw [ha, hb] at h
      have := hf _ (lookup_mem hb)
      dsimp only at h this
      rw [← h] at this
      exact absurd this (by simp)
  | some x =>
    cases hb : collationNames.lookup b.toNat with
    | none =>
      rw [ha, hb] at h
      have := hf _ (lookup_mem ha)
      dsimp only at h this
      rw [h] at this
      exact absurd this (by simp)
    | some y =>
      rw [ha, hb] at h
      exact congrArg Prod.fst (mem_inj hn (lookup_mem ha) (lookup_mem hb) h)

/-- **C53**, the constants: every exported constant has a table entry, whose name has the letters and digits of the
constant's identifier; and every table entry has a constant. -/
theorem C53_constants : (∀ c ∈ collationConstants, ∃ name, collationNames.lookup c.2 = some name ∧
      (ascii c.1).map lower = name.filter (· != 95)) ∧
    collationConstants.map (·.2) = collationNames.map (·.1) := by
  have hc := checked_names
  simp only [checkNames, Bool.and_eq_true, decide_eq_true_eq, List.all_eq_true] at hc
  obtain ⟨⟨_, hk⟩, he⟩ := hc
  refine ⟨fun c hm => ?_, he⟩
  have := hk c hm
  cases hl : collationNames.lookup c.2 with
  | none => rw [hl] at this; cases this
  | some n =>
    rw [hl] at this
    exact ⟨n, rfl, by simpa [sameLetters] using this⟩

/-- **C53**, `IsBinary`: true of exactly the collation called "binary". -/
theorem C53_binary (c : BitVec 64) : isBinary c = true ↔ collationString c = ascii "binary" := by
  have h63 : collationString 63 = ascii "binary" := by decide +kernel
  constructor
  · intro h
    have : c = 63 := BitVec.eq_of_toNat_eq (by simpa [isBinary] using h)
    rw [this, h63]
  · intro h
    rw [C53_names_injective c 63 (h.trans h63.symm)]; rfl

/-- Two entries, and an id that has none. -/
example : collationString 63 = ascii "binary" ∧ isBinary 63 = true ∧ collationString 0 = ascii "Collation(0)" := by decide +kernel
example : ("UTF8mb4GeneralCi", 45) ∈ collationConstants := by decide +kernel

end Verif.Props
