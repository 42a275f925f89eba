import Verif.Spec.Meaning
import Verif.Model.Builder
/-! Which value an error is about.  The errors of the library carry positions ("parameter 2: column 0: ..."); here is
what these positions must mean, stated over the values that were passed and what they stand for (`exprOf`,
`argScalarOf`), not over the encoders. -/
namespace Verif.Spec
open Verif.Go
open Verif.Model (Val Err Call Criteria fmtTime)

section
variable (dt : BitVec 64 → Bytes)

/-- The value stands for an expression. -/
def Fine (v : Val) : Prop := (exprOf dt fmtTime v).isSome

/-- The values of a list in front of position `j` are fine. -/
def FineBefore (vs : List Val) (j : Nat) : Prop := ∀ v ∈ vs.take j, Fine dt v

/-- `Blames e v`: the error `e` leads to the first offending part of the value `v`, parameters of operators and
functions being numbered from 0. -/
inductive Blames : Err → Val → Prop
  | value {v} : ¬Fine dt v → (∀ n ps, v ≠ .op n ps ∧ v ≠ .call n ps) → Blames .unknownType v
  | op {n ps j v e} : ps[j]? = some v → FineBefore dt ps j → Blames e v → Blames (.param j e) (.op n ps)
  | call {n ps j v e} : ps[j]? = some v → FineBefore dt ps j → Blames e v → Blames (.param j e) (.call n ps)

/-- The error names the position in the row of the first value that is not fine. -/
inductive RowBlames : Err → List Val → Prop
  | column {row j v e} : row[j]? = some v → FineBefore dt row j → Blames dt e v → RowBlames (.column j e) row

/-- The first row with an offending value, of rows of any length.  (The error does not say which row it is.) -/
def RowsBlame (e : Err) (rows : List (List Val)) : Prop :=
  ∃ i row, rows[i]? = some row ∧ (∀ r ∈ rows.take i, ∀ v ∈ r, Fine dt v) ∧ RowBlames dt e row

/-- The criteria, or else the first offending assignment.  (The error does not say which column it is.) -/
def UpdateBlames (e : Err) (crit : Criteria) (sets : List (Bytes × Val)) : Prop :=
  (∃ c, crit = some c ∧ Blames dt e c) ∨
  (∀ c, crit = some c → Fine dt c) ∧ ∃ i s, sets[i]? = some s ∧ (∀ s ∈ sets.take i, Fine dt s.2) ∧ Blames dt e s.2

/-- `CallBlames c e`: the error `e` is the right one for the call `c`. -/
inductive CallBlames : Call → Err → Prop
  | stmtExecute {s args} : (∃ a ∈ args, argScalarOf dt fmtTime a = none) → CallBlames (.stmtExecute s args) .unsupportedType
  | execute {id args} : (∃ a ∈ args, argScalarOf dt fmtTime a = none) → CallBlames (.execute id args) .unsupportedType
  | insertLength {t cols data i row} : data[i]? = some row → row.length ≠ cols.length →
      (∀ r ∈ data.take i, r.length = cols.length ∧ ∀ v ∈ r, Fine dt v) →
      CallBlames (.insert t cols data) (.rowLen i cols.length row.length)
  | insertValue {t cols data i row e} : data[i]? = some row → row.length = cols.length →
      (∀ r ∈ data.take i, r.length = cols.length ∧ ∀ v ∈ r, Fine dt v) → RowBlames dt e row →
      CallBlames (.insert t cols data) e
  | insertRow {t cols row e} : RowBlames dt e row → CallBlames (.insertRow t cols row) e
  | update {t crit sets e} : UpdateBlames dt e crit sets → CallBlames (.update t crit sets) e
  | delete {t c e} : Blames dt e c → CallBlames (.delete t (some c)) e

end
end Verif.Spec
