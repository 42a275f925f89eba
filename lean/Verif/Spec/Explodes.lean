import Verif.Spec.Unit
/-! Exactly how client programs end, panics included.  `Misuse` names programs that might panic; here it is said which
do: values are looked at in order, and one that is refused keeps those behind it from being looked at.  As in
`Spec.Unit` only the messages, and the values passed, are spoken of. -/
namespace Verif.Spec
open Verif.Go
open Verif.Model (Val Err Prog Call Criteria RowStep SetStep OuterCall fmtTime)

/-- Some element of the list is bad, and those in front of it are good. -/
def FirstBad {α : Type} (good bad : α → Prop) (l : List α) : Prop :=
  ∃ i x, l[i]? = some x ∧ (∀ y ∈ l.take i, good y) ∧ bad x

section
variable (dt : BitVec 64 → Bytes)

/-- Encoding the value as an expression panics: it is a nil function or a nil pointer to one of the library's own types,
or an operator or function call whose first offending parameter panics. -/
inductive Explodes : Val → Prop
  | nilFn : Explodes .nilFn
  | nilPtr : Explodes (.nilPtr true)
  | op {name ps j v} : ps[j]? = some v → FineBefore dt ps j → Explodes v → Explodes (.op name ps)
  | call {name ps j v} : ps[j]? = some v → FineBefore dt ps j → Explodes v → Explodes (.call name ps)

/-- the values of a row: the first that is not fine panics -/
def RowExplodes (row : List Val) : Prop := FirstBad (Fine dt) (Explodes dt) row

/-- the same of statement arguments -/
def ArgsExplode (args : List Val) : Prop :=
  FirstBad (fun a => (argScalarOf dt fmtTime a).isSome) (fun a => argPanics a = true) args

/-- rows of any length -/
def RowsExplode (rows : List (List Val)) : Prop := FirstBad (fun r => ∀ v ∈ r, Fine dt v) (RowExplodes dt) rows

/-- criteria and assignments -/
def UpdateExplodes (crit : Criteria) (sets : List (Bytes × Val)) : Prop :=
  (∃ c, crit = some c ∧ Explodes dt c) ∨
  (∀ c, crit = some c → Fine dt c) ∧ FirstBad (fun s => Fine dt s.2) (fun s => Explodes dt s.2) sets

/-- The call panics on a builder without error. -/
def CallExplodes : Call → Prop
  | .stmtExecute _ args => ArgsExplode dt args
  | .prepare .. => False
  | .execute _ args => ArgsExplode dt args
  | .deallocate _ => False
  | .insert _ cols data => FirstBad (fun r => r.length = cols.length ∧ ∀ v ∈ r, Fine dt v)
      (fun r => r.length = cols.length ∧ RowExplodes dt r) data
  | .insertRow _ _ row => RowExplodes dt row
  | .update _ crit sets => UpdateExplodes dt crit sets
  | .delete _ crit => ∃ c, crit = some c ∧ Explodes dt c

/-- how the variables of `InsertRow` are named: by the messages of the unit of work up to the insert itself -/
abbrev Naming := List ClientMsg → Bytes

variable (nm : Naming)

/-- `Finishes n prog s x`: run inside `n` enclosing callbacks on a unit of work in state `s`, program `prog` panics
(`x = none`) or returns, leaving the unit of work in a state and handing out values (`x = some (s', out)`). -/
inductive Finishes : Nat → Prog → UState → Option (UState × List (Option Val)) → Prop
  | ret {n err out s} : Finishes n (.ret err out) s (some (s, out))
  -- calls
  | call {n c k ms m r x} : Asked dt c m r → (∀ v, r = some v → v = .variable (nm (ms ++ m.dropLast))) →
      Finishes n (k r) (.ok (ms ++ m)) x → Finishes n (.call c k) (.ok ms) x
  | callFail {n c k ms e x} : (∀ m r, ¬Asked dt c m r) → ¬CallExplodes dt c → CallBlames dt c e →
      Finishes n (k none) (.error e) x → Finishes n (.call c k) (.ok ms) x
  | callPanic {n c k ms} : CallExplodes dt c → Finishes n (.call c k) (.ok ms) none
  | callSkip {n c k e x} : Finishes n (k none) (.error e) x → Finishes n (.call c k) (.error e) x
  -- transactions
  | tx {n level body k ms ss ms' o x} : txOpening level.toNat = some ss →
      Finishes (n + 1) body (.ok (ms ++ ss.map sql)) (some (.ok ms', o)) →
      Finishes n (k o) (.ok (ms' ++ [sql "COMMIT"])) x → Finishes n (.tx level body k) (.ok ms) x
  | txFail {n level body k ms ss e o x} : txOpening level.toNat = some ss →
      Finishes (n + 1) body (.ok (ms ++ ss.map sql)) (some (.error e, o)) → Finishes n (k o) (.error e) x →
      Finishes n (.tx level body k) (.ok ms) x
  | txPanic {n level body k ms ss} : txOpening level.toNat = some ss →
      Finishes (n + 1) body (.ok (ms ++ ss.map sql)) none → Finishes n (.tx level body k) (.ok ms) none
  | txLevel {n level body k ms x} : txOpening level.toNat = none → Finishes n (k []) (.error .isolation) x →
      Finishes n (.tx level body k) (.ok ms) x
  | txSkip {n level body k e x} : Finishes n (k []) (.error e) x → Finishes n (.tx level body k) (.error e) x
  -- expectation blocks
  | expect {n op body k ms ms' o x} :
      Finishes (n + 1) body (.ok (ms ++ [.expectOpen op.toNat [(1, ascii "1")]])) (some (.ok ms', o)) →
      Finishes n (k o) (.ok (ms' ++ [.expectClose])) x → Finishes n (.expect op body k) (.ok ms) x
  | expectFail {n op body k ms e o x} :
      Finishes (n + 1) body (.ok (ms ++ [.expectOpen op.toNat [(1, ascii "1")]])) (some (.error e, o)) →
      Finishes n (k o) (.error e) x → Finishes n (.expect op body k) (.ok ms) x
  | expectPanic {n op body k ms} :
      Finishes (n + 1) body (.ok (ms ++ [.expectOpen op.toNat [(1, ascii "1")]])) none →
      Finishes n (.expect op body k) (.ok ms) none
  | expectSkip {n op body k e x} : Finishes n (k []) (.error e) x → Finishes n (.expect op body k) (.error e) x
  -- InsertF: the use of an enclosing builder panics even behind a failed row
  | insertF {n t cols body err k ms rs x} : RowsPure (n + 1) body → Rows dt (rowArgs body) rs →
      Finishes n k (.ok (ms ++ [.insert t (some 2) cols rs])) x → Finishes n (.insertF t cols body err k) (.ok ms) x
  | insertFFail {n t cols body err k ms e x} : RowsPure (n + 1) body → (∀ rs, ¬Rows dt (rowArgs body) rs) →
      ¬RowsExplode dt (rowArgs body) → RowsBlame dt e (rowArgs body) →
      Finishes n k (.error e) x → Finishes n (.insertF t cols body err k) (.ok ms) x
  | insertFPanic {n t cols body err k ms} : (¬RowsPure (n + 1) body ∨ RowsExplode dt (rowArgs body)) →
      Finishes n (.insertF t cols body err k) (.ok ms) none
  | insertFSkip {n t cols body err k e x} : Finishes n k (.error e) x → Finishes n (.insertF t cols body err k) (.error e) x
  -- UpdateF: likewise; the callback runs even if the criteria is refused
  | updateF {n t crit c body err k ms ss x} : SetsPure (n + 1) body → Crit dt crit c → Sets dt (setArgs body) ss →
      Finishes n k (.ok (ms ++ [.update t (some 2) c ss])) x → Finishes n (.updateF t crit body err k) (.ok ms) x
  | updateFFail {n t crit body err k ms e x} : SetsPure (n + 1) body →
      (∀ c ss, ¬(Crit dt crit c ∧ Sets dt (setArgs body) ss)) → ¬UpdateExplodes dt crit (setArgs body) →
      UpdateBlames dt e crit (setArgs body) → Finishes n k (.error e) x → Finishes n (.updateF t crit body err k) (.ok ms) x
  | updateFPanic {n t crit body err k ms} : (¬SetsPure (n + 1) body ∨ UpdateExplodes dt crit (setArgs body)) →
      Finishes n (.updateF t crit body err k) (.ok ms) none
  | updateFSkip {n t crit body err k e x} : Finishes n k (.error e) x → Finishes n (.updateF t crit body err k) (.error e) x
  -- enclosing builders
  | outer {n d c k s x} : n ≤ d → Finishes n k s x → Finishes n (.outer d c k) s x
  | outerPanic {n d c k s} : d < n → Finishes n (.outer d c k) s none

end
end Verif.Spec
