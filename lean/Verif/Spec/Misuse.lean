import Verif.Spec.Unit
/-! Client programs that ask for a panic. -/
namespace Verif.Spec
open Verif.Go
open Verif.Model (Val Err Prog Call Criteria RowStep SetStep OuterCall)

mutual
/-- The value is or contains a nil expression, or a nil pointer to one of the library's own value types. -/
def hazard : Val → Bool
  | .nilFn => true
  | .nilPtr own => own
  | .ptr v => hazard v
  | .op _ ps => hazards ps
  | .call _ ps => hazards ps
  | _ => false
def hazards : List Val → Bool
  | [] => false
  | v :: vs => hazard v || hazards vs
end

/-- some value handed to the call is hazardous -/
def callHazard : Call → Bool
  | .stmtExecute _ args => hazards args
  | .prepare .. => false
  | .execute _ args => hazards args
  | .deallocate _ => false
  | .insert _ _ data => data.any hazards
  | .insertRow _ _ row => hazards row
  | .update _ crit sets => crit.any hazard || sets.any fun s => hazard s.2
  | .delete _ crit => crit.any hazard

variable (dt : BitVec 64 → Bytes)

/-- `Misuse n prog s`: run inside `n` enclosing callbacks on a unit of work in state `s`, program `prog` gets to
the point where it uses one of the enclosing builders, or where it hands a hazardous value to a builder that
has not failed. -/
inductive Misuse : Nat → Prog → UState → Prop
  | outer {n d c k s} : d < n → Misuse n (.outer d c k) s
  | value {n c k ms} : callHazard c = true → Misuse n (.call c k) (.ok ms)
  | rows {n t cols body err k ms} : ((rowArgs body).any hazards = true ∨ ¬RowsPure (n + 1) body) →
      Misuse n (.insertF t cols body err k) (.ok ms)
  | sets {n t crit body err k ms} : (crit.any hazard = true ∨ ((setArgs body).any fun s => hazard s.2) = true ∨
      ¬SetsPure (n + 1) body) → Misuse n (.updateF t crit body err k) (.ok ms)
  | tx {n level body k ms ss} : txOpening level.toNat = some ss → Misuse (n + 1) body (.ok (ms ++ ss.map sql)) →
      Misuse n (.tx level body k) (.ok ms)
  | expect {n op body k ms} : Misuse (n + 1) body (.ok (ms ++ [.expectOpen op.toNat [(1, ascii "1")]])) →
      Misuse n (.expect op body k) (.ok ms)
  -- later
  | afterCall {n c k ms m r} : Asked dt c m r → Misuse n (k r) (.ok (ms ++ m)) → Misuse n (.call c k) (.ok ms)
  | afterFail {n c k ms e} : (∀ m r, ¬Asked dt c m r) → Misuse n (k none) (.error e) → Misuse n (.call c k) (.ok ms)
  | afterSkip {n c k e} : Misuse n (k none) (.error e) → Misuse n (.call c k) (.error e)
  | afterTx {n level body k ms ss ms' o vs} : txOpening level.toNat = some ss →
      Exec dt (n + 1) body (.ok (ms ++ ss.map sql)) (.ok ms') o vs →
      Misuse n (k o) (.ok (ms' ++ [sql "COMMIT"])) → Misuse n (.tx level body k) (.ok ms)
  | afterTxFail {n level body k ms ss e o vs} : txOpening level.toNat = some ss →
      Exec dt (n + 1) body (.ok (ms ++ ss.map sql)) (.error e) o vs → Misuse n (k o) (.error e) →
      Misuse n (.tx level body k) (.ok ms)
  | afterTxLevel {n level body k ms} : txOpening level.toNat = none → Misuse n (k []) (.error .isolation) →
      Misuse n (.tx level body k) (.ok ms)
  | afterTxSkip {n level body k e} : Misuse n (k []) (.error e) → Misuse n (.tx level body k) (.error e)
  | afterExpect {n op body k ms ms' o vs} :
      Exec dt (n + 1) body (.ok (ms ++ [.expectOpen op.toNat [(1, ascii "1")]])) (.ok ms') o vs →
      Misuse n (k o) (.ok (ms' ++ [.expectClose])) → Misuse n (.expect op body k) (.ok ms)
  | afterExpectFail {n op body k ms e o vs} :
      Exec dt (n + 1) body (.ok (ms ++ [.expectOpen op.toNat [(1, ascii "1")]])) (.error e) o vs →
      Misuse n (k o) (.error e) → Misuse n (.expect op body k) (.ok ms)
  | afterExpectSkip {n op body k e} : Misuse n (k []) (.error e) → Misuse n (.expect op body k) (.error e)
  | afterInsertF {n t cols body err k ms rs} : Rows dt (rowArgs body) rs →
      Misuse n k (.ok (ms ++ [.insert t (some 2) cols rs])) → Misuse n (.insertF t cols body err k) (.ok ms)
  | afterInsertFFail {n t cols body err k ms e} : (∀ rs, ¬Rows dt (rowArgs body) rs) → Misuse n k (.error e) →
      Misuse n (.insertF t cols body err k) (.ok ms)
  | afterInsertFSkip {n t cols body err k e} : Misuse n k (.error e) → Misuse n (.insertF t cols body err k) (.error e)
  | afterUpdateF {n t crit c body err k ms ss} : Crit dt crit c → Sets dt (setArgs body) ss →
      Misuse n k (.ok (ms ++ [.update t (some 2) c ss])) → Misuse n (.updateF t crit body err k) (.ok ms)
  | afterUpdateFFail {n t crit body err k ms e} : (∀ c ss, ¬(Crit dt crit c ∧ Sets dt (setArgs body) ss)) →
      Misuse n k (.error e) → Misuse n (.updateF t crit body err k) (.ok ms)
  | afterUpdateFSkip {n t crit body err k e} : Misuse n k (.error e) → Misuse n (.updateF t crit body err k) (.error e)
  | afterOuter {n d c k s} : n ≤ d → Misuse n k s → Misuse n (.outer d c k) s

end Verif.Spec
