import Verif.Spec.Unit
/-! What it means that data cannot become code: programs that differ in their data only, and messages that differ in their
literals only. -/
namespace Verif.Spec
open Verif.Go
open Verif.Model (Val Prog Call Criteria RowStep SetStep)

/-- Two lists of the same length, related element by element. -/
inductive Along {α β : Type} (R : α → β → Prop) : List α → List β → Prop
  | nil : Along R [] []
  | cons {a b as bs} : R a b → Along R as bs → Along R (a :: as) (b :: bs)

/-- Values that are data, whoever chose them: all but the expressions built by expr.go, `InsertRow` and
`AppendExprPlaceholder`, and nil functions. -/
def isData : Val → Bool
  | .column _ | .op .. | .call .. | .variable _ | .placeholder _ | .nilFn => false
  | .ptr v => isData v
  | _ => true

section
-- ρ: which names of variables correspond to each other
variable (ρ : Bytes → Bytes → Prop)

mutual
/-- Values that differ in data only: any piece of data may stand for any other, of whatever type. -/
inductive ValAlike : Val → Val → Prop
  | data {v w} : isData v = true → isData w = true → ValAlike v w
  | column {n} : ValAlike (.column n) (.column n)
  | variable {v w} : ρ v w → ValAlike (.variable v) (.variable w)
  | placeholder {p} : ValAlike (.placeholder p) (.placeholder p)
  | nilFn : ValAlike .nilFn .nilFn
  | op {n vs ws} : ValsAlike vs ws → ValAlike (.op n vs) (.op n ws)
  | call {n vs ws} : ValsAlike vs ws → ValAlike (.call n vs) (.call n ws)
inductive ValsAlike : List Val → List Val → Prop
  | nil : ValsAlike [] []
  | cons {v w vs ws} : ValAlike v w → ValsAlike vs ws → ValsAlike (v :: vs) (w :: ws)
end

inductive OptAlike {α β : Type} (R : α → β → Prop) : Option α → Option β → Prop
  | none : OptAlike R none none
  | some {a b} : R a b → OptAlike R (some a) (some b)

/-- The same column, values that differ in data only. -/
def SetAlike (x y : Bytes × Val) : Prop := x.1 = y.1 ∧ ValAlike ρ x.2 y.2

inductive CallAlike : Call → Call → Prop
  | stmtExecute {s as bs} : ValsAlike ρ as bs → CallAlike (.stmtExecute s as) (.stmtExecute s bs)
  | prepare {id s} : CallAlike (.prepare id s) (.prepare id s)
  | execute {id as bs} : ValsAlike ρ as bs → CallAlike (.execute id as) (.execute id bs)
  | deallocate {id} : CallAlike (.deallocate id) (.deallocate id)
  | insert {t cols as bs} : Along (ValsAlike ρ) as bs → CallAlike (.insert t cols as) (.insert t cols bs)
  | insertRow {t cols as bs} : ValsAlike ρ as bs → CallAlike (.insertRow t cols as) (.insertRow t cols bs)
  | update {t c d xs ys} : OptAlike (ValAlike ρ) c d → Along (SetAlike ρ) xs ys → CallAlike (.update t c xs) (.update t d ys)
  | delete {t c d} : OptAlike (ValAlike ρ) c d → CallAlike (.delete t c) (.delete t d)

inductive RowStepAlike : RowStep → RowStep → Prop
  | row {as bs} : ValsAlike ρ as bs → RowStepAlike (.row as) (.row bs)
  | outer {d c} : RowStepAlike (.outer d c) (.outer d c)

inductive SetStepAlike : SetStep → SetStep → Prop
  | set {n v w} : ValAlike ρ v w → SetStepAlike (.set n v) (.set n w)
  | outer {d c} : SetStepAlike (.outer d c) (.outer d c)

/-- Programs that make the same calls with the same statements, tables, columns and operators, on different data.  They may
pass on the variables they get from `InsertRow`, but not look at them. -/
inductive ProgAlike : Prog → Prog → Prop
  | ret {e e' o o'} : Along (OptAlike (ValAlike ρ)) o o' → ProgAlike (.ret e o) (.ret e' o')
  | call {c c' k k'} : CallAlike ρ c c' → (∀ r r', OptAlike (ValAlike ρ) r r' → ProgAlike (k r) (k' r')) →
      ProgAlike (.call c k) (.call c' k')
  | tx {l p p' k k'} : ProgAlike p p' → (∀ o o', Along (OptAlike (ValAlike ρ)) o o' → ProgAlike (k o) (k' o')) →
      ProgAlike (.tx l p k) (.tx l p' k')
  | expect {op p p' k k'} : ProgAlike p p' → (∀ o o', Along (OptAlike (ValAlike ρ)) o o' → ProgAlike (k o) (k' o')) →
      ProgAlike (.expect op p k) (.expect op p' k')
  | insertF {t cols b b' e e' k k'} : Along (RowStepAlike ρ) b b' → ProgAlike k k' →
      ProgAlike (.insertF t cols b e k) (.insertF t cols b' e' k')
  | updateF {t c c' b b' e e' k k'} : OptAlike (ValAlike ρ) c c' → Along (SetStepAlike ρ) b b' → ProgAlike k k' →
      ProgAlike (.updateF t c b e k) (.updateF t c' b' e' k')
  | outer {d c k k'} : ProgAlike k k' → ProgAlike (.outer d c k) (.outer d c k')

mutual
/-- Expressions that differ in literals only: a literal stays a literal. -/
inductive ExprAlike : PExpr → PExpr → Prop
  | literal {s s'} : ExprAlike (.literal s) (.literal s')
  | ident {n} : ExprAlike (.ident n) (.ident n)
  | variable {v w} : ρ v w → ExprAlike (.variable v) (.variable w)
  | placeholder {p} : ExprAlike (.placeholder p) (.placeholder p)
  | operator {n es fs} : ExprsAlike es fs → ExprAlike (.operator n es) (.operator n fs)
  | funcCall {n es fs} : ExprsAlike es fs → ExprAlike (.funcCall n es) (.funcCall n fs)
inductive ExprsAlike : List PExpr → List PExpr → Prop
  | nil : ExprsAlike [] []
  | cons {e f es fs} : ExprAlike e f → ExprsAlike es fs → ExprsAlike (e :: es) (f :: fs)
end

/-- Messages that differ in literals only: same kind, same statement text, same table, columns, operators, same number of
arguments. -/
inductive MsgAlike : ClientMsg → ClientMsg → Prop
  | stmtExecute {s as bs} : as.length = bs.length → MsgAlike (.stmtExecute s as) (.stmtExecute s bs)
  /-- `SET v = LAST_INSERT_ID()` of corresponding variables -/
  | capture {v w} : ρ v w → MsgAlike (captureId v) (captureId w)
  | prepare {id s} : MsgAlike (.prepare id s) (.prepare id s)
  | execute {id as bs} : as.length = bs.length → MsgAlike (.execute id as) (.execute id bs)
  | deallocate {id} : MsgAlike (.deallocate id) (.deallocate id)
  | insert {t dm cols rs rs'} : Along (ExprsAlike ρ) rs rs' → MsgAlike (.insert t dm cols rs) (.insert t dm cols rs')
  | update {t dm c c' ss ss'} : OptAlike (ExprAlike ρ) c c' → Along (fun x y => x.1 = y.1 ∧ ExprAlike ρ x.2 y.2) ss ss' →
      MsgAlike (.update t dm c ss) (.update t dm c' ss')
  | delete {t dm c c'} : OptAlike (ExprAlike ρ) c c' → MsgAlike (.delete t dm c) (.delete t dm c')
  | expectOpen {op cs} : MsgAlike (.expectOpen op cs) (.expectOpen op cs)
  | expectClose : MsgAlike .expectClose .expectClose

end

/-- The program gives this text to `StmtExecute` or `Prepare`, on some path. -/
inductive Gives : Prog → Bytes → Prop
  | stmtExecute {s args k} : Gives (.call (.stmtExecute s args) k) s
  | prepare {id s k} : Gives (.call (.prepare id s) k) s
  | call {c k r t} : Gives (k r) t → Gives (.call c k) t
  | txBody {l p k t} : Gives p t → Gives (.tx l p k) t
  | tx {l p k o t} : Gives (k o) t → Gives (.tx l p k) t
  | expectBody {op p k t} : Gives p t → Gives (.expect op p k) t
  | expect {op p k o t} : Gives (k o) t → Gives (.expect op p k) t
  | insertF {n cols b e k t} : Gives k t → Gives (.insertF n cols b e k) t
  | updateF {n c b e k t} : Gives k t → Gives (.updateF n c b e k) t
  | outer {d c k t} : Gives k t → Gives (.outer d c k) t

/-- The SQL text of a message. -/
def textOf : ClientMsg → Option Bytes
  | .stmtExecute s _ => some s
  | .prepare _ s => some s
  | _ => none

/-- The texts the library writes itself. -/
def ownTexts : List String :=
  ["START TRANSACTION", "START TRANSACTION WITH CONSISTENT SNAPSHOT", "COMMIT",
   "SET TRANSACTION ISOLATION LEVEL READ UNCOMMITTED", "SET TRANSACTION ISOLATION LEVEL READ COMMITTED",
   "SET TRANSACTION ISOLATION LEVEL REPEATABLE READ", "SET TRANSACTION ISOLATION LEVEL SERIALIZABLE"]

end Verif.Spec
