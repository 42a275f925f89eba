import Verif.Spec.Message
import Verif.Spec.Meaning
import Verif.Spec.Blame
import Verif.Model.Builder
/-! Which messages a client program asks for: a big-step semantics of the builder API on the level of
messages, with no buffers, capacities or encodings.  `Prog` and `Call` are the client programs themselves
(the syntax of the API); everything else here is independent of the model. -/
namespace Verif.Spec
open Verif.Go
open Verif.Model (Val Err Prog Call Criteria RowStep SetStep fmtTime)

section
-- dt: the text of durations
variable (dt : BitVec 64 → Bytes)

/-- arguments of statements and what they stand for -/
def Args (args : List Val) (as : List PScalar) : Prop := args.map (argScalarOf dt fmtTime) = as.map some

/-- values of a row and the expressions they stand for -/
def Row (row : List Val) (es : List PExpr) : Prop := row.map (exprOf dt fmtTime) = es.map some

def Rows (rows : List (List Val)) (rs : List (List PExpr)) : Prop :=
  rows.map (·.map (exprOf dt fmtTime)) = rs.map (·.map some)

def Sets (sets : List (Bytes × Val)) (ss : List (Bytes × PExpr)) : Prop :=
  sets.map (fun s => (s.1, exprOf dt fmtTime s.2)) = ss.map (fun s => (s.1, some s.2))

def Crit (c : Criteria) (e : Option PExpr) : Prop := c.map (exprOf dt fmtTime) = e.map some

/-- `SET v = LAST_INSERT_ID()` -/
def captureId (v : Bytes) : ClientMsg := .stmtExecute (ascii "SET " ++ v ++ ascii " = LAST_INSERT_ID()") []

/-- `Asked c ms r`: call `c` asks for the messages `ms` and returns `r` (a value for `InsertRow`, naming the
variable `v`; the others return nothing).  Data model 2 is TABLE.  (`Delete` ought to declare it as well, see
C22; the library does not.) -/
inductive Asked : Call → List ClientMsg → Option Val → Prop
  | stmtExecute {s args as} : Args dt args as → Asked (.stmtExecute s args) [.stmtExecute s as] none
  | prepare {id s} : Asked (.prepare id s) [.prepare id.toNat s] none
  | execute {id args as} : Args dt args as → Asked (.execute id args) [.execute id.toNat as] none
  | deallocate {id} : Asked (.deallocate id) [.deallocate id.toNat] none
  | insert {t cols data rs} : (∀ row ∈ data, row.length = cols.length) → Rows dt data rs →
      Asked (.insert t cols data) [.insert t (some 2) cols rs] none
  | insertRow {t cols row es v} : Row dt row es →
      Asked (.insertRow t cols row) [.insert t (some 2) cols [es], captureId v] (some (.variable v))
  | update {t crit c sets ss} : Crit dt crit c → Sets dt sets ss →
      Asked (.update t crit sets) [.update t (some 2) c ss] none
  | delete {t crit c} : Crit dt crit c → Asked (.delete t crit) [.delete t none c] none

/-- A unit of work under construction: the messages so far, or the first error. -/
abbrev UState := Except Err (List ClientMsg)

/-- How a transaction of an isolation level is opened (Default, ReadUncommitted, ReadCommitted,
RepeatableRead, Serializable, Snapshot). -/
def txOpening : Nat → Option (List String)
  | 0 => some ["START TRANSACTION"]
  | 1 => some ["SET TRANSACTION ISOLATION LEVEL READ UNCOMMITTED", "START TRANSACTION"]
  | 2 => some ["SET TRANSACTION ISOLATION LEVEL READ COMMITTED", "START TRANSACTION"]
  | 3 => some ["SET TRANSACTION ISOLATION LEVEL REPEATABLE READ", "START TRANSACTION"]
  | 4 => some ["SET TRANSACTION ISOLATION LEVEL SERIALIZABLE", "START TRANSACTION"]
  | 5 => some ["START TRANSACTION WITH CONSISTENT SNAPSHOT"]
  | _ => none

/-- a statement without arguments -/
def sql (s : String) : ClientMsg := .stmtExecute (ascii s) []

def rowArgs (steps : List RowStep) : List (List Val) :=
  steps.filterMap fun s => match s with
    | .row args => some args
    | .outer .. => none

def setArgs (steps : List SetStep) : List (Bytes × Val) :=
  steps.filterMap fun s => match s with
    | .set name v => some (name, v)
    | .outer .. => none

/-- None of the `n` enclosing builders is used. -/
def RowsPure (n : Nat) (steps : List RowStep) : Prop := ∀ d c, RowStep.outer d c ∈ steps → n ≤ d
def SetsPure (n : Nat) (steps : List SetStep) : Prop := ∀ d c, SetStep.outer d c ∈ steps → n ≤ d

/-- the variable named by the reply of a call -/
def named : Option Val → List Bytes
  | some (.variable v) => [v]
  | _ => []

/-- `Exec n prog s s' out vs`: run inside `n` enclosing callbacks on a unit of work in state `s`, program `prog`
returns normally, leaves the unit of work in state `s'` and hands `out` to the outside; `vs` are the variables
returned by its `InsertRow`s, in order.  No rule allows the use of an enclosing builder. The error returned by
callbacks has no influence (see C21).  The error of a failed unit of work is that of its first failing call, and leads
to the first offending value of that call (`CallBlames`). -/
inductive Exec : Nat → Prog → UState → UState → List (Option Val) → List Bytes → Prop
  | ret {n err out s} : Exec n (.ret err out) s s out []
  | call {n c k ms m r s out vs} : Asked dt c m r → Exec n (k r) (.ok (ms ++ m)) s out vs →
      Exec n (.call c k) (.ok ms) s out (named r ++ vs)
  | callFail {n c k ms e s out vs} : (∀ m r, ¬Asked dt c m r) → CallBlames dt c e → Exec n (k none) (.error e) s out vs →
      Exec n (.call c k) (.ok ms) s out vs
  | callSkip {n c k e s out vs} : Exec n (k none) (.error e) s out vs → Exec n (.call c k) (.error e) s out vs
  | tx {n level body k ms ss ms' o s out vs vs'} : txOpening level.toNat = some ss →
      Exec (n + 1) body (.ok (ms ++ ss.map sql)) (.ok ms') o vs →
      Exec n (k o) (.ok (ms' ++ [sql "COMMIT"])) s out vs' → Exec n (.tx level body k) (.ok ms) s out (vs ++ vs')
  | txFail {n level body k ms ss e o s out vs vs'} : txOpening level.toNat = some ss →
      Exec (n + 1) body (.ok (ms ++ ss.map sql)) (.error e) o vs → Exec n (k o) (.error e) s out vs' →
      Exec n (.tx level body k) (.ok ms) s out (vs ++ vs')
  | txLevel {n level body k ms s out vs} : txOpening level.toNat = none →
      Exec n (k []) (.error .isolation) s out vs → Exec n (.tx level body k) (.ok ms) s out vs
  | txSkip {n level body k e s out vs} : Exec n (k []) (.error e) s out vs →
      Exec n (.tx level body k) (.error e) s out vs
  | expect {n op body k ms ms' o s out vs vs'} :
      Exec (n + 1) body (.ok (ms ++ [.expectOpen op.toNat [(1, ascii "1")]])) (.ok ms') o vs →
      Exec n (k o) (.ok (ms' ++ [.expectClose])) s out vs' → Exec n (.expect op body k) (.ok ms) s out (vs ++ vs')
  | expectFail {n op body k ms e o s out vs vs'} :
      Exec (n + 1) body (.ok (ms ++ [.expectOpen op.toNat [(1, ascii "1")]])) (.error e) o vs →
      Exec n (k o) (.error e) s out vs' → Exec n (.expect op body k) (.ok ms) s out (vs ++ vs')
  | expectSkip {n op body k e s out vs} : Exec n (k []) (.error e) s out vs →
      Exec n (.expect op body k) (.error e) s out vs
  | insertF {n t cols body err k ms rs s out vs} : RowsPure (n + 1) body → Rows dt (rowArgs body) rs →
      Exec n k (.ok (ms ++ [.insert t (some 2) cols rs])) s out vs →
      Exec n (.insertF t cols body err k) (.ok ms) s out vs
  | insertFFail {n t cols body err k ms e s out vs} : RowsPure (n + 1) body → (∀ rs, ¬Rows dt (rowArgs body) rs) →
      RowsBlame dt e (rowArgs body) → Exec n k (.error e) s out vs → Exec n (.insertF t cols body err k) (.ok ms) s out vs
  | insertFSkip {n t cols body err k e s out vs} : Exec n k (.error e) s out vs →
      Exec n (.insertF t cols body err k) (.error e) s out vs
  | updateF {n t crit c body err k ms ss s out vs} : SetsPure (n + 1) body → Crit dt crit c →
      Sets dt (setArgs body) ss → Exec n k (.ok (ms ++ [.update t (some 2) c ss])) s out vs →
      Exec n (.updateF t crit body err k) (.ok ms) s out vs
  | updateFFail {n t crit body err k ms e s out vs} : SetsPure (n + 1) body →
      (∀ c ss, ¬(Crit dt crit c ∧ Sets dt (setArgs body) ss)) → UpdateBlames dt e crit (setArgs body) →
      Exec n k (.error e) s out vs → Exec n (.updateF t crit body err k) (.ok ms) s out vs
  | updateFSkip {n t crit body err k e s out vs} : Exec n k (.error e) s out vs →
      Exec n (.updateF t crit body err k) (.error e) s out vs
  | outer {n d c k s s' out vs} : n ≤ d → Exec n k s s' out vs → Exec n (.outer d c k) s s' out vs

end

/-- Messages outside the reach of the library's two encoding defects: variable names of 124 bytes or more
(C24) and context operations other than 0 and 1 (C26). -/
def Readable : ClientMsg → Prop
  | .insert _ _ _ rows => ∀ r ∈ rows, ∀ e ∈ r, varsShort e = true
  | .update _ _ crit sets => (∀ e ∈ crit, varsShort e = true) ∧ ∀ s ∈ sets, varsShort s.2 = true
  | .delete _ _ crit => ∀ e ∈ crit, varsShort e = true
  | .expectOpen op _ => op ≤ 1
  | _ => True

end Verif.Spec
