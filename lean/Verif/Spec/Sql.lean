import Verif.Spec.Message
import Verif.Spec.Meaning
import Verif.Spec.Operators
/-! What a MySQL server does with expressions and with Insert, Update and Delete on tables, and what the constructors of
/repo/expr.go say.  Read off the MySQL reference manual (operators, three-valued logic, UPDATE) and
/repo/protobuf/mysqlx_expr.proto:202-250 (names of operators). -/
namespace Verif.Spec.Sql
open Verif.Go Verif.Model Verif.Spec

/-- TRUE, FALSE or UNKNOWN (`none`) -/
abbrev Truth := Option Bool

def and3 : Truth → Truth → Truth
  | some false, _ => some false
  | _, some false => some false
  | some true, some true => some true
  | _, _ => none

def or3 : Truth → Truth → Truth
  | some true, _ => some true
  | _, some true => some true
  | some false, some false => some false
  | _, _ => none

def xor3 : Truth → Truth → Truth
  | some a, some b => some (a != b)
  | _, _ => none

def not3 : Truth → Truth := Option.map (!·)

/-- A row: the values of its columns by name. -/
abbrev Row (V : Type) := Bytes → Option V

/-- A server, as far as it is left open: what its values are, how it compares them (with collations and conversions;
nothing if one is NULL), how it takes them for truth values, what its other operators and its functions compute (`none`: the
statement fails), the session's variables, conversion to the type of a column. -/
structure Engine (V : Type) where
  lit : PScalar → V
  isNull : V → Bool
  truth : V → Truth
  ofTruth : Truth → V
  cmp : V → V → Option Ordering
  prim : String → List V → Option V
  func : Bytes → List V → Option V
  var : Bytes → Option V
  store : Bytes → Bytes → V → Option V
  lit_null : isNull (lit .null) = true
  truth_null : ∀ {v}, isNull v = true → truth v = none
  truth_of : ∀ t, truth (ofTruth t) = t
  cmp_null : ∀ {a b}, isNull a = true ∨ isNull b = true → cmp a b = none

variable {V : Type} (E : Engine V)

def eqV (a b : V) : Truth := (E.cmp a b).map (· == .eq)
def ltV (a b : V) : Truth := (E.cmp a b).map (· == .lt)
def leV (a b : V) : Truth := (E.cmp a b).map (· != .gt)

/-- `a IN (b, ...)` -/
def inV (a : V) : List V → Truth
  | [] => some false
  | b :: bs => or3 (eqV E a b) (inV a bs)

/-- `a IS b`: with NULL a test, otherwise left open (TRUE, FALSE; anything else is an error). -/
def isV (a b : V) : Option V := if E.isNull b then some (E.ofTruth (some (E.isNull a))) else E.prim "is" [a, b]
def isNotV (a b : V) : Option V := if E.isNull b then some (E.ofTruth (some (!E.isNull a))) else E.prim "is_not" [a, b]

/-- The operators that give truth values, and those that are left open, with their number of operands. -/
inductive Op where
  | and | or | xor | not | eq | neq | lt | le | gt | ge | is | isNot | isIn | notIn | between | notBetween
  | other (arity : Nat) (name : String)
  deriving DecidableEq

/-- The operators of mysqlx_expr.proto:202-250 ("*" for all columns and "cast" are not in it; "default" is not an expression but
stands in place of one, see `valueFor`). -/
def operators : List (String × Op) :=
  [("&&", .and), ("||", .or), ("xor", .xor), ("!", .not), ("==", .eq), ("!=", .neq), ("<", .lt), ("<=", .le), (">", .gt), (">=", .ge),
   ("is", .is), ("is_not", .isNot), ("in", .isIn), ("not_in", .notIn), ("between", .between), ("between_not", .notBetween),
   ("sign_plus", .other 1 "sign_plus"), ("sign_minus", .other 1 "sign_minus"), ("~", .other 1 "~"),
   ("&", .other 2 "&"), ("|", .other 2 "|"), ("^", .other 2 "^"), ("<<", .other 2 "<<"), (">>", .other 2 ">>"),
   ("+", .other 2 "+"), ("-", .other 2 "-"), ("*", .other 2 "*"), ("/", .other 2 "/"), ("div", .other 2 "div"), ("%", .other 2 "%"),
   ("regexp", .other 2 "regexp"), ("not_regexp", .other 2 "not_regexp"), ("like", .other 2 "like"), ("not_like", .other 2 "not_like"),
   ("cont_in", .other 2 "cont_in"), ("not_cont_in", .other 2 "not_cont_in"), ("overlaps", .other 2 "overlaps"),
   ("not_overlaps", .other 2 "not_overlaps"), ("date_add", .other 3 "date_add"), ("date_sub", .other 3 "date_sub")]

def Op.named (name : Bytes) : Option Op := (operators.find? fun o => ascii o.1 = name).map (·.2)

/-- What an operator computes; `none` for a wrong number of operands.  SQL has no `a IN ()`: what the server makes of it is left
open. -/
def Op.result : Op → List V → Option V
  | .and, [a, b] => some (E.ofTruth (and3 (E.truth a) (E.truth b)))
  | .or, [a, b] => some (E.ofTruth (or3 (E.truth a) (E.truth b)))
  | .xor, [a, b] => some (E.ofTruth (xor3 (E.truth a) (E.truth b)))
  | .not, [a] => some (E.ofTruth (not3 (E.truth a)))
  | .eq, [a, b] => some (E.ofTruth (eqV E a b))
  | .neq, [a, b] => some (E.ofTruth (not3 (eqV E a b)))
  | .lt, [a, b] => some (E.ofTruth (ltV E a b))
  | .le, [a, b] => some (E.ofTruth (leV E a b))
  | .gt, [a, b] => some (E.ofTruth (ltV E b a))
  | .ge, [a, b] => some (E.ofTruth (leV E b a))
  | .is, [a, b] => isV E a b
  | .isNot, [a, b] => isNotV E a b
  | .isIn, a :: bs => if bs.isEmpty then E.prim "in" [a] else some (E.ofTruth (inV E a bs))
  | .notIn, a :: bs => if bs.isEmpty then E.prim "not_in" [a] else some (E.ofTruth (not3 (inV E a bs)))
  | .between, [a, b, c] => some (E.ofTruth (and3 (leV E b a) (leV E a c)))
  | .notBetween, [a, b, c] => some (E.ofTruth (not3 (and3 (leV E b a) (leV E a c))))
  | .other n name, vs => if vs.length = n then E.prim name vs else none
  | _, _ => none

/-- An operator that is not there is refused. -/
def apply (name : Bytes) (vs : List V) : Option V := (Op.named name).bind fun o => o.result E vs

mutual
/-- The value of an expression in a row; `none`: the statement is refused. -/
def eval (row : Row V) : PExpr → Option V
  | .ident name => row name
  | .literal s => some (E.lit s)
  | .variable v => E.var v
  | .funcCall name ps => (evals row ps).bind (E.func name)
  | .operator name ps => (evals row ps).bind (apply E name)
  | .placeholder _ => none
def evals (row : Row V) : List PExpr → Option (List V)
  | [] => some []
  | e :: es =>
    match eval row e, evals row es with
    | some v, some vs => some (v :: vs)
    | _, _ => none
end

/-! The constructors of /repo/expr.go and what their names and comments say. -/

inductive GoExpr where
  /-- a Go value -/
  | val (v : Val)
  | column (name : Bytes)
  /-- what `InsertRow` returns: the variable with the generated id -/
  | var (name : Bytes)
  | unary (k : Unary) (a : GoExpr)
  | binary (k : Binary) (a b : GoExpr)
  | ternary (k : Ternary) (a b c : GoExpr)
  | isIn (a : GoExpr) (bs : List GoExpr)
  | notIn (a : GoExpr) (bs : List GoExpr)
  | dateAdd (a b : GoExpr) (unit : Bytes)
  | dateSub (a b : GoExpr) (unit : Bytes)
  | dflt
  | concat (as : List GoExpr)
  | rowCount
  | lastInsertID

/-- Two operands that give a truth value. -/
def Binary.rel (E : Engine V) : Binary → Option (V → V → Truth)
  | .and => some fun a b => and3 (E.truth a) (E.truth b)
  | .or => some fun a b => or3 (E.truth a) (E.truth b)
  | .xor => some fun a b => xor3 (E.truth a) (E.truth b)
  | .eq => some (eqV E)
  | .neq => some fun a b => not3 (eqV E a b)
  | .lt => some (ltV E)
  | .lte => some (leV E)
  | .gt => some fun a b => ltV E b a
  | .gte => some fun a b => leV E b a
  | _ => none

mutual
/-- What a Go expression stands for in a row.  `In` and `NotIn` of nothing are left to the server. -/
def den (row : Row V) : GoExpr → Option V
  | .val v => (plainScalar libDur fmtTime v).map E.lit
  | .column name => row name
  | .var name => E.var name
  | .unary .not a => (den row a).map fun x => E.ofTruth (not3 (E.truth x))
  | .unary k a => (den row a).bind fun x => E.prim k.documented [x]
  | .binary k a b =>
    match den row a, den row b with
    | some x, some y =>
      match k with
      | .is => isV E x y
      | .isNot => isNotV E x y
      | k =>
        match Binary.rel E k with
        | some f => some (E.ofTruth (f x y))
        | none => E.prim k.documented [x, y]
    | _, _ => none
  | .ternary k a b c =>
    match den row a, den row b, den row c with
    | some x, some y, some z =>
      let t := and3 (leV E y x) (leV E x z)
      some (E.ofTruth (match k with | .between => t | .notBetween => not3 t))
    | _, _, _ => none
  | .isIn a bs =>
    match den row a, dens row bs with
    | some x, some ys => if ys.isEmpty then E.prim "in" [x] else some (E.ofTruth (inV E x ys))
    | _, _ => none
  | .notIn a bs =>
    match den row a, dens row bs with
    | some x, some ys => if ys.isEmpty then E.prim "not_in" [x] else some (E.ofTruth (not3 (inV E x ys)))
    | _, _ => none
  | .dateAdd a b unit =>
    match den row a, den row b with
    | some x, some y => E.prim "date_add" [x, y, E.lit (.octets unit none)]
    | _, _ => none
  | .dateSub a b unit =>
    match den row a, den row b with
    | some x, some y => E.prim "date_sub" [x, y, E.lit (.octets unit none)]
    | _, _ => none
  | .dflt => none
  | .concat as => (dens row as).bind (E.func (ascii "CONCAT"))
  | .rowCount => E.func (ascii "ROW_COUNT") []
  | .lastInsertID => E.func (ascii "LAST_INSERT_ID") []
def dens (row : Row V) : List GoExpr → Option (List V)
  | [] => some []
  | e :: es =>
    match den row e, dens row es with
    | some v, some vs => some (v :: vs)
    | _, _ => none
end

/-! Statements on tables. -/

/-- A table: its columns' defaults and its rows. -/
structure Table (V : Type) where
  blank : Row V
  rows : List (Row V)

abbrev Database (V : Type) := Bytes → Option (Table V)

/-- `col = v` in a row of table `t`: the column exists and the value fits. -/
def assign (t : Bytes) (row : Row V) (col : Bytes) (v : V) : Option (Row V) :=
  if (row col).isNone then none else (E.store t col v).map fun w => fun c => if c = col then some w else row c

def isDefault : PExpr → Bool
  | .operator name [] => name = ascii "default"
  | _ => false

/-- The value for a column: DEFAULT or an expression. -/
def valueFor (blank row : Row V) (col : Bytes) (e : PExpr) : Option V := if isDefault e then blank col else eval E row e

/-- The same of a Go expression. -/
def denFor (blank row : Row V) (col : Bytes) : GoExpr → Option V
  | .dflt => blank col
  | e => den E row e

/-- The assignments of an UPDATE of one table are carried out from left to right (MySQL reference manual, UPDATE). -/
def assigns (t : Bytes) (blank : Row V) : List (Bytes × PExpr) → Row V → Option (Row V)
  | [], row => some row
  | (col, e) :: sets, row => (valueFor E blank row col e).bind fun v => (assign E t row col v).bind (assigns t blank sets)

/-- Whether a row is selected: without criteria always; otherwise if they are TRUE, and not if they are FALSE or UNKNOWN. -/
def selects (row : Row V) : Option PExpr → Option Bool
  | none => some true
  | some e => (eval E row e).map fun v => E.truth v == some true

def updateRow (t : Bytes) (blank : Row V) (crit : Option PExpr) (sets : List (Bytes × PExpr)) (row : Row V) : Option (Row V) :=
  (selects E row crit).bind fun s => if s then assigns E t blank sets row else some row

/-- The rows of an INSERT: one value for each column, the other columns have their defaults. -/
def insertRow (t : Bytes) (blank : Row V) (cols : List Bytes) (vals : List PExpr) : Option (Row V) :=
  if cols.length = vals.length ∧ cols.Nodup ∧ vals ≠ [] then assigns E t blank (cols.zip vals) blank else none

/-- The database with other rows in a table. -/
def withRows (db : Database V) (t : Bytes) (tab : Table V) (rows : List (Row V)) : Database V :=
  fun x => if x = t then some { tab with rows := rows } else db x

/-- Statements on tables; one that fails changes nothing (`none`). -/
def onTable (db : Database V) : ClientMsg → Option (Database V)
  | .insert t _ cols rows => (db t).bind fun tab =>
    if rows = [] then none else (rows.mapM (insertRow E t tab.blank cols)).map fun new => withRows db t tab (tab.rows ++ new)
  | .update t _ crit sets => (db t).bind fun tab =>
    if sets = [] then none else (tab.rows.mapM (updateRow E t tab.blank crit sets)).map (withRows db t tab)
  | .delete t _ crit => (db t).bind fun tab => (tab.rows.mapM fun row => selects E row crit).map fun sel =>
    withRows db t tab ((tab.rows.zip sel).filterMap fun r => if r.2 then none else some r.1)
  | _ => none

/-- the data model a statement declares -/
def model : ClientMsg → Option Nat
  | .insert _ m _ _ => m
  | .update _ m _ _ => m
  | .delete _ m _ => m
  | _ => none

/-- What the server does: statements that declare the data model TABLE (2) are about tables; `other`, left open, are all other
messages. -/
def execute (other : Engine V → Database V → ClientMsg → Option (Database V)) (db : Database V) (m : ClientMsg) : Option (Database V) :=
  if model m = some 2 then onTable E db m else other E db m

/-- A server that takes TABLE for the data model of a delete that declares none. -/
def TakesTable (other : Engine V → Database V → ClientMsg → Option (Database V)) : Prop :=
  ∀ E db t crit, other E db (.delete t none crit) = onTable E db (.delete t none crit)

/-! What the calls say. -/

/-- `Each R l l'`: lists of the same length, related element by element. -/
inductive Each {α β : Type} (R : α → β → Prop) : List α → List β → Prop
  | nil : Each R [] []
  | cons {a b l l'} : R a b → Each R l l' → Each R (a :: l) (b :: l')

/-- `e`, for column `c` of a row, comes to `w`. -/
def Comes (t : Bytes) (blank row : Row V) (c : Bytes) (e : GoExpr) (w : V) : Prop :=
  ∃ v, denFor E blank row c e = some v ∧ E.store t c v = some w

/-- Every column that is set has the value its expression has in the old row; all others are as they were. -/
structure Simul (t : Bytes) (blank : Row V) (sets : List (Bytes × GoExpr)) (row row' : Row V) : Prop where
  set : ∀ s ∈ sets, (row s.1).isSome ∧ ∃ w, Comes E t blank row s.1 s.2 w ∧ row' s.1 = some w
  rest : ∀ c, (∀ s ∈ sets, s.1 ≠ c) → row' c = row c

/-- One assignment after the other. -/
inductive Steps (t : Bytes) (blank : Row V) : List (Bytes × GoExpr) → Row V → Row V → Prop
  | done {row} : Steps t blank [] row row
  | set {c e sets row row' w} : (row c).isSome → Comes E t blank row c e w →
      Steps t blank sets (fun x => if x = c then some w else row x) row' → Steps t blank ((c, e) :: sets) row row'

/-- Whether a row meets the criteria (`none`: they cannot be computed). -/
def meets (row : Row V) : Option GoExpr → Option Bool
  | none => some true
  | some e => (den E row e).map fun v => E.truth v == some true

mutual
/-- The columns an expression reads. -/
def reads : GoExpr → List Bytes
  | .val _ => []
  | .column name => [name]
  | .var _ => []
  | .unary _ a => reads a
  | .binary _ a b => reads a ++ reads b
  | .ternary _ a b c => reads a ++ reads b ++ reads c
  | .isIn a bs => reads a ++ readss bs
  | .notIn a bs => reads a ++ readss bs
  | .dateAdd a b _ => reads a ++ reads b
  | .dateSub a b _ => reads a ++ reads b
  | .dflt => []
  | .concat as => readss as
  | .rowCount => []
  | .lastInsertID => []
def readss : List GoExpr → List Bytes
  | [] => []
  | e :: es => reads e ++ readss es
end

/-- No expression reads a column that another entry sets. -/
def Independent (sets : List (Bytes × GoExpr)) : Prop := ∀ s ∈ sets, ∀ s' ∈ sets, s'.1 ∈ reads s.2 → s'.1 = s.1

/-- An update of the rows that meet the criteria by `R`. -/
def Updated (crit : Option GoExpr) (R : Row V → Row V → Prop) (row row' : Row V) : Prop :=
  meets E row crit = some true ∧ R row row' ∨ meets E row crit = some false ∧ row' = row

/-- The calls that change tables.  (`InsertRow` is left out: what comes after it may use its result.) -/
inductive GoStmt where
  | insert (t : Bytes) (cols : List Bytes) (data : List (List GoExpr))
  /-- `InsertF` with a `Row` for each of the rows -/
  | insertF (t : Bytes) (cols : List Bytes) (data : List (List GoExpr))
  /-- `Update` with the entries of its map, in the order in which they happen to be iterated -/
  | update (t : Bytes) (crit : Option GoExpr) (sets : List (Bytes × GoExpr))
  /-- `UpdateF` with a `Set` for each of the assignments -/
  | updateF (t : Bytes) (crit : Option GoExpr) (sets : List (Bytes × GoExpr))
  | delete (t : Bytes) (crit : Option GoExpr)

/-- One new row for each of the given ones. -/
def Inserts (t : Bytes) (cols : List Bytes) (data : List (List GoExpr)) (db db' : Database V) : Prop :=
  ∃ tab new, db t = some tab ∧ data ≠ [] ∧
    Each (fun es row => cols.Nodup ∧ es ≠ [] ∧ Simul E t tab.blank (cols.zip es) tab.blank row) data new ∧
    db' = withRows db t tab (tab.rows ++ new)

/-- What a call says: the database before and after. -/
def GoStmt.Does : GoStmt → Database V → Database V → Prop
  | .insert t cols data, db, db' => Inserts E t cols data db db'
  | .insertF t cols data, db, db' => Inserts E t cols data db db'
  | .update t crit sets, db, db' => ∃ tab rows, db t = some tab ∧ sets ≠ [] ∧
      Each (Updated E crit (Simul E t tab.blank sets)) tab.rows rows ∧ db' = withRows db t tab rows
  | .updateF t crit sets, db, db' => ∃ tab rows, db t = some tab ∧ sets ≠ [] ∧
      Each (Updated E crit (Steps E t tab.blank sets)) tab.rows rows ∧ db' = withRows db t tab rows
  | .delete t crit, db, db' => ∃ tab, db t = some tab ∧ (∀ row ∈ tab.rows, meets E row crit ≠ none) ∧
      db' = withRows db t tab (tab.rows.filter fun row => meets E row crit != some true)

/-- One call after the other, each with the server as it is by then (its variables, what LAST_INSERT_ID() gives, ...). -/
inductive AllDo : (Nat → Engine V) → List GoStmt → Database V → Database V → Prop
  | nil {E db} : AllDo E [] db db
  | cons {E s l db db1 db2} : s.Does (E 0) db db1 → AllDo (fun i => E (i + 1)) l db1 db2 → AllDo E (s :: l) db db2

/-- The database after the given changes. -/
def replay (other : Engine V → Database V → ClientMsg → Option (Database V)) : (Nat → Engine V) → List ClientMsg → Database V → Option (Database V)
  | _, [], db => some db
  | E, m :: ms, db => (execute (E 0) other db m).bind (replay other (fun i => E (i + 1)) ms)

end Verif.Spec.Sql
