import Verif.Spec.Sql
import Verif.Spec.Ids
import Verif.Spec.Remote
import Verif.Spec.Unit
/-! A server with tables, transactions, generated ids and variables (MySQL reference manual: AUTO_INCREMENT, LAST_INSERT_ID(),
user-defined variables), and what a unit of work says that uses the ids which `InsertRow` returns. -/
namespace Verif.Spec.Sql
open Verif.Go Verif.Model Verif.Spec

/-- What the statements of a session see. -/
structure Scope (V : Type) where
  db : Database V
  /-- LAST_INSERT_ID() -/
  last : V
  /-- user variables -/
  vars : Bytes → Option V
  /-- prepared statements -/
  stmts : Nat → Option Bytes

/-- The same, and in a transaction what the database was at its start.  (Nobody else writes to the database in the meantime; for
several sessions see C76.) -/
structure Store (V : Type) extends Scope V where
  saved : Option (Database V)

/-- What is there if the transaction does not commit. -/
def Store.durable {V : Type} (x : Store V) : Database V := x.saved.getD x.db

/-- A server at the time of a message, as far as it is left open: how it computes, the AUTO_INCREMENT columns of its tables, the ids
it generates for the rows of an insert, and what it does with messages of which nothing is said here. -/
structure Server (V : Type) where
  engine : Engine V
  other : Engine V → Database V → ClientMsg → Option (Database V)
  auto : Bytes → Option Bytes
  ids : Nat → V
  rest : Store V → ClientMsg → Option (Store V)

variable {V : Type}

/-- The values of variables and of LAST_INSERT_ID(). -/
def Server.sees (S : Server V) (x : Scope V) : Engine V :=
  { S.engine with
    var := x.vars
    func := fun name vs => if name = ascii "LAST_INSERT_ID" ∧ vs.isEmpty then some x.last else S.engine.func name vs }

/-- The i-th new row gets its id. -/
def Server.number (S : Server V) (t : Bytes) (i : Nat) (row : Row V) : Row V :=
  match S.auto t with
  | none => row
  | some a => fun c => if c = a then some (S.ids i) else row c

/-- LAST_INSERT_ID() is the id of the first row, if ids are generated, and otherwise what it was. -/
def Server.lastOf (S : Server V) (t : Bytes) (last : V) : V := if (S.auto t).isSome then S.ids 0 else last

/-- An insert that gives no values for the AUTO_INCREMENT column. -/
def Server.insert (S : Server V) (x : Store V) (t : Bytes) (cols : List Bytes) (rows : List (List PExpr)) : Option (Store V) :=
  (x.db t).bind fun tab =>
    if rows = [] then none
    else (rows.mapM (insertRow (S.sees x.toScope) t tab.blank cols)).map fun new =>
      { x with db := withRows x.db t tab (tab.rows ++ new.mapIdx (S.number t)), last := S.lastOf t x.last }

/-- Whether values are given for the AUTO_INCREMENT column (not modelled). -/
def Server.explicit (S : Server V) (t : Bytes) (cols : List Bytes) : Bool :=
  match S.auto t with
  | none => false
  | some a => a ∈ cols

/-- A number stands for a statement from now on, or for none. -/
def Scope.prepare (y : Scope V) (id : Nat) (text : Option Bytes) : Scope V := { y with stmts := fun i => if i = id then text else y.stmts i }

/-- A statement given as text. -/
def Server.direct (S : Server V) (x : Store V) (m : ClientMsg) : Option (Store V) :=
  match captured m with
  | some v => some { x with vars := fun u => if u = v then some x.last else x.vars u }
  | none =>
    match fixedKind m with
    | some .start => some { x with saved := some x.db }
    | some .commit => some { x with saved := none }
    | some .rollback => some { x with db := x.durable, saved := none }
    | some .session => some x
    | _ => S.rest x m

/-- One message; `none` if it fails. -/
def Server.exec (S : Server V) (x : Store V) (m : ClientMsg) : Option (Store V) :=
  match m with
  | .insert t (some 2) cols rows => if S.explicit t cols then S.rest x m else S.insert x t cols rows
  | .update .. => (Sql.execute (S.sees x.toScope) S.other x.db m).map fun db => { x with db := db }
  | .delete .. => (Sql.execute (S.sees x.toScope) S.other x.db m).map fun db => { x with db := db }
  | .expectOpen .. => some x
  | .expectClose => some x
  | .prepare id text => some { x with toScope := x.toScope.prepare id (some text) }
  | .deallocate id => some { x with toScope := x.toScope.prepare id none }
  | .execute id args => (x.stmts id).bind fun text => S.direct x (.stmtExecute text args)
  | m => S.direct x m

/-- After an error: the statement or the whole transaction is undone; whatever became of the variables and of the prepared
statements. -/
def Store.Failed (x x' : Store V) : Prop := (x'.db = x.db ∧ x'.saved = x.saved) ∨ (x'.db = x.durable ∧ x'.saved = none)

/-- Messages and their answers, one after the other: those answered OK are executed, those that fail change no data, the others are not
executed. -/
inductive Plays : (Nat → Server V) → List (ClientMsg × Answer) → Store V → Store V → Prop
  | nil {S x} : Plays S [] x x
  | ok {S m l x x1 x2} : (S 0).exec x m = some x1 → Plays (fun i => S (i + 1)) l x1 x2 → Plays S ((m, .ok) :: l) x x2
  | failed {S m l x x1 x2} : x.Failed x1 → Plays (fun i => S (i + 1)) l x1 x2 → Plays S ((m, .failed) :: l) x x2
  | skipped {S m l x x2} : Plays (fun i => S (i + 1)) l x x2 → Plays S ((m, .skipped) :: l) x x2

/-- The connection goes away. -/
def Store.drop (x : Store V) : Store V := { x with db := x.durable, saved := none }

/-- `Serves`, with the tables: the session, the store and the bytes that arrive at the client. -/
inductive Works (cd : Codec) (spreads : Bool) (script : Nat → Fate) (S : Nat → Server V) (s : Session) (x : Store V) (b p : Bytes) : Store V → Prop
  | done {ms : List ClientMsg} {rrs : List Response} {rest : Bytes} {x' : Store V} (hd : decodeStream b = some ms)
      (hr : Replies cd (serve spreads script ms s).1 rrs p rest) (hx : Plays S (ms.zip (serve spreads script ms s).1) x x') :
      Works cd spreads script S s x b p x'
  | lost {ms : List ClientMsg} {rrs : List Response} {k : Nat} {full rest : Bytes} {x' : Store V} (hd : decodeStream b = some ms)
      (hr : Replies cd (serve spreads script (ms.take k) s).1 rrs full rest) (hn : ∀ rr r, ¬Answered cd rest rr r) (hp : p <+: full)
      (hx : Plays S ((ms.take k).zip (serve spreads script (ms.take k) s).1) x x') : Works cd spreads script S s x b p x'.drop

/-! What the calls say. -/

/-- Calls that change tables, statements of the user (`StmtExecute`), also prepared ones (`Prepare`, `Execute`, `Deallocate`); those after an
`InsertRow` may use what it returns. -/
inductive GoUnit where
  | done
  | stmt (s : GoStmt) (k : GoUnit)
  | raw (text : Bytes) (args : List Val) (k : GoUnit)
  | prepare (id : BitVec 32) (text : Bytes) (k : GoUnit)
  | execute (id : BitVec 32) (args : List Val) (k : GoUnit)
  | deallocate (id : BitVec 32) (k : GoUnit)
  | insertRow (t : Bytes) (cols : List Bytes) (es : List GoExpr) (k : Bytes → GoUnit)

/-- One new row for each of the given ones, with a new id. -/
def Numbered (S : Server V) (y : Scope V) (t : Bytes) (cols : List Bytes) (data : List (List GoExpr)) (db' : Database V) : Prop :=
  ∃ tab new, y.db t = some tab ∧ data ≠ [] ∧
    Each (fun es row => cols.Nodup ∧ es ≠ [] ∧ Simul (S.sees y) t tab.blank (cols.zip es) tab.blank row) data new ∧
    db' = withRows y.db t tab (tab.rows ++ new.mapIdx (S.number t))

/-- One call. -/
def GoStmt.Step (S : Server V) : GoStmt → Scope V → Scope V → Prop
  | .insert t cols data, y, y' => Numbered S y t cols data y'.db ∧ y'.last = S.lastOf t y.last ∧ y'.vars = y.vars ∧ y'.stmts = y.stmts
  | .insertF t cols data, y, y' => Numbered S y t cols data y'.db ∧ y'.last = S.lastOf t y.last ∧ y'.vars = y.vars ∧ y'.stmts = y.stmts
  | s, y, y' => s.Does (S.sees y) y.db y'.db ∧ y'.last = y.last ∧ y'.vars = y.vars ∧ y'.stmts = y.stmts

/-- What is known of a server: the AUTO_INCREMENT columns of its tables, and statements that neither begin nor end a transaction. -/
structure Known where
  auto : Bytes → Option Bytes
  within : ClientMsg → Prop

/-- Servers of which this is true, on which these statements leave the numbers of prepared statements alone, and that take
TABLE for the data model of a delete that declares none. -/
def Usual (K : Known) (S : Nat → Server V) : Prop :=
  ∀ i, (S i).auto = K.auto ∧ TakesTable (S i).other ∧ ∀ m, K.within m → ∀ x x', (S i).rest x m = some x' →
    x'.saved = x.saved ∧ x'.stmts = x.stmts

/-- One call after the other.  A statement of the user does what the server says it does, and `Execute` does what `StmtExecute` with the
prepared statement does.  `InsertRow` inserts one row, and its result is a name that is not used yet and stands for the id of the
row. -/
inductive UnitDoes : (Nat → Server V) → List Bytes → GoUnit → Scope V → Scope V → Prop
  | done {S used y} : UnitDoes S used .done y y
  | stmt {S used s k y y1 y2} : s.Step (S 0) y y1 → UnitDoes (fun i => S (i + 1)) used k y1 y2 → UnitDoes S used (.stmt s k) y y2
  | raw {S used text args as k y2} {x x1 : Store V} : Args libDur args as → (S 0).rest x (.stmtExecute text as) = some x1 →
      UnitDoes (fun i => S (i + 1)) used k x1.toScope y2 → UnitDoes S used (.raw text args k) x.toScope y2
  | prepare {S used id text k y y2} : UnitDoes (fun i => S (i + 1)) used k (y.prepare id.toNat (some text)) y2 → UnitDoes S used (.prepare id text k) y y2
  | execute {S used id text args k y y2} : y.stmts id.toNat = some text → UnitDoes S used (.raw text args k) y y2 → UnitDoes S used (.execute id args k) y y2
  | deallocate {S used id k y y2} : UnitDoes (fun i => S (i + 1)) used k (y.prepare id.toNat none) y2 → UnitDoes S used (.deallocate id k) y y2
  | insertRow {S used t cols es k v y db' y2} : v ∉ used → ((S 0).auto t).isSome = true → Numbered (S 0) y t cols [es] db' →
      UnitDoes (fun i => S (i + 2)) (v :: used) (k v) ⟨db', (S 0).ids 0, fun u => if u = v then some ((S 0).ids 0) else y.vars u, y.stmts⟩ y2 →
      UnitDoes S used (.insertRow t cols es k) y y2

end Verif.Spec.Sql
