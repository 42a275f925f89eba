import Verif.Spec.Explodes
import Verif.Model.Recover
/-! What client programs that panic and recover leave in a unit of work, on the level of messages. -/
namespace Verif.Spec
open Verif.Go
open Verif.Model (Val Err Call Criteria OuterCall RRows RSets RProg fmtTime)

/-- What a unit of work is made of: messages, and messages cut short, whose header was never written. -/
inductive Piece where
  | msg (m : ClientMsg)
  | cut (m : ClientMsg)

/-- A builder as it is left: the pieces recorded or the error, and whether it is dead (a callback run on it has
panicked, so that it refuses everything). -/
structure Left where
  unit : Except Err (List Piece)
  dead : Bool

section
variable (dt : BitVec 64 → Bytes)

/-- `Cut c m`: call `c` panics on a value, at a time when `m` is already in the buffer. -/
inductive Cut : Call → ClientMsg → Prop
  | insert {t cols front row rest rs} : (∀ r ∈ front, r.length = cols.length) → Rows dt front rs → row.length = cols.length →
      RowExplodes dt row → Cut (.insert t cols (front ++ row :: rest)) (.insert t (some 2) cols rs)
  | insertRow {t cols row} : RowExplodes dt row → Cut (.insertRow t cols row) (.insert t (some 2) cols [])
  | update {t crit c front s rest ss} : Crit dt crit c → Sets dt front ss → Explodes dt s.2 →
      Cut (.update t crit (front ++ s :: rest)) (.update t (some 2) c ss)

/-- `RanRows n code st true st'`: the code of an `InsertF` callback inside `n` callbacks, itself included, returns; with
`false` it panics.  The state is that of the rows. -/
inductive RanRows : Nat → RRows → Except Err (List (List PExpr)) → Bool → Except Err (List (List PExpr)) → Prop
  | done {n st} : RanRows n .done st true st
  | row {n args k rs es x st} : Row dt args es → RanRows n k (.ok (rs ++ [es])) x st → RanRows n (.row args k) (.ok rs) x st
  | rowFail {n args k rs e x st} : (∀ es, ¬Row dt args es) → ¬RowExplodes dt args → RowBlames dt e args →
      RanRows n k (.error e) x st → RanRows n (.row args k) (.ok rs) x st
  | rowPanic {n args k rs} : RowExplodes dt args → RanRows n (.row args k) (.ok rs) false (.ok rs)
  | rowSkip {n args k e x st} : RanRows n k (.error e) x st → RanRows n (.row args k) (.error e) x st
  | outer {n d c k st x st'} : n ≤ d → RanRows n k st x st' → RanRows n (.outer d c k) st x st'
  | outerPanic {n d c k st} : d < n → RanRows n (.outer d c k) st false st
  | panic {n st} : RanRows n .panic st false st
  | attempt {n body left k st y st' x st''} : RanRows n body st y st' → RanRows n k st' x st'' →
      RanRows n (.attempt body left k) st x st''

/-- the same for `UpdateF` -/
inductive RanSets : Nat → RSets → Except Err (List (Bytes × PExpr)) → Bool → Except Err (List (Bytes × PExpr)) → Prop
  | done {n st} : RanSets n .done st true st
  | set {n name v k ss e x st} : exprOf dt fmtTime v = some e → RanSets n k (.ok (ss ++ [(name, e)])) x st →
      RanSets n (.set name v k) (.ok ss) x st
  | setFail {n name v k ss e x st} : ¬Fine dt v → ¬Explodes dt v → Blames dt e v →
      RanSets n k (.error e) x st → RanSets n (.set name v k) (.ok ss) x st
  | setPanic {n name v k ss} : Explodes dt v → RanSets n (.set name v k) (.ok ss) false (.ok ss)
  | setSkip {n name v k e x st} : RanSets n k (.error e) x st → RanSets n (.set name v k) (.error e) x st
  | outer {n d c k st x st'} : n ≤ d → RanSets n k st x st' → RanSets n (.outer d c k) st x st'
  | outerPanic {n d c k st} : d < n → RanSets n (.outer d c k) st false st
  | panic {n st} : RanSets n .panic st false st
  | attempt {n body left k st y st' x st''} : RanSets n body st y st' → RanSets n k st' x st'' →
      RanSets n (.attempt body left k) st x st''

/-- The program begins with the use of its builder. -/
def usesBuilder : RProg → Bool
  | .call .. | .tx .. | .expect .. | .insertF .. | .updateF .. => true
  | _ => false

-- nm: how the variables of `InsertRow` are named, by what the unit of work is made of up to the insert itself
variable (nm : List Piece → Bytes)

/-- `Ran n prog a x a'`: run inside `n` enclosing callbacks on a builder in state `a`, program `prog` returns the values
`x` (`none`: it panics), and leaves the builder in state `a'`. -/
inductive Ran : Nat → RProg → Left → Option (List (Option Val)) → Left → Prop
  | ret {n err out a} : Ran n (.ret err out) a (some out) a
  | panic {n a} : Ran n .panic a none a
  | attempt {n body left k a o a' x a''} : Ran n body a (some o) a' → Ran n (k (some o)) a' x a'' →
      Ran n (.attempt body left k) a x a''
  | recovered {n body left k a a' x a''} : Ran n body a none a' → Ran n (k none) a' x a'' →
      Ran n (.attempt body left k) a x a''
  | outer {n d c k a x a'} : n ≤ d → Ran n k a x a' → Ran n (.outer d c k) a x a'
  | outerPanic {n d c k a} : d < n → Ran n (.outer d c k) a none a
  /-- nothing works on a dead builder -/
  | dead {n prog u} : usesBuilder prog = true → Ran n prog ⟨u, true⟩ none ⟨u, true⟩
  -- calls
  | call {n c k ps m r x a} : Asked dt c m r → (∀ v, r = some v → v = .variable (nm (ps ++ m.dropLast.map .msg))) →
      Ran n (k r) ⟨.ok (ps ++ m.map .msg), false⟩ x a → Ran n (.call c k) ⟨.ok ps, false⟩ x a
  | callFail {n c k ps e x a} : (∀ m r, ¬Asked dt c m r) → ¬CallExplodes dt c → CallBlames dt c e →
      Ran n (k none) ⟨.error e, false⟩ x a → Ran n (.call c k) ⟨.ok ps, false⟩ x a
  /-- the call panics, and might not have been made -/
  | callPanic {n c k ps} : CallExplodes dt c → (∀ m, ¬Cut dt c m) →
      Ran n (.call c k) ⟨.ok ps, false⟩ none ⟨.ok ps, false⟩
  /-- the call panics and leaves part of its message behind -/
  | callCut {n c k ps m} : Cut dt c m → Ran n (.call c k) ⟨.ok ps, false⟩ none ⟨.ok (ps ++ [.cut m]), false⟩
  | callSkip {n c k e x a} : Ran n (k none) ⟨.error e, false⟩ x a → Ran n (.call c k) ⟨.error e, false⟩ x a
  -- transactions: once the callback has returned, it does not matter whether its builder is dead
  | tx {n level body k ps ss ps' d o x a} : txOpening level.toNat = some ss →
      Ran (n + 1) body ⟨.ok (ps ++ ss.map fun s => .msg (sql s)), false⟩ (some o) ⟨.ok ps', d⟩ →
      Ran n (k o) ⟨.ok (ps' ++ [.msg (sql "COMMIT")]), false⟩ x a → Ran n (.tx level body k) ⟨.ok ps, false⟩ x a
  | txFail {n level body k ps ss e d o x a} : txOpening level.toNat = some ss →
      Ran (n + 1) body ⟨.ok (ps ++ ss.map fun s => .msg (sql s)), false⟩ (some o) ⟨.error e, d⟩ →
      Ran n (k o) ⟨.error e, false⟩ x a → Ran n (.tx level body k) ⟨.ok ps, false⟩ x a
  /-- the panic of the callback leaves the beginning of the transaction behind, and a dead builder -/
  | txPanic {n level body k ps ss a} : txOpening level.toNat = some ss →
      Ran (n + 1) body ⟨.ok (ps ++ ss.map fun s => .msg (sql s)), false⟩ none a →
      Ran n (.tx level body k) ⟨.ok ps, false⟩ none ⟨.ok (ps ++ ss.map fun s => .msg (sql s)), true⟩
  | txLevel {n level body k ps x a} : txOpening level.toNat = none → Ran n (k []) ⟨.error .isolation, false⟩ x a →
      Ran n (.tx level body k) ⟨.ok ps, false⟩ x a
  | txSkip {n level body k e x a} : Ran n (k []) ⟨.error e, false⟩ x a → Ran n (.tx level body k) ⟨.error e, false⟩ x a
  -- expectation blocks
  | expect {n op body k ps ps' d o x a} :
      Ran (n + 1) body ⟨.ok (ps ++ [.msg (.expectOpen op.toNat [(1, ascii "1")])]), false⟩ (some o) ⟨.ok ps', d⟩ →
      Ran n (k o) ⟨.ok (ps' ++ [.msg .expectClose]), false⟩ x a → Ran n (.expect op body k) ⟨.ok ps, false⟩ x a
  | expectFail {n op body k ps e d o x a} :
      Ran (n + 1) body ⟨.ok (ps ++ [.msg (.expectOpen op.toNat [(1, ascii "1")])]), false⟩ (some o) ⟨.error e, d⟩ →
      Ran n (k o) ⟨.error e, false⟩ x a → Ran n (.expect op body k) ⟨.ok ps, false⟩ x a
  | expectPanic {n op body k ps a} :
      Ran (n + 1) body ⟨.ok (ps ++ [.msg (.expectOpen op.toNat [(1, ascii "1")])]), false⟩ none a →
      Ran n (.expect op body k) ⟨.ok ps, false⟩ none ⟨.ok (ps ++ [.msg (.expectOpen op.toNat [(1, ascii "1")])]), true⟩
  | expectSkip {n op body k e x a} : Ran n (k []) ⟨.error e, false⟩ x a → Ran n (.expect op body k) ⟨.error e, false⟩ x a
  -- InsertF
  | insertF {n t cols body err k ps rs x a} : RanRows dt (n + 1) body (.ok []) true (.ok rs) →
      Ran n k ⟨.ok (ps ++ [.msg (.insert t (some 2) cols rs)]), false⟩ x a → Ran n (.insertF t cols body err k) ⟨.ok ps, false⟩ x a
  | insertFFail {n t cols body err k ps e x a} : RanRows dt (n + 1) body (.ok []) true (.error e) →
      Ran n k ⟨.error e, false⟩ x a → Ran n (.insertF t cols body err k) ⟨.ok ps, false⟩ x a
  | insertFPanic {n t cols body err k ps st} : RanRows dt (n + 1) body (.ok []) false st →
      Ran n (.insertF t cols body err k) ⟨.ok ps, false⟩ none ⟨.ok ps, true⟩
  | insertFSkip {n t cols body err k e x a} : Ran n k ⟨.error e, false⟩ x a →
      Ran n (.insertF t cols body err k) ⟨.error e, false⟩ x a
  -- UpdateF: the callback runs even if the criteria is refused
  | updateF {n t crit c body err k ps ss x a} : Crit dt crit c → RanSets dt (n + 1) body (.ok []) true (.ok ss) →
      Ran n k ⟨.ok (ps ++ [.msg (.update t (some 2) c ss)]), false⟩ x a → Ran n (.updateF t crit body err k) ⟨.ok ps, false⟩ x a
  | updateFFail {n t crit c body err k ps e x a} : Crit dt crit c → RanSets dt (n + 1) body (.ok []) true (.error e) →
      Ran n k ⟨.error e, false⟩ x a → Ran n (.updateF t crit body err k) ⟨.ok ps, false⟩ x a
  | updateFPanic {n t crit c body err k ps st} : Crit dt crit c → RanSets dt (n + 1) body (.ok []) false st →
      Ran n (.updateF t crit body err k) ⟨.ok ps, false⟩ none ⟨.ok ps, true⟩
  | updateFCrit {n t v body err k ps e st x a} : ¬Fine dt v → ¬Explodes dt v → Blames dt e v →
      RanSets dt (n + 1) body (.error e) true st → Ran n k ⟨.error e, false⟩ x a →
      Ran n (.updateF t (some v) body err k) ⟨.ok ps, false⟩ x a
  | updateFCritPanic {n t v body err k ps e st} : ¬Fine dt v → ¬Explodes dt v → Blames dt e v →
      RanSets dt (n + 1) body (.error e) false st →
      Ran n (.updateF t (some v) body err k) ⟨.ok ps, false⟩ none ⟨.ok ps, true⟩
  /-- the panic of the criteria comes before the callback -/
  | updateFCritExplodes {n t v body err k ps} : Explodes dt v →
      Ran n (.updateF t (some v) body err k) ⟨.ok ps, false⟩ none ⟨.ok ps, false⟩
  | updateFSkip {n t crit body err k e x a} : Ran n k ⟨.error e, false⟩ x a →
      Ran n (.updateF t crit body err k) ⟨.error e, false⟩ x a

end

/-- The bytes `fr` are the piece: a frame of the message; or a frame with some header of its own. -/
def PieceBytes (fr : Bytes) : Piece → Prop
  | .msg m => fr.length < 2 ^ 32 → (∃ x, readFrames fr = some [x]) ∧ (Readable m → decodeStream fr = some [m])
  | .cut m => 4 < fr.length ∧ (fr.length < 2 ^ 32 → ∃ h, h.length = 4 ∧ (∃ x, readFrames (h ++ fr.drop 4) = some [x]) ∧
      (Readable m → decodeStream (h ++ fr.drop 4) = some [m]))

/-- The builder `b'` is as `a` says, `old` having been in its buffer: dead or not; with the error, or with the pieces and
nothing else in the buffer. -/
def LeftAs (old : Bytes) (b' : Model.Builder) (a : Left) : Prop :=
  b'.disabled = a.dead ∧ match a.unit with
    | .error e => b'.err = some e
    | .ok ps => b'.err = none ∧ ∃ frs : List Bytes, b'.buf.data = old ++ frs.flatten ∧ frs.length = ps.length ∧
        (∀ (i : Nat) fr p, frs[i]? = some fr → ps[i]? = some p → PieceBytes fr p) ∧
        ∀ ms, ps = ms.map .msg → (∀ m ∈ ms, Readable m) → frs.flatten.length < 2 ^ 32 → decodeStream frs.flatten = some ms

end Verif.Spec
