import Verif.Model.Expr
/-! Model of the message encoders: /repo/xproto/{xproto,prepare,expect,insert,update,authentication}.go. -/
namespace Verif.Model
open Verif.Go

/-- xproto.go:10-18 `Reset`; SESS_RESET = 6. -/
def reset (g : Grow) (p : Slice) (keepOpen : Bool) : M Slice :=
  if keepOpen then append g p [3, 0, 0, 0, 6, keyVarint 1, 1]
  else append g p [1, 0, 0, 0, 6]

/-- The argument loops xproto.go:36-42 and prepare.go:57-63. -/
def appendArgs (g : Grow) (p : Slice) (tag : UInt8) : List Val → M (Slice × Option Err)
  | [] => .ok (p, none)
  | a :: as => do
    let (p, err) ← appendAny g p tag a
    match err with
    | some e => .ok (p, some e)
    | none => appendArgs g p tag as

/-- xproto.go:27-45 `StmtExecute`; SQL_STMT_EXECUTE = 12. -/
def stmtExecute (g : Grow) (p : Slice) (stmt : Bytes) (args : List Val) : M (Slice × Option Err) := do
  let x := stmt.length
  let n := p.len
  let p ← append g p ([0, 0, 0, 0, 12, keyBytes 1] ++ unrolled64' x)
  let i := p.len + sizeVarint x - 10
  let p ← setAnd p (i - 1) 0x7F
  let p ← reslice p i
  let p ← append g p stmt
  let (p, err) ← appendArgs g p 2 args
  match err with
  | some e => .ok (p, some e)
  | none =>
    let p ← putUint32 p n (p.len - n - 4)
    .ok (p, none)

/-- A criteria parameter: `nil`, or a function made by one of the constructors of /repo/expr.go or by
`InsertRow` (`column`, `op`, `call`, `variable`, `placeholder` of `Val`; other values cannot occur in Go
but do no harm here). Functions written by the user are not modelled. -/
abbrev Criteria := Option Val

/-- `criteria(p, tag)` -/
def appendCriteria (g : Grow) (p : Slice) (tag : UInt8) : Criteria → M (Slice × Option Err)
  | none => .ok (p, none)
  | some c => appendExpr g p tag c

/-- xproto.go:47-76 `Delete`; CRUD_DELETE = 20. The header is patched in the error case too. -/
def delete (g : Grow) (p : Slice) (name : Bytes) (criteria : Criteria) : M (Slice × Option Err) := do
  let s := p.len
  let n := name.length
  let n1 := 1 + sizeVarint n + n
  let p ← forAppend p (4 + 1 + 1 + sizeVarint n1 + n1)
  let (p, k) ← putUvarint p (s + 6) n1
  let i := s + 6 + k
  let p ← setAt p (s + 4) 20
  let p ← setAt p (s + 5) (keyBytes 1)
  let p ← setAt p i (keyBytes 1)
  let i := i + 1
  let (p, k) ← putUvarint p i n
  let i := i + k
  let (p, _) ← copyAt p i name
  let (p, err) ← appendCriteria g p 3 criteria
  let p ← putUint32 p s (p.len - s - 4)
  .ok (p, err)

/-- prepare.go:11-43 `Prepare`; PREPARE_PREPARE = 40, Prepare_OneOfMessage_STMT = 5. -/
def prepare (p : Slice) (id : BitVec 32) (stmt : Bytes) : M Slice := do
  let n := stmt.length
  let n0 := 1 + sizeVarint n + n
  let n1 := 3 + sizeVarint n0 + n0
  let n2 := 2 + sizeVarint32 id.toNat + sizeVarint n1 + n1
  let s := p.len
  let p ← forAppend p (4 + 1 + n2)
  let (p, k) ← putUvarint p (s + 6) id.toNat
  let i := s + 6 + k
  let p ← putUint32 p s (1 + n2)
  let p ← setAt p (s + 4) 40
  let p ← setAt p (s + 5) (keyVarint 1)
  let p ← setAt p i (keyBytes 2)
  let i := i + 1
  let (p, k) ← putUvarint p i n1
  let i := i + k
  let p ← setAt p i (keyVarint 1)
  let p ← setAt p (i + 1) 5
  let p ← setAt p (i + 2) (keyBytes 6)
  let i := i + 3
  let (p, k) ← putUvarint p i n0
  let i := i + k
  let p ← setAt p i (keyBytes 1)
  let i := i + 1
  let (p, k) ← putUvarint p i n
  let i := i + k
  let (p, _) ← copyAt p i stmt
  .ok p

/-- prepare.go:46-66 `Execute`; PREPARE_EXECUTE = 41. -/
def execute (g : Grow) (p : Slice) (id : BitVec 32) (args : List Val) : M (Slice × Option Err) := do
  let n := p.len
  let p ← append g p ([0, 0, 0, 0, 41, keyVarint 1] ++ unrolled32 id.toNat)
  let i := p.len - 5 + sizeVarint32 id.toNat
  let p ← setAnd p (i - 1) 0x7F
  let p ← reslice p i
  let (p, err) ← appendArgs g p 2 args
  match err with
  | some e => .ok (p, some e)
  | none =>
    let p ← putUint32 p n (p.len - n - 4)
    .ok (p, none)

/-- prepare.go:69-79 `Deallocate`; PREPARE_DEALLOCATE = 42. -/
def deallocate (g : Grow) (p : Slice) (id : BitVec 32) : M Slice := do
  let n := sizeVarint32 id.toNat
  let p ← append g p ([2 + UInt8.ofNat n, 0, 0, 0, 42, keyVarint 1] ++ unrolled32 id.toNat)
  let n := n + p.len - 5
  let p ← setAnd p (n - 1) 0x7F
  reslice p n

/-- Expectation conditions: the closures of expect.go:21-53. -/
inductive Cond where
  | noError (value : Bool)
  | fieldExists (field : Bytes)

/-- Calling the closure. EXPECT_NO_ERROR = 1, EXPECT_FIELD_EXIST = 2; '0' = 48, '1' = 49. -/
def appendCond (g : Grow) (p : Slice) : Cond → M Slice
  | .noError true => append g p [keyBytes 2, 5, keyVarint 1, 1, keyBytes 2, 1, 49]
  | .noError false => append g p [keyBytes 2, 5, keyVarint 1, 1, keyBytes 2, 1, 48]
  | .fieldExists field => do
    let n := field.length
    let n0 := 3 + sizeVarint n + n
    let p ← append g p (keyBytes 2 :: unrolled32 n0)
    let i := p.len - 5 + sizeVarint n0
    let p ← setAnd p (i - 1) 0x7F
    let p ← reslice p i
    let p ← append g p ([keyVarint 1, 2, keyBytes 2] ++ unrolled32 n)
    let i := p.len - 5 + sizeVarint n
    let p ← setAnd p (i - 1) 0x7F
    let p ← reslice p i
    append g p field

/-- The loop expect.go:66-68. -/
def appendConds (g : Grow) (p : Slice) : List Cond → M Slice
  | [] => .ok p
  | c :: cs => do
    let p ← appendCond g p c
    appendConds g p cs

/-- expect.go:62-71 `ExpectOpen`; EXPECT_OPEN = 24. -/
def expectOpen (g : Grow) (p : Slice) (op : UInt8) (conds : List Cond) : M Slice := do
  let i := p.len
  let p ← append g p [0, 0, 0, 0, 24, keyVarint 1, op]
  let p ← appendConds g p conds
  putUint32 p i (p.len - i - 4)

/-- expect.go:73-75 `ExpectClose`; EXPECT_CLOSE = 25. -/
def expectClose (g : Grow) (p : Slice) : M Slice := append g p [1, 0, 0, 0, 25]

/-- The column loop insert.go:43-55. -/
def appendColumns (p : Slice) : List Bytes → M Slice
  | [] => .ok p
  | name :: names => do
    let n := name.length
    let n0 := 1 + sizeVarint n + n
    let o := p.len
    let p ← forAppend p (1 + sizeVarint n0 + n0)
    let p ← setAt p o (keyBytes 3)
    let (p, k) ← putUvarint p (o + 1) n0
    let j := o + 1 + k
    let p ← setAt p j (keyBytes 1)
    let j := j + 1
    let (p, k) ← putUvarint p j n
    let j := j + k
    let (p, _) ← copyAt p j name
    appendColumns p names

/-- insert.go:27-57 `Insert`; CRUD_INSERT = 18, DataModel_TABLE = 2.  The four header bytes are left as
the backing array held them; the callers in builder.go and crud.go set them last. -/
def insert (p : Slice) (tableName : Bytes) (names : List Bytes) : M Slice := do
  let n := tableName.length
  let n0 := 1 + sizeVarint n + n
  let o := p.len
  let p ← forAppend p (5 + 3 + sizeVarint n0 + n0)
  let p ← setAt p (o + 4) 18
  let p ← setAt p (o + 5) (keyBytes 1)
  let (p, k) ← putUvarint p (o + 6) n0
  let i := o + 6 + k
  let p ← setAt p i (keyBytes 1)
  let i := i + 1
  let (p, k) ← putUvarint p i n
  let i := i + k
  let (p, k) ← copyAt p i tableName
  let i := i + k
  let p ← setAt p i (keyVarint 2)
  let i := i + 1
  let p ← setAt p i 2
  appendColumns p names

/-- The loop insert.go:64-70, from column `j` on. -/
def appendRowFields (g : Grow) (p : Slice) (j : Nat) : List Val → M (Slice × Option Err)
  | [] => .ok (p, none)
  | v :: vs => do
    let (p, err) ← appendExpr g p 1 v
    match err with
    | some e => .ok (p, some (.column j e))
    | none => appendRowFields g p (j + 1) vs

/-- insert.go:59-77 `AppendInsertRow`.  `d` (line 72) may be -1: `p[:i+d]` is `p[:i+size-2]`.  The appended
`p[i:]` overlaps the destination; Go's append is a memmove (or a copy into a new array). -/
def appendInsertRow (g : Grow) (p : Slice) (row : List Val) : M (Slice × Option Err) := do
  let p ← append g p [keyBytes 4, 0, 0]
  let i := p.len
  let (p, err) ← appendRowFields g p 0 row
  match err with
  | some e => .ok (p, some e)
  | none =>
    let n := p.len - i
    let p ← if sizeVarint n ≠ 2 then do
        let q ← reslice p (i + sizeVarint n - 2)
        append g q (p.data.drop i)
      else .ok p
    let (p, _) ← putUvarint p (i - 2) n
    .ok (p, none)

/-- update.go:20-38 `Update`; CRUD_UPDATE = 19, DataModel_TABLE = 2. Header bytes as in `insert`. -/
def update (g : Grow) (p : Slice) (name : Bytes) (criteria : Criteria) : M (Slice × Option Err) := do
  let n := name.length
  let n1 := 1 + sizeVarint n + n
  let o := p.len
  let p ← forAppend p (4 + 1 + 3 + sizeVarint n1 + n1)
  let (p, k) ← putUvarint p (o + 6) n1
  let i := o + 6 + k
  let p ← setAt p (o + 4) 19
  let p ← setAt p (o + 5) (keyBytes 2)
  let p ← setAt p i (keyBytes 1)
  let i := i + 1
  let (p, k) ← putUvarint p i n
  let i := i + k
  let (p, k) ← copyAt p i name
  let i := i + k
  let p ← setAt p i (keyVarint 3)
  let i := i + 1
  let p ← setAt p i 2
  appendCriteria g p 4 criteria

/-- update.go:40-78 `AppendUpdateSet`; UpdateOperation_SET = 1. -/
def appendUpdateSet (g : Grow) (p : Slice) (name : Bytes) (value : Val) : M (Slice × Option Err) := do
  let i := p.len
  let (p, err) ← appendExpr g p 3 value
  match err with
  | some e => .ok (p, some e)
  | none =>
    let nV := p.len - i
    let n := name.length
    let n1 := 1 + sizeVarint n + n
    let n2 := 3 + sizeVarint n1 + n1 + nV
    let p ← sliceInsert g p i (1 + sizeVarint n2 + n2 - nV)
    let p ← setAt p i (keyBytes 7)
    let i := i + 1
    let (p, k) ← putUvarint p i n2
    let i := i + k
    let p ← setAt p i (keyBytes 1)
    let i := i + 1
    let (p, k) ← putUvarint p i n1
    let i := i + k
    let p ← setAt p i (keyBytes 2)
    let i := i + 1
    let (p, k) ← putUvarint p i n
    let i := i + k
    let (p, k) ← copyAt p i name
    let i := i + k
    let p ← setAt p i (keyVarint 2)
    let i := i + 1
    let p ← setAt p i 1
    .ok (p, none)

/-- authentication.go:48-60 `AuthenticateStart`; SESS_AUTHENTICATE_START = 4. `append(p[len(p):], ..)`
appends to an empty slice over the spare capacity of `p`: what `p` held is not part of the result. -/
def authenticateStart (g : Grow) (p : Slice) (mechName authData : Bytes) : M Slice := do
  let p ← append g ⟨[], p.spare⟩ [0, 0, 0, 0, 4]
  let p ← appendWireString g p 1 mechName
  let p ← if 0 < authData.length then appendWireString g p 2 authData else .ok p
  putUint32 p 0 (p.len - 4)

/-- authentication.go:62-70 `AuthenticateContinue`; SESS_AUTHENTICATE_CONTINUE = 5. -/
def authenticateContinue (g : Grow) (p : Slice) (authData : Bytes) : M Slice := do
  let p ← append g ⟨[], p.spare⟩ [0, 0, 0, 0, 5]
  let p ← appendWireString g p 1 authData
  putUint32 p 0 (p.len - 4)

end Verif.Model
