import Verif.Model.Messages
/-! Model of /repo/builder.go, /repo/crud.go and /repo/xpipe.go. -/
namespace Verif.Model
open Verif.Go

/-- builder.go:25-29 -/
structure Builder where
  buf : Slice
  err : Option Err
  disabled : Bool

/-- The exported methods of `Builder` taking no callback. Statement and names are the bytes of the Go
strings. `set` of `update` lists the entries of the Go map in the order the runtime iterates it
(builder.go:169), which is any order. -/
inductive Call where
  | stmtExecute (stmt : Bytes) (args : List Val)
  | prepare (id : BitVec 32) (stmt : Bytes)
  | execute (id : BitVec 32) (args : List Val)
  | deallocate (id : BitVec 32)
  | insert (name : Bytes) (columns : List Bytes) (data : List (List Val))
  | insertRow (name : Bytes) (columns : List Bytes) (row : List Val)
  | update (name : Bytes) (criteria : Criteria) (set : List (Bytes × Val))
  | delete (name : Bytes) (criteria : Criteria)

/-- builder.go:65-73 -/
def Builder.stmtExecute (g : Grow) (b : Builder) (stmt : Bytes) (args : List Val) : M Builder :=
  if b.disabled then .error .panic
  else if b.err.isSome then .ok b
  else do
    let (p, err) ← Model.stmtExecute g b.buf stmt args
    .ok { b with buf := p, err := err }

/-- The loop builder.go:119-128, from row `i` on. -/
def insertRows (g : Grow) (p : Slice) (ncols : Nat) (i : Nat) : List (List Val) → M (Slice × Option Err)
  | [] => .ok (p, none)
  | row :: rows =>
    if row.length ≠ ncols then .ok (p, some (.rowLen i ncols row.length))
    else do
      let (p, err) ← appendInsertRow g p row
      match err with
      | some e => .ok (p, some e)
      | none => insertRows g p ncols (i + 1) rows

/-- The loop builder.go:169-174. -/
def updateSets (g : Grow) (p : Slice) : List (Bytes × Val) → M (Slice × Option Err)
  | [] => .ok (p, none)
  | (k, v) :: rest => do
    let (p, err) ← appendUpdateSet g p k v
    match err with
    | some e => .ok (p, some e)
    | none => updateSets g p rest

/-- builder.go:149 `"@id$" + strconv.Itoa(n)` -/
def idVariable (n : Nat) : Bytes := ascii "@id$" ++ decimal n

/-- One call without callback; the second result is what `InsertRow` returns (`none` is the nil function),
always `none` for the others.  builder.go:65-154, 156-188. -/
def Builder.step (g : Grow) (b : Builder) (c : Call) : M (Builder × Option Val) :=
  if b.disabled then .error .panic
  else if b.err.isSome then .ok (b, none)
  else
    match c with
    | .stmtExecute stmt args => do
      let b ← b.stmtExecute g stmt args
      .ok (b, none)
    | .prepare id stmt => do
      let p ← Model.prepare b.buf id stmt
      .ok ({ b with buf := p }, none)
    | .execute id args => do
      let (p, err) ← Model.execute g b.buf id args
      .ok ({ b with buf := p, err := err }, none)
    | .deallocate id => do
      let p ← Model.deallocate g b.buf id
      .ok ({ b with buf := p }, none)
    | .insert name columns data => do
      let n := b.buf.len
      let p ← Model.insert b.buf name columns
      let (p, err) ← insertRows g p columns.length 0 data
      match err with
      | some e => .ok ({ b with buf := p, err := some e }, none)
      | none =>
        let p ← putUint32 p n (p.len - n - 4)
        .ok ({ b with buf := p }, none)
    | .insertRow name columns row => do
      let n := b.buf.len
      let p ← Model.insert b.buf name columns
      let (p, err) ← appendInsertRow g p row
      match err with
      | some e => .ok ({ b with buf := p, err := some e }, none)
      | none =>
        let p ← putUint32 p n (p.len - n - 4)
        let id := idVariable p.len
        let b ← { b with buf := p }.stmtExecute g (ascii "SET " ++ id ++ ascii " = LAST_INSERT_ID()") []
        .ok (b, some (.variable id))
    | .update name criteria set => do
      let n := b.buf.len
      let (p, err) ← Model.update g b.buf name criteria
      match err with
      | some e => .ok ({ b with buf := p, err := some e }, none)
      | none =>
        let (p, err) ← updateSets g p set
        match err with
        | some e => .ok ({ b with buf := p, err := some e }, none)
        | none =>
          let p ← putUint32 p n (p.len - n - 4)
          .ok ({ b with buf := p }, none)
    | .delete name criteria => do
      let (p, err) ← Model.delete g b.buf name criteria
      .ok ({ b with buf := p, err := err }, none)

/-- What a callback may do to an enclosing builder: any method (with whatever callback: it would not get
to run), including the top level `Reset` and `Send`. -/
inductive OuterCall where
  | leaf (c : Call)
  | tx
  | expect
  | insertF
  | updateF
  | reset
  | send

/-- Steps of an `InsertF` callback: rows (`Row`/`RowV`, crud.go:14-22), or a call on an enclosing builder
(0 = the builder `InsertF` was called on). -/
inductive RowStep where
  | row (args : List Val)
  | outer (depth : Nat) (c : OuterCall)

/-- Steps of an `UpdateF` callback, crud.go:45-49. -/
inductive SetStep where
  | set (name : Bytes) (value : Val)
  | outer (depth : Nat) (c : OuterCall)

/-- A client program on a builder: the body of a callback, or of the top level.  `call` continues with the
reply of the call; a callback's results `out` (values it stored for later use) are given to what follows
it.  The error a callback returns is `err`. -/
inductive Prog where
  | ret (err : Option Err) (out : List (Option Val))
  | call (c : Call) (k : Option Val → Prog)
  | tx (isolation : BitVec 64) (body : Prog) (k : List (Option Val) → Prog)
  | expect (op : UInt8) (body : Prog) (k : List (Option Val) → Prog)
  | insertF (name : Bytes) (columns : List Bytes) (body : List RowStep) (err : Option Err) (k : Prog)
  | updateF (name : Bytes) (criteria : Criteria) (body : List SetStep) (err : Option Err) (k : Prog)
  | outer (depth : Nat) (c : OuterCall) (k : Prog)

/-- xpipe.go:23-25 / builder.go:220-226 `Reset`: the old contents stay behind as spare capacity. -/
def Builder.reset (b : Builder) : M Builder :=
  if b.disabled then .error .panic
  else do
    let p ← reslice b.buf 0
    .ok { b with buf := p, err := none }

/-- builder.go:228-236 `send`: either the recorded error, or the bytes handed to the `Sender`. -/
def Builder.send (b : Builder) : M (Except Err Bytes) :=
  if b.disabled then .error .panic
  else
    match b.err with
    | some e => .ok (.error e)
    | none => .ok (.ok b.buf.data)

/-- A call on the enclosing builder number `depth` (0 = innermost).  Like all methods, those taking a callback
begin with a panic when the builder is disabled (builder.go:53, 192, crud.go:25, 52); what they do to an
enabled builder is `run` itself and not repeated here. -/
def callOuter (g : Grow) (outers : List Builder) (depth : Nat) (c : OuterCall) : M (List Builder) :=
  match outers[depth]? with
  | none => .ok outers -- no such builder: the program would not compile
  | some b =>
    match c with
    | .leaf c => do
      let (b, _) ← b.step g c
      .ok (outers.set depth b)
    | .reset => do
      let b ← b.reset
      .ok (outers.set depth b)
    | .send => do
      let _ ← b.send
      .ok outers
    | .tx | .expect | .insertF | .updateF => if b.disabled then .error .panic else .ok outers

/-- crud.go:34 `f(i)`; `i` is (buf, err). -/
def runRows (g : Grow) (outers : List Builder) (p : Slice) (err : Option Err) :
    List RowStep → M (List Builder × Slice × Option Err)
  | [] => .ok (outers, p, err)
  | .row args :: rest =>
    match err with
    | some _ => runRows g outers p err rest
    | none => do
      let (p, err) ← appendInsertRow g p args
      runRows g outers p err rest
  | .outer d c :: rest => do
    let outers ← callOuter g outers d c
    runRows g outers p err rest

/-- crud.go:62 `f(&u)`. -/
def runSets (g : Grow) (outers : List Builder) (p : Slice) (err : Option Err) :
    List SetStep → M (List Builder × Slice × Option Err)
  | [] => .ok (outers, p, err)
  | .set name v :: rest =>
    match err with
    | some _ => runSets g outers p err rest
    | none => do
      let (p, err) ← appendUpdateSet g p name v
      runSets g outers p err rest
  | .outer d c :: rest => do
    let outers ← callOuter g outers d c
    runSets g outers p err rest

/-- builder.go:198-214: the statements issued for an isolation level, `none` for an unsupported one. -/
def isolationStmts (level : BitVec 64) : Option (List Bytes) :=
  match level.toNat with
  | 0 => some [ascii "START TRANSACTION"]
  | 1 => some [ascii "SET TRANSACTION ISOLATION LEVEL READ UNCOMMITTED", ascii "START TRANSACTION"]
  | 2 => some [ascii "SET TRANSACTION ISOLATION LEVEL READ COMMITTED", ascii "START TRANSACTION"]
  | 3 => some [ascii "SET TRANSACTION ISOLATION LEVEL REPEATABLE READ", ascii "START TRANSACTION"]
  | 4 => some [ascii "SET TRANSACTION ISOLATION LEVEL SERIALIZABLE", ascii "START TRANSACTION"]
  | 5 => some [ascii "START TRANSACTION WITH CONSISTENT SNAPSHOT"]
  | _ => none

/-- `b.StmtExecute(s)` for each statement. -/
def Builder.stmts (g : Grow) (b : Builder) : List Bytes → M Builder
  | [] => .ok b
  | s :: ss => do
    let b ← b.stmtExecute g s []
    b.stmts g ss

/-- Running a client program on builder `b` with the enclosing builders `outers` (innermost first).
Results: enclosing builders, `b`, values handed to the outside.  Callbacks (builder.go:31-43 `call`): the
child starts with the parent's buffer and error; the parent is disabled meanwhile and takes both back. The
error returned by the callback is dropped, as at builder.go:39 and crud.go:34, 62. -/
def run (g : Grow) : Prog → List Builder → Builder → M (List Builder × Builder × List (Option Val))
  | .ret _ out, outers, b => .ok (outers, b, out)
  | .call c k, outers, b => do
    let (b, reply) ← b.step g c
    run g (k reply) outers b
  | .tx level body k, outers, b =>
    -- builder.go:191-218
    if b.disabled then .error .panic
    else if b.err.isSome then run g (k []) outers b
    else
      match isolationStmts level with
      | none => run g (k []) outers { b with err := some .isolation }
      | some ss => do
        let b ← b.stmts g ss
        let (outers', child, out) ← run g body ({ b with disabled := true } :: outers)
          { buf := b.buf, err := b.err, disabled := false }
        match outers' with
        | [] => .error .panic -- unreachable: the list keeps its length
        | b :: outers =>
          let b : Builder := { b with buf := child.buf, err := child.err, disabled := false }
          let b ← b.stmtExecute g (ascii "COMMIT") []
          run g (k out) outers b
  | .expect op body k, outers, b =>
    -- builder.go:52-62
    if b.disabled then .error .panic
    else if b.err.isSome then run g (k []) outers b
    else do
      let p ← expectOpen g b.buf op [.noError true]
      let b := { b with buf := p }
      let (outers', child, out) ← run g body ({ b with disabled := true } :: outers)
        { buf := b.buf, err := b.err, disabled := false }
      match outers' with
      | [] => .error .panic -- unreachable
      | b :: outers =>
        let b : Builder := { b with buf := child.buf, err := child.err, disabled := false }
        let p ← expectClose g b.buf
        run g (k out) outers { b with buf := p }
  | .insertF name columns body _ k, outers, b =>
    -- crud.go:24-38
    if b.disabled then .error .panic
    else if b.err.isSome then run g k outers b
    else do
      let n := b.buf.len
      let p ← Model.insert b.buf name columns
      let (outers', p, err) ← runRows g ({ b with disabled := true } :: outers) p none body
      match outers' with
      | [] => .error .panic -- unreachable
      | b :: outers =>
        let p ← putUint32 p n (p.len - n - 4)
        run g k outers { b with buf := p, err := err, disabled := false }
  | .updateF name criteria body _ k, outers, b =>
    -- crud.go:51-66
    if b.disabled then .error .panic
    else if b.err.isSome then run g k outers b
    else do
      let n := b.buf.len
      let (p, err) ← Model.update g b.buf name criteria
      let (outers', p, err) ← runSets g ({ b with disabled := true } :: outers) p err body
      match outers' with
      | [] => .error .panic -- unreachable
      | b :: outers =>
        let p ← putUint32 p n (p.len - n - 4)
        run g k outers { b with buf := p, err := err, disabled := false }
  | .outer d c k, outers, b => do
    let outers ← callOuter g outers d c
    run g k outers b

/-- xpipe.go:14-16 `New(n)`: an empty buffer with capacity `n`. -/
def newPipe (n : Nat) : Builder := { buf := ⟨[], List.replicate n 0⟩, err := none, disabled := false }

end Verif.Model
