import Verif.Model.Builder
/-! Client programs that panic on their own account and recover.  The functions of Model/Builder.lean do not say what a
builder looks like after a panic; here they are repeated with the fields of the builders as they are when the panic
leaves the method, that is as assigned by the statements in front of it. -/
namespace Verif.Model
open Verif.Go

/-- How a piece of code ends: it returns, it panics leaving `s` behind, or memory runs out (which cannot be recovered
from). -/
inductive Ended (σ α : Type) where
  | ret (s : σ) (a : α)
  | panic (s : σ)
  | oom

/-- `r` is called at a point where the state is `s`. -/
def Ended.of {σ α β : Type} (s : σ) (r : M α) (k : α → Ended σ β) : Ended σ β :=
  match r with
  | .ok a => k a
  | .error .panic => .panic s
  | .error .oom => .oom

/-- one piece of code after the other -/
def Ended.then {σ α β : Type} (x : Ended σ α) (k : σ → α → Ended σ β) : Ended σ β :=
  match x with
  | .ret s a => k s a
  | .panic s => .panic s
  | .oom => .oom

/-- The loop builder.go:119-128 from row `i` on: `b.buf` is assigned row by row. -/
def Builder.rowsLeft (g : Grow) (ncols : Nat) : Nat → List (List Val) → Builder → Ended Builder Unit
  | _, [], b => .ret b ()
  | i, row :: rows, b =>
    if row.length ≠ ncols then .ret { b with err := some (.rowLen i ncols row.length) } ()
    else
      Ended.of b (appendInsertRow g b.buf row) fun x =>
        match x.2 with
        | some e => .ret { b with buf := x.1, err := some e } ()
        | none => rowsLeft g ncols (i + 1) rows { b with buf := x.1 }

/-- The loop builder.go:169-174: `b.buf` is assigned entry by entry. -/
def Builder.setsLeft (g : Grow) : List (Bytes × Val) → Builder → Ended Builder Unit
  | [], b => .ret b ()
  | (k, v) :: rest, b =>
    Ended.of b (appendUpdateSet g b.buf k v) fun x =>
      match x.2 with
      | some e => .ret { b with buf := x.1, err := some e } ()
      | none => setsLeft g rest { b with buf := x.1 }

/-- builder.go:129, 146, 175: the header of the message beginning at `n` is set, unless the loops above have failed
(lines 122, 126, 144, 167, 172 return first). -/
def Builder.patchLeft (n : Nat) (b : Builder) : Ended Builder (Option Val) :=
  if b.err.isSome then .ret b none
  else Ended.of b (putUint32 b.buf n (b.buf.len - n - 4)) fun p => .ret { b with buf := p } none

/-- builder.go:65-73 -/
def Builder.stmtLeft (g : Grow) (b : Builder) (stmt : Bytes) (args : List Val) : Ended Builder (Option Val) :=
  if b.disabled then .panic b
  else if b.err.isSome then .ret b none
  else Ended.of b (Model.stmtExecute g b.buf stmt args) fun x => .ret { b with buf := x.1, err := x.2 } none

/-- One call without callback, builder.go:65-188, as `Builder.step`. -/
def Builder.stepLeft (g : Grow) (b : Builder) (c : Call) : Ended Builder (Option Val) :=
  if b.disabled then .panic b
  else if b.err.isSome then .ret b none
  else
    match c with
    | .stmtExecute stmt args => b.stmtLeft g stmt args
    | .prepare id stmt => Ended.of b (Model.prepare b.buf id stmt) fun p => .ret { b with buf := p } none
    | .execute id args => Ended.of b (Model.execute g b.buf id args) fun x => .ret { b with buf := x.1, err := x.2 } none
    | .deallocate id => Ended.of b (Model.deallocate g b.buf id) fun p => .ret { b with buf := p } none
    | .insert name columns data =>
      Ended.of b (Model.insert b.buf name columns) fun p =>
        (Builder.rowsLeft g columns.length 0 data { b with buf := p }).then fun b' _ => b'.patchLeft b.buf.len
    | .insertRow name columns row =>
      Ended.of b (Model.insert b.buf name columns) fun p =>
        Ended.of { b with buf := p } (appendInsertRow g p row) fun x =>
          match x.2 with
          | some e => .ret { b with buf := x.1, err := some e } none
          | none =>
            (Builder.patchLeft b.buf.len { b with buf := x.1 }).then fun b _ =>
              let id := idVariable b.buf.len
              (b.stmtLeft g (ascii "SET " ++ id ++ ascii " = LAST_INSERT_ID()") []).then fun b _ =>
                .ret b (some (.variable id))
    | .update name criteria set =>
      Ended.of b (Model.update g b.buf name criteria) fun x =>
        match x.2 with
        | some e => .ret { b with buf := x.1, err := some e } none
        | none => (Builder.setsLeft g set { b with buf := x.1 }).then fun b' _ => b'.patchLeft b.buf.len
    | .delete name criteria => Ended.of b (Model.delete g b.buf name criteria) fun x => .ret { b with buf := x.1, err := x.2 } none

/-- The code of an `InsertF` callback (crud.go:14-22), with panics of its own and calls of
`func() { defer func() { recover() }(); ... }()`.  `left`: the bytes that the rows cut short by the panic have written
behind the end of the buffer by then; any bytes (which they are is not modelled). -/
inductive RRows where
  | done
  | row (args : List Val) (k : RRows)
  | outer (depth : Nat) (c : OuterCall) (k : RRows)
  | panic
  | attempt (body : RRows) (left : Bytes) (k : RRows)

/-- The same for `UpdateF`, crud.go:45-49. -/
inductive RSets where
  | done
  | set (name : Bytes) (value : Val) (k : RSets)
  | outer (depth : Nat) (c : OuterCall) (k : RSets)
  | panic
  | attempt (body : RSets) (left : Bytes) (k : RSets)

/-- A client program (`Prog`) that may panic by itself, and may run part of itself under `recover`: `attempt` goes on
with the results of the body, or with `none` if the body has panicked.  `left` as in `RRows`. -/
inductive RProg where
  | ret (err : Option Err) (out : List (Option Val))
  | call (c : Call) (k : Option Val → RProg)
  | tx (isolation : BitVec 64) (body : RProg) (k : List (Option Val) → RProg)
  | expect (op : UInt8) (body : RProg) (k : List (Option Val) → RProg)
  | insertF (name : Bytes) (columns : List Bytes) (body : RRows) (err : Option Err) (k : RProg)
  | updateF (name : Bytes) (criteria : Criteria) (body : RSets) (err : Option Err) (k : RProg)
  | outer (depth : Nat) (c : OuterCall) (k : RProg)
  | panic
  | attempt (body : RProg) (left : Bytes) (k : Option (List (Option Val)) → RProg)

/-- The spare part of the backing array, `left` having been written to it. -/
def dirty (p : Slice) (left : Bytes) : Slice := ⟨p.data, overwrite p.spare 0 left⟩

/-- A call on an enclosing builder, as `callOuter`. -/
def callOuterLeft (g : Grow) (outers : List Builder) (depth : Nat) (c : OuterCall) : Ended (List Builder) Unit :=
  match outers[depth]? with
  | none => .ret outers ()
  | some b =>
    match c with
    | .leaf c =>
      match b.stepLeft g c with
      | .ret b _ => .ret (outers.set depth b) ()
      | .panic b => .panic (outers.set depth b)
      | .oom => .oom
    | .reset => Ended.of outers b.reset fun b => .ret (outers.set depth b) ()
    | .send => Ended.of outers b.send fun _ => .ret outers ()
    | .tx | .expect | .insertF | .updateF => if b.disabled then .panic outers else .ret outers ()

/-- crud.go:34 `f(i)`; `i` is (buf, err). `Row` (crud.go:14-18) assigns its results after the encoder has returned. -/
def rowsLeft (g : Grow) : RRows → List Builder × Slice × Option Err → Ended (List Builder × Slice × Option Err) Unit
  | .done, s => .ret s ()
  | .row args k, s =>
    match s.2.2 with
    | some _ => rowsLeft g k s
    | none => Ended.of s (appendInsertRow g s.2.1 args) fun x => rowsLeft g k (s.1, x.1, x.2)
  | .outer d c k, s =>
    match callOuterLeft g s.1 d c with
    | .ret o _ => rowsLeft g k (o, s.2)
    | .panic o => .panic (o, s.2)
    | .oom => .oom
  | .panic, s => .panic s
  | .attempt body left k, s =>
    match rowsLeft g body s with
    | .ret s _ => rowsLeft g k s
    | .panic s => rowsLeft g k (s.1, dirty s.2.1 left, s.2.2)
    | .oom => .oom

/-- crud.go:62 `f(&u)`. -/
def setsLeft (g : Grow) : RSets → List Builder × Slice × Option Err → Ended (List Builder × Slice × Option Err) Unit
  | .done, s => .ret s ()
  | .set name v k, s =>
    match s.2.2 with
    | some _ => setsLeft g k s
    | none => Ended.of s (appendUpdateSet g s.2.1 name v) fun x => setsLeft g k (s.1, x.1, x.2)
  | .outer d c k, s =>
    match callOuterLeft g s.1 d c with
    | .ret o _ => setsLeft g k (o, s.2)
    | .panic o => .panic (o, s.2)
    | .oom => .oom
  | .panic, s => .panic s
  | .attempt body left k, s =>
    match setsLeft g body s with
    | .ret s _ => setsLeft g k s
    | .panic s => setsLeft g k (s.1, dirty s.2.1 left, s.2.2)
    | .oom => .oom

/-- `b.StmtExecute(s)` for each statement, builder.go:202-215. -/
def Builder.stmtsLeft (g : Grow) : List Bytes → Builder → Ended Builder (Option Val)
  | [], b => .ret b none
  | s :: ss, b => (b.stmtLeft g s []).then fun b _ => stmtsLeft g ss b

/-- A panic in a callback: the builder the callback was called on is left as it was then, disabled, for
builder.go:40-42, crud.go:35-37 and 63-65 are not reached. -/
def unwind {α : Type} (outers : List Builder) (child : Builder) : Ended (List Builder × Builder) α :=
  match outers with
  | [] => .panic ([], child) -- unreachable: the list keeps its length
  | b :: outers => .panic (outers, b)

/-- Running a client program, as `run`. -/
def runLeft (g : Grow) : RProg → List Builder → Builder → Ended (List Builder × Builder) (List (Option Val))
  | .ret _ out, outers, b => .ret (outers, b) out
  | .call c k, outers, b =>
    match b.stepLeft g c with
    | .ret b reply => runLeft g (k reply) outers b
    | .panic b => .panic (outers, b)
    | .oom => .oom
  | .tx level body k, outers, b =>
    -- builder.go:191-218
    if b.disabled then .panic (outers, b)
    else if b.err.isSome then runLeft g (k []) outers b
    else
      match isolationStmts level with
      | none => runLeft g (k []) outers { b with err := some .isolation }
      | some ss =>
        match Builder.stmtsLeft g ss b with
        | .oom => .oom
        | .panic b => .panic (outers, b)
        | .ret b _ =>
          match runLeft g body ({ b with disabled := true } :: outers) { buf := b.buf, err := b.err, disabled := false } with
          | .oom => .oom
          | .panic (outers, child) => unwind outers child
          | .ret ([], child) _ => .panic ([], child) -- unreachable
          | .ret (b :: outers, child) out =>
            match Builder.stmtLeft g { b with buf := child.buf, err := child.err, disabled := false } (ascii "COMMIT") [] with
            | .oom => .oom
            | .panic b => .panic (outers, b)
            | .ret b _ => runLeft g (k out) outers b
  | .expect op body k, outers, b =>
    -- builder.go:52-62
    if b.disabled then .panic (outers, b)
    else if b.err.isSome then runLeft g (k []) outers b
    else
      match expectOpen g b.buf op [.noError true] with
      | .error .oom => .oom
      | .error .panic => .panic (outers, b)
      | .ok p =>
        match runLeft g body ({ b with buf := p, disabled := true } :: outers) { buf := p, err := b.err, disabled := false } with
        | .oom => .oom
        | .panic (outers, child) => unwind outers child
        | .ret ([], child) _ => .panic ([], child) -- unreachable
        | .ret (b :: outers, child) out =>
          match expectClose g child.buf with
          | .error .oom => .oom
          | .error .panic => .panic (outers, { b with buf := child.buf, err := child.err, disabled := false })
          | .ok p => runLeft g (k out) outers { b with buf := p, err := child.err, disabled := false }
  | .insertF name columns body _ k, outers, b =>
    -- crud.go:24-38
    if b.disabled then .panic (outers, b)
    else if b.err.isSome then runLeft g k outers b
    else
      match Model.insert b.buf name columns with
      | .error .oom => .oom
      | .error .panic => .panic (outers, b)
      | .ok p =>
        match rowsLeft g body ({ b with disabled := true } :: outers, p, none) with
        | .oom => .oom
        | .panic (outers, _) => unwind outers b
        | .ret ([], _) _ => .panic ([], b) -- unreachable
        | .ret (b' :: outers, p, err) _ =>
          match putUint32 p b.buf.len (p.len - b.buf.len - 4) with
          | .error .oom => .oom
          | .error .panic => .panic (outers, { b' with buf := p, err := err })
          | .ok p => runLeft g k outers { b' with buf := p, err := err, disabled := false }
  | .updateF name criteria body _ k, outers, b =>
    -- crud.go:51-66
    if b.disabled then .panic (outers, b)
    else if b.err.isSome then runLeft g k outers b
    else
      match Model.update g b.buf name criteria with
      | .error .oom => .oom
      | .error .panic => .panic (outers, b)
      | .ok (p, err) =>
        match setsLeft g body ({ b with disabled := true } :: outers, p, err) with
        | .oom => .oom
        | .panic (outers, _) => unwind outers b
        | .ret ([], _) _ => .panic ([], b) -- unreachable
        | .ret (b' :: outers, p, err) _ =>
          match putUint32 p b.buf.len (p.len - b.buf.len - 4) with
          | .error .oom => .oom
          | .error .panic => .panic (outers, { b' with buf := p, err := err })
          | .ok p => runLeft g k outers { b' with buf := p, err := err, disabled := false }
  | .outer d c k, outers, b =>
    match callOuterLeft g outers d c with
    | .oom => .oom
    | .panic outers => .panic (outers, b)
    | .ret outers _ => runLeft g k outers b
  | .panic, outers, b => .panic (outers, b)
  | .attempt body left k, outers, b =>
    match runLeft g body outers b with
    | .oom => .oom
    | .ret (outers, b) out => runLeft g (k (some out)) outers b
    | .panic (outers, b) => runLeft g (k none) outers { b with buf := dirty b.buf left }

end Verif.Model
