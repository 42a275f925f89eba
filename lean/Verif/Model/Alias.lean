import Verif.Go.Slice
/-! Builders with the arrays behind their buffers (/repo/builder.go, /repo/crud.go, /repo/xpipe.go).  `Verif.Model.Builder` gives
every builder a buffer of its own; here the array is shared between a builder and the child it hands to a callback, and client
code may call any builder it has ever got hold of, at any time.  What the encoders write is any sequence of bytes here, where
they write it is not: behind the bytes that are there already (theorems `C14`), in place or in a new array. -/
namespace Verif.Model.Alias
open Verif.Go

/-- A slice: which array, how many bytes of it; the capacity reaches to the end of the array (no code of /repo cuts it). -/
structure Ref where
  arr : Nat
  len : Nat
  deriving DecidableEq, Repr

/-- The arrays.  Those from `next` on are not allocated yet. -/
structure Heap where
  arrays : Nat → Bytes
  next : Nat

def Heap.set (h : Heap) (a : Nat) (bs : Bytes) : Heap := { h with arrays := fun a' => if a' = a then bs else h.arrays a' }

/-- The bytes of a slice. -/
def Heap.data (h : Heap) (r : Ref) : Bytes := (h.arrays r.arr).take r.len

/-- `p = xproto.Something(p, ...)`: `enc` is appended.  In place if it fits; else in a new array, of any capacity, in which case
bytes behind the end of the old one may have been written before (an encoder appends several times). -/
inductive Put (h : Heap) (r : Ref) (enc : Bytes) : Heap → Ref → Prop where
  | inPlace {stale : Bytes} (hl : (h.data r ++ enc ++ stale).length = (h.arrays r.arr).length) :
      Put h r enc (h.set r.arr (h.data r ++ enc ++ stale)) ⟨r.arr, r.len + enc.length⟩
  | moved {stale spare : Bytes} {n : Nat} (hl : (h.data r ++ stale).length = (h.arrays r.arr).length) (hn : h.next ≤ n) :
      Put h r enc { (h.set r.arr (h.data r ++ stale)).set n (h.data r ++ enc ++ spare) with next := n + 1 } ⟨n, r.len + enc.length⟩

/-- `binary.LittleEndian.PutUint32(b.buf[n:], u)`: four bytes in place. -/
def Heap.patch (h : Heap) (r : Ref) (n : Nat) (u : Bytes) : Heap :=
  h.set r.arr ((h.arrays r.arr).take n ++ u ++ (h.arrays r.arr).drop (n + 4))

/-- builder.go:25-29, crud.go:9-12, 40-43: a `Builder`, or the `Insert` or `Update` that a callback gets (which is never
disabled). -/
structure Handle where
  ref : Ref
  err : Bool
  disabled : Bool
  deriving DecidableEq, Repr

/-- A callback that runs: the builder it was given to, what it got, and for InsertF and UpdateF where the message starts. -/
structure Frame where
  parent : Nat
  child : Nat
  start : Option Nat
  deriving DecidableEq, Repr

/-- The builders that exist, and the callbacks that run, innermost first. -/
structure State where
  heap : Heap
  handles : List Handle
  stack : List Frame

/-- What client code does. -/
inductive Act where
  /-- a method without callback on builder `i`, appending `enc` -/
  | call (i : Nat) (enc : Bytes)
  /-- one that fails -/
  | fail (i : Nat)
  /-- a method with a callback: `enc` is what it appends first -/
  | enter (i : Nat) (message : Bool) (enc : Bytes)
  /-- the callback returns: `enc` is what is appended then, or the new length field -/
  | leave (enc : Bytes)
  | reset (i : Nat)
  deriving DecidableEq, Repr

def State.put (s : State) (h : Heap) (i : Nat) (b : Handle) : State := { s with heap := h, handles := s.handles.set i b }

/-- The steps that do not panic.  Calls on a builder with an error do nothing (builder.go:56, 69, ...). -/
inductive Step : State → Act → State → Prop where
  /-- builder.go:65-188, crud.go:14-22, 45-49 -/
  | call {s : State} {i : Nat} {b : Handle} {enc : Bytes} {h : Heap} {r : Ref} (hb : s.handles[i]? = some b) (hd : b.disabled = false)
      (he : b.err = false) (hp : Put s.heap b.ref enc h r) : Step s (.call i enc) (s.put h i { b with ref := r })
  | callErr {s : State} {i : Nat} {b : Handle} {enc : Bytes} (hb : s.handles[i]? = some b) (hd : b.disabled = false) (he : b.err = true) :
      Step s (.call i enc) s
  /-- What has been written of the message stays behind the end, or counts to the buffer; nothing is sent from now on. -/
  | fail {s : State} {i : Nat} {b : Handle} {enc : Bytes} {h : Heap} {r : Ref} (hb : s.handles[i]? = some b) (hd : b.disabled = false)
      (he : b.err = false) (hp : Put s.heap b.ref enc h r) : Step s (.fail i) (s.put h i { b with ref := r, err := true })
  /-- xproto.go and any.go return nil instead of the buffer for unsupported types (`C12`, `C14`). -/
  | failNil {s : State} {i n : Nat} {b : Handle} (hb : s.handles[i]? = some b) (hd : b.disabled = false) (he : b.err = false)
      (hn : s.heap.next ≤ n) : Step s (.fail i) (s.put { s.heap.set n [] with next := n + 1 } i { b with ref := ⟨n, 0⟩, err := true })
  /-- builder.go:31-38, 59-60, 204-216; crud.go:31-34, 58-62 -/
  | enter {s : State} {i : Nat} {m : Bool} {b : Handle} {enc : Bytes} {h : Heap} {r : Ref} (hb : s.handles[i]? = some b)
      (hd : b.disabled = false) (he : b.err = false) (hp : Put s.heap b.ref enc h r) :
      Step s (.enter i m enc) ⟨h, s.handles.set i { b with ref := if m then b.ref else r, disabled := true } ++ [⟨r, false, false⟩],
        ⟨i, s.handles.length, if m then some b.ref.len else none⟩ :: s.stack⟩
  /-- builder.go:40-42, 61, 217 -/
  | leave {s : State} {i c : Nat} {fs : List Frame} {b k : Handle} {enc : Bytes} {h : Heap} {r : Ref} (hs : s.stack = ⟨i, c, none⟩ :: fs)
      (hb : s.handles[i]? = some b) (hk : s.handles[c]? = some k) (hp : Put s.heap k.ref enc h r) :
      Step s (.leave enc) ⟨h, s.handles.set i ⟨r, k.err, false⟩, fs⟩
  /-- crud.go:35-37, 63-65 -/
  | leaveMessage {s : State} {i c n : Nat} {fs : List Frame} {b k : Handle} {u : Bytes} (hs : s.stack = ⟨i, c, some n⟩ :: fs)
      (hb : s.handles[i]? = some b) (hk : s.handles[c]? = some k) (hu : u.length = 4) (hn : n + 4 ≤ k.ref.len) :
      Step s (.leave u) ⟨s.heap.patch k.ref n u, s.handles.set i ⟨k.ref, k.err, false⟩, fs⟩
  /-- xpipe.go:23-25, builder.go:220-226; only the first builder is an `XPipe`. -/
  | reset {s : State} {b : Handle} (hb : s.handles[0]? = some b) (hd : b.disabled = false) :
      Step s (.reset 0) (s.put s.heap 0 { b with ref := { b.ref with len := 0 }, err := false })

inductive Run : State → List Act → State → Prop where
  | nil (s : State) : Run s [] s
  | snoc {s s' s'' : State} {l : List Act} {a : Act} (h : Run s l s') (hs : Step s' a s'') : Run s (l ++ [a]) s''

/-- xpipe.go:18-21, builder.go:228-236 `Send`: the bytes handed to the `Sender` by the first builder, if it gets that far. -/
def State.sends (s : State) : Option Bytes :=
  match s.handles[0]? with
  | some b => if b.disabled || b.err then none else some (s.heap.data b.ref)
  | none => none

/-- xpipe.go:14-16 `New(n)` -/
def init (n : Nat) : State := ⟨⟨fun _ => List.replicate n 0, 1⟩, [⟨⟨0, 0⟩, false, false⟩], []⟩

end Verif.Model.Alias
