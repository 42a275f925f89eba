/-
Go byte slices, as far as the encoders of /repo observe them.

A `[]byte` is represented by the bytes in `[0,len)` (`data`) and the bytes of the backing array in
`[len,cap)` (`spare`, whatever an earlier use of the array left there).  Sharing of one backing array
by two live slices is not represented: in the modelled functions the only aliases are a head `p` and
its tail `b`, and writes through `b[i]` are modelled as writes to `p[base+i]`.
-/
namespace Verif.Go

abbrev Bytes := List UInt8

/-- Abnormal termination: a Go run-time panic, or the runtime refusing an allocation. -/
inductive Crash where
  | panic
  | oom
  deriving DecidableEq, Repr

abbrev M := Except Crash

structure Slice where
  data : Bytes
  spare : Bytes
  deriving DecidableEq, Repr

namespace Slice

/-- `nil`. -/
def nil : Slice := ⟨[], []⟩

/-- `len(s)` -/
def len (s : Slice) : Nat := s.data.length

/-- `cap(s)` -/
def cap (s : Slice) : Nat := s.data.length + s.spare.length

end Slice

/-- Size limit of a Go allocation on amd64 (runtime `maxAlloc` = 2^48): `make` and `append` abort
beyond it, so no slice is ever longer. -/
def maxAlloc : Nat := 2 ^ 48

/-- What a reallocating `append` leaves as spare capacity: an arbitrary function of the old capacity
and the needed length.  (The runtime's growth policy is not modelled; theorems hold for every one.) -/
abbrev Grow := Nat → Nat → Nat

/-- Go `append(s, xs...)`. In place if the capacity suffices; otherwise a new zeroed array. -/
def append (g : Grow) (s : Slice) (xs : Bytes) : M Slice :=
  if s.len + xs.length ≤ maxAlloc then
    if xs.length ≤ s.spare.length then
      .ok ⟨s.data ++ xs, s.spare.drop xs.length⟩
    else
      .ok ⟨s.data ++ xs, List.replicate (g s.cap (s.len + xs.length)) 0⟩
  else .error .oom

/-- Go `s[:n]`; panics beyond the capacity, exposes stale bytes between len and cap. -/
def reslice (s : Slice) (n : Nat) : M Slice :=
  if n ≤ s.cap then .ok ⟨(s.data ++ s.spare).take n, (s.data ++ s.spare).drop n⟩
  else .error .panic

/-- Go `s[i] = v` -/
def setAt (s : Slice) (i : Nat) (v : UInt8) : M Slice :=
  if i < s.len then .ok ⟨s.data.set i v, s.spare⟩ else .error .panic

/-- Go `s[i] &= v` -/
def setAnd (s : Slice) (i : Nat) (v : UInt8) : M Slice :=
  match s.data[i]? with
  | some x => .ok ⟨s.data.set i (x &&& v), s.spare⟩
  | none => .error .panic

/-- Go `s[i] += v` -/
def setAdd (s : Slice) (i : Nat) (v : UInt8) : M Slice :=
  match s.data[i]? with
  | some x => .ok ⟨s.data.set i (x + v), s.spare⟩
  | none => .error .panic

/-- Overwrite `xs` from index `i` on, stopping at the end. -/
def overwrite : Bytes → Nat → Bytes → Bytes
  | [], _, _ => []
  | d, _, [] => d
  | _ :: d, 0, x :: xs => x :: overwrite d 0 xs
  | a :: d, i + 1, xs => a :: overwrite d i xs

/-- Go `copy(s[i:], xs)`: panics if `i > len(s)`, copies `min(len(s)-i, len(xs))` bytes and returns
that number. -/
def copyAt (s : Slice) (i : Nat) (xs : Bytes) : M (Slice × Nat) :=
  if i ≤ s.len then .ok (⟨overwrite s.data i xs, s.spare⟩, min (s.len - i) xs.length)
  else .error .panic

/-- The loop of Go's `binary.PutUvarint(s[i:], x)`; returns the index after the last byte written. The
fuel 10 is never exhausted for a 64-bit `x`. -/
def putUvarintLoop : Nat → Slice → Nat → Nat → M (Slice × Nat)
  | 0, _, _, _ => .error .panic
  | f + 1, s, i, x =>
    if x < 0x80 then do
      let s ← setAt s i (UInt8.ofNat x)
      .ok (s, i + 1)
    else do
      let s ← setAt s i (UInt8.ofNat x ||| 0x80)
      putUvarintLoop f s (i + 1) (x >>> 7)

/-- Go `binary.LittleEndian.PutUint32(s[i:], uint32(n))` (`_ = b[3]` first: nothing is written when
fewer than four bytes are left).  `UInt8.ofNat` truncates, which is `byte(..)`. -/
def putUint32 (s : Slice) (i : Nat) (n : Nat) : M Slice := do
  if i + 3 < s.len then
    let v := n % 2 ^ 32
    let s ← setAt s i (UInt8.ofNat v)
    let s ← setAt s (i + 1) (UInt8.ofNat (v >>> 8))
    let s ← setAt s (i + 2) (UInt8.ofNat (v >>> 16))
    setAt s (i + 3) (UInt8.ofNat (v >>> 24))
  else .error .panic

/-- Go `bits.Len(x)` -/
def bitLen (x : Nat) : Nat := if x = 0 then 0 else x.log2 + 1

end Verif.Go
