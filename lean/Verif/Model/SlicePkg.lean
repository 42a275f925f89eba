import Verif.Go.Slice
/-! Model of /repo/slice/slice.go. -/
namespace Verif.Model
open Verif.Go

/-- slice/slice.go:11-20 `ForAppend(in, n)`.  Returns the head; the returned Go `tail` is
`head[len(in):]`, which callers of this model write as indices `len(in)+i` into the head. -/
def forAppend (s : Slice) (n : Nat) : M Slice :=
  let nn := s.len + n
  if nn ≤ maxAlloc then
    if nn ≤ s.cap then reslice s nn
    else if 2 * nn ≤ maxAlloc then .ok ⟨s.data ++ List.replicate n 0, List.replicate (2 * nn - nn) 0⟩
    else .error .oom
  else .error .oom

/-- slice/slice.go:23-34 `Insert(in, pos, n)`.  In the first branch `append(in[:pos+n], in[pos:]...)`
is a memmove within one array (or a copy to a new one); in both cases the appended bytes are the old
`in[pos:]`. -/
def sliceInsert (g : Grow) (s : Slice) (pos n : Nat) : M Slice := do
  if n = 0 then
    .ok s
  else if s.len < pos then
    .error .panic
  else if pos + n ≤ s.cap then
    let h ← reslice s (pos + n)
    append g h (s.data.drop pos)
  else if s.len + n + 512 ≤ maxAlloc then
    .ok ⟨s.data.take pos ++ List.replicate n 0 ++ s.data.drop pos, List.replicate 512 0⟩
  else .error .oom

/-- slice/slice.go:3-9 `Allocate(in, n)`.  Returns the first result; the second (the `n` usable bytes)
is its last `n` bytes. When reallocating, the old content is dropped, as in the code. -/
def allocate (s : Slice) (n : Nat) : M Slice :=
  if s.len + n ≤ s.cap then reslice s (s.len + n)
  else if 2 * n + 512 ≤ maxAlloc then .ok ⟨List.replicate n 0, List.replicate (n + 512) 0⟩
  else .error .oom

end Verif.Model
