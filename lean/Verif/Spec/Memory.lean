import Verif.Spec.Wire
import Verif.Model.Connection
/-! What a server's bytes may cost in memory (C70). -/
namespace Verif.Spec
open Verif.Go Verif.Model

/-- `p` begins with headers announcing payloads of `ns` bytes, and behind these payloads there is `q` (nothing if `p` ends
within the last one). -/
inductive Announced : Bytes → List Nat → Bytes → Prop where
  | nil (p : Bytes) : Announced p [] p
  | cons {p q rest : Bytes} {t : UInt8} {n : Nat} {ns : List Nat} (h : readFixed 4 p = some (n + 1, t :: rest))
      (hr : Announced (rest.drop n) ns q) : Announced p (n :: ns) q

/-- The network failed. -/
def FromNetwork (e : Option ReadErr) : Prop := ∃ x, e = some (.io x)

/-- What the allocations `l` have to do with the bytes that arrived: `before` and `after` are the bytes still to be read,
`size` is the size of the buffer of the reader, `e` the error returned. -/
structure Spent (size : Nat) (before after : Bytes) (e : Option ReadErr) (l : List Nat) : Prop where
  /-- only for payloads that do not fit into the buffer of the reader -/
  large : ∀ a ∈ l, size < a ∧ a < 2 ^ 32
  /-- each has the size of a payload announced, at most one for each payload -/
  asked : ∃ ns q, Announced before ns q ∧ l.Sublist ns ∧ (e = none → q = after)
  /-- all have been filled with bytes from the network, unless it failed -/
  filled : ¬FromNetwork e → l.sum + after.length ≤ before.length
  /-- all but the last one have been filled in any case -/
  last : ∃ l0 l1, l = l0 ++ l1 ∧ l1.length ≤ 1 ∧ l0.sum + after.length ≤ before.length

end Verif.Spec
