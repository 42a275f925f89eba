import Verif.Spec.Unit
/-! What it means that a call records messages in the buffer of a builder. -/
namespace Verif.Spec
open Verif.Go Verif.Model

/-- A builder that accepts calls. -/
def Ready (b : Builder) : Prop := b.disabled = false ∧ b.err = none

/-- Behind the bytes `old` the buffer of `b` has frames that are read as exactly the messages `ms` (unless
they are 4 GiB or more, see C28), and `b` accepts further calls. -/
def Holds (b : Builder) (old : Bytes) (ms : List ClientMsg) : Prop :=
  Ready b ∧ ∃ fr, b.buf.data = old ++ fr ∧ (fr.length < 2 ^ 32 → decodeStream fr = some ms)

/-- The call appends exactly the messages `ms` to the buffer and returns `r` (or memory runs out). -/
def Records (g : Grow) (b : Builder) (c : Call) (ms : List ClientMsg) (r : Option Val) : Prop :=
  b.step g c = .error .oom ∨ ∃ b', b.step g c = .ok (b', r) ∧ Holds b' b.buf.data ms

/-- The builder has failed: `Send` hands nothing over and reports an error. -/
def Failed (b : Builder) : Prop := ∃ e, b.err = some e ∧ b.send = .ok (.error e)

end Verif.Spec
