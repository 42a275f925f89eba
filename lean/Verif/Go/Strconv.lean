import Verif.Go.Slice
/-! Decimal printing (contract of Go's strconv; trusted). `Verif.Spec.readNat` reads it back. -/
namespace Verif.Go

/-- ASCII digit -/
def digit (d : Nat) : UInt8 := UInt8.ofNat (48 + d % 10)

/-- `strconv.AppendUint(nil, n, 10)` / `strconv.Itoa` of a non-negative number (library contract). -/
def decimal (n : Nat) : Bytes :=
  if n < 10 then [digit n] else decimal (n / 10) ++ [digit n]
termination_by n

/-- ASCII bytes of a string literal (all literals used are ASCII). -/
def ascii (s : String) : Bytes := s.toList.map fun c => UInt8.ofNat c.toNat

end Verif.Go
