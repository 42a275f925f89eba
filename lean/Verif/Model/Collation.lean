import Verif.Model.CollationTable
/-! Model of /repo/collation/collation.go. -/
namespace Verif.Model
open Verif.Go

/-- collation.go:20 -/
def collationName : Bytes := collationRows.flatten

/-- the value expressions `collationName[lo:hi]` of the map, collation.go:22-293 -/
def nameSlice (lo hi : Nat) : Bytes := (collationName.drop lo).take (hi - lo)

/-- the map with its values evaluated -/
def collationNames : List (Nat × Bytes) := collationMap.map fun e => (e.1, nameSlice e.2.1 e.2.2)

/-- collation.go:8-13; the map lookup is a search for the key (keys of a Go map literal are distinct). -/
def collationString (c : BitVec 64) : Bytes :=
  match collationNames.lookup c.toNat with
  | some str => str
  | none => ascii "Collation(" ++ decimal c.toNat ++ ascii ")"

/-- collation.go:16-18, with `Binary` from collation.go:358 -/
def isBinary (c : BitVec 64) : Bool := c.toNat == 63

end Verif.Model
