"""Generates lean/Verif/Model/CollationTable.lean from /repo/collation/collation.go."""
import re
s=open('/repo/collation/collation.go').read()
name=re.search(r'const collationName = "(.*)"',s).group(1)
tab=re.findall(r'(\d+):\s+collationName\[(\d+):(\d+)\]',s)
cons=re.findall(r'^\t(\w+)\s+Collation = (\d+)',s,re.M)
o=["import Verif.Go.Strconv",
"/-! Generated from /repo/collation/collation.go by tools/collation.py. -/",
"namespace Verif.Model","open Verif.Go",""]
rows=[name[i:i+64] for i in range(0,len(name),64)]
o.append("/-- collation.go:20 `collationName`, in rows of 64 bytes -/")
o.append("def collationRows : List Bytes :=\n  ["+",\n   ".join("["+", ".join(str(ord(c)) for c in r)+"]" for r in rows)+"]")
o.append("")
o.append("/-- collation.go:22-293 `collationMap`: id, and the bounds of the slice of `collationName` -/")
o.append("def collationMap : List (Nat × Nat × Nat) :=\n  ["+",\n   ".join(", ".join(f"({a}, {b}, {c})" for a,b,c in tab[i:i+6]) for i in range(0,len(tab),6))+"]")
o.append("")
o.append("/-- collation.go:295-567, the exported constants -/")
o.append("def collationConstants : List (String × Nat) :=\n  ["+",\n   ".join(", ".join(f'("{a}", {b})' for a,b in cons[i:i+3]) for i in range(0,len(cons),3))+"]")
o.append("")
o.append("end Verif.Model")
open('/verif/lean/Verif/Model/CollationTable.lean','w').write("\n".join(o)+"\n")
