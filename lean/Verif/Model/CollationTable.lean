import Verif.Go.Strconv
/-! Generated from /repo/collation/collation.go by tools/collation.py. -/
namespace Verif.Model
open Verif.Go

/-- collation.go:20 `collationName`, in rows of 64 bytes -/
def collationRows : List Bytes :=
  [[98, 105, 103, 53, 95, 99, 104, 105, 110, 101, 115, 101, 95, 99, 105, 108, 97, 116, 105, 110, 50, 95, 99, 122, 101, 99, 104, 95, 99, 115, 100, 101, 99, 56, 95, 115, 119, 101, 100, 105, 115, 104, 95, 99, 105, 99, 112, 56, 53, 48, 95, 103, 101, 110, 101, 114, 97, 108, 95, 99, 105, 108, 97, 116],
   [105, 110, 49, 95, 103, 101, 114, 109, 97, 110, 49, 95, 99, 105, 104, 112, 56, 95, 101, 110, 103, 108, 105, 115, 104, 95, 99, 105, 107, 111, 105, 56, 114, 95, 103, 101, 110, 101, 114, 97, 108, 95, 99, 105, 108, 97, 116, 105, 110, 49, 95, 115, 119, 101, 100, 105, 115, 104, 95, 99, 105, 108, 97, 116],
   [105, 110, 50, 95, 103, 101, 110, 101, 114, 97, 108, 95, 99, 105, 115, 119, 101, 55, 95, 115, 119, 101, 100, 105, 115, 104, 95, 99, 105, 97, 115, 99, 105, 105, 95, 103, 101, 110, 101, 114, 97, 108, 95, 99, 105, 117, 106, 105, 115, 95, 106, 97, 112, 97, 110, 101, 115, 101, 95, 99, 105, 115, 106, 105],
   [115, 95, 106, 97, 112, 97, 110, 101, 115, 101, 95, 99, 105, 99, 112, 49, 50, 53, 49, 95, 98, 117, 108, 103, 97, 114, 105, 97, 110, 95, 99, 105, 108, 97, 116, 105, 110, 49, 95, 100, 97, 110, 105, 115, 104, 95, 99, 105, 104, 101, 98, 114, 101, 119, 95, 103, 101, 110, 101, 114, 97, 108, 95, 99],
   [105, 116, 105, 115, 54, 50, 48, 95, 116, 104, 97, 105, 95, 99, 105, 101, 117, 99, 107, 114, 95, 107, 111, 114, 101, 97, 110, 95, 99, 105, 108, 97, 116, 105, 110, 55, 95, 101, 115, 116, 111, 110, 105, 97, 110, 95, 99, 115, 108, 97, 116, 105, 110, 50, 95, 104, 117, 110, 103, 97, 114, 105, 97, 110],
   [95, 99, 105, 107, 111, 105, 56, 117, 95, 103, 101, 110, 101, 114, 97, 108, 95, 99, 105, 99, 112, 49, 50, 53, 49, 95, 117, 107, 114, 97, 105, 110, 105, 97, 110, 95, 99, 105, 103, 98, 50, 51, 49, 50, 95, 99, 104, 105, 110, 101, 115, 101, 95, 99, 105, 103, 114, 101, 101, 107, 95, 103, 101, 110],
   [101, 114, 97, 108, 95, 99, 105, 99, 112, 49, 50, 53, 48, 95, 103, 101, 110, 101, 114, 97, 108, 95, 99, 105, 108, 97, 116, 105, 110, 50, 95, 99, 114, 111, 97, 116, 105, 97, 110, 95, 99, 105, 103, 98, 107, 95, 99, 104, 105, 110, 101, 115, 101, 95, 99, 105, 99, 112, 49, 50, 53, 55, 95, 108],
   [105, 116, 104, 117, 97, 110, 105, 97, 110, 95, 99, 105, 108, 97, 116, 105, 110, 53, 95, 116, 117, 114, 107, 105, 115, 104, 95, 99, 105, 108, 97, 116, 105, 110, 49, 95, 103, 101, 114, 109, 97, 110, 50, 95, 99, 105, 97, 114, 109, 115, 99, 105, 105, 56, 95, 103, 101, 110, 101, 114, 97, 108, 95, 99],
   [105, 117, 116, 102, 56, 95, 103, 101, 110, 101, 114, 97, 108, 95, 99, 105, 99, 112, 49, 50, 53, 48, 95, 99, 122, 101, 99, 104, 95, 99, 115, 117, 99, 115, 50, 95, 103, 101, 110, 101, 114, 97, 108, 95, 99, 105, 99, 112, 56, 54, 54, 95, 103, 101, 110, 101, 114, 97, 108, 95, 99, 105, 107, 101],
   [121, 98, 99, 115, 50, 95, 103, 101, 110, 101, 114, 97, 108, 95, 99, 105, 109, 97, 99, 99, 101, 95, 103, 101, 110, 101, 114, 97, 108, 95, 99, 105, 109, 97, 99, 114, 111, 109, 97, 110, 95, 103, 101, 110, 101, 114, 97, 108, 95, 99, 105, 99, 112, 56, 53, 50, 95, 103, 101, 110, 101, 114, 97, 108],
   [95, 99, 105, 108, 97, 116, 105, 110, 55, 95, 103, 101, 110, 101, 114, 97, 108, 95, 99, 105, 108, 97, 116, 105, 110, 55, 95, 103, 101, 110, 101, 114, 97, 108, 95, 99, 115, 109, 97, 99, 99, 101, 95, 98, 105, 110, 99, 112, 49, 50, 53, 48, 95, 99, 114, 111, 97, 116, 105, 97, 110, 95, 99, 105],
   [117, 116, 102, 56, 109, 98, 52, 95, 103, 101, 110, 101, 114, 97, 108, 95, 99, 105, 117, 116, 102, 56, 109, 98, 52, 95, 98, 105, 110, 108, 97, 116, 105, 110, 49, 95, 98, 105, 110, 108, 97, 116, 105, 110, 49, 95, 103, 101, 110, 101, 114, 97, 108, 95, 99, 105, 108, 97, 116, 105, 110, 49, 95, 103],
   [101, 110, 101, 114, 97, 108, 95, 99, 115, 99, 112, 49, 50, 53, 49, 95, 98, 105, 110, 99, 112, 49, 50, 53, 49, 95, 103, 101, 110, 101, 114, 97, 108, 95, 99, 105, 99, 112, 49, 50, 53, 49, 95, 103, 101, 110, 101, 114, 97, 108, 95, 99, 115, 109, 97, 99, 114, 111, 109, 97, 110, 95, 98, 105],
   [110, 117, 116, 102, 49, 54, 95, 103, 101, 110, 101, 114, 97, 108, 95, 99, 105, 117, 116, 102, 49, 54, 95, 98, 105, 110, 117, 116, 102, 49, 54, 108, 101, 95, 103, 101, 110, 101, 114, 97, 108, 95, 99, 105, 99, 112, 49, 50, 53, 54, 95, 103, 101, 110, 101, 114, 97, 108, 95, 99, 105, 99, 112, 49],
   [50, 53, 55, 95, 98, 105, 110, 99, 112, 49, 50, 53, 55, 95, 103, 101, 110, 101, 114, 97, 108, 95, 99, 105, 117, 116, 102, 51, 50, 95, 103, 101, 110, 101, 114, 97, 108, 95, 99, 105, 117, 116, 102, 51, 50, 95, 98, 105, 110, 117, 116, 102, 49, 54, 108, 101, 95, 98, 105, 110, 98, 105, 110, 97],
   [114, 121, 97, 114, 109, 115, 99, 105, 105, 56, 95, 98, 105, 110, 97, 115, 99, 105, 105, 95, 98, 105, 110, 99, 112, 49, 50, 53, 48, 95, 98, 105, 110, 99, 112, 49, 50, 53, 54, 95, 98, 105, 110, 99, 112, 56, 54, 54, 95, 98, 105, 110, 100, 101, 99, 56, 95, 98, 105, 110, 103, 114, 101, 101],
   [107, 95, 98, 105, 110, 104, 101, 98, 114, 101, 119, 95, 98, 105, 110, 104, 112, 56, 95, 98, 105, 110, 107, 101, 121, 98, 99, 115, 50, 95, 98, 105, 110, 107, 111, 105, 56, 114, 95, 98, 105, 110, 107, 111, 105, 56, 117, 95, 98, 105, 110, 117, 116, 102, 56, 95, 116, 111, 108, 111, 119, 101, 114, 95],
   [99, 105, 108, 97, 116, 105, 110, 50, 95, 98, 105, 110, 108, 97, 116, 105, 110, 53, 95, 98, 105, 110, 108, 97, 116, 105, 110, 55, 95, 98, 105, 110, 99, 112, 56, 53, 48, 95, 98, 105, 110, 99, 112, 56, 53, 50, 95, 98, 105, 110, 115, 119, 101, 55, 95, 98, 105, 110, 117, 116, 102, 56, 95, 98],
   [105, 110, 98, 105, 103, 53, 95, 98, 105, 110, 101, 117, 99, 107, 114, 95, 98, 105, 110, 103, 98, 50, 51, 49, 50, 95, 98, 105, 110, 103, 98, 107, 95, 98, 105, 110, 115, 106, 105, 115, 95, 98, 105, 110, 116, 105, 115, 54, 50, 48, 95, 98, 105, 110, 117, 99, 115, 50, 95, 98, 105, 110, 117, 106],
   [105, 115, 95, 98, 105, 110, 103, 101, 111, 115, 116, 100, 56, 95, 103, 101, 110, 101, 114, 97, 108, 95, 99, 105, 103, 101, 111, 115, 116, 100, 56, 95, 98, 105, 110, 108, 97, 116, 105, 110, 49, 95, 115, 112, 97, 110, 105, 115, 104, 95, 99, 105, 99, 112, 57, 51, 50, 95, 106, 97, 112, 97, 110, 101],
   [115, 101, 95, 99, 105, 99, 112, 57, 51, 50, 95, 98, 105, 110, 101, 117, 99, 106, 112, 109, 115, 95, 106, 97, 112, 97, 110, 101, 115, 101, 95, 99, 105, 101, 117, 99, 106, 112, 109, 115, 95, 98, 105, 110, 99, 112, 49, 50, 53, 48, 95, 112, 111, 108, 105, 115, 104, 95, 99, 105, 117, 116, 102, 49],
   [54, 95, 117, 110, 105, 99, 111, 100, 101, 95, 99, 105, 117, 116, 102, 49, 54, 95, 105, 99, 101, 108, 97, 110, 100, 105, 99, 95, 99, 105, 117, 116, 102, 49, 54, 95, 108, 97, 116, 118, 105, 97, 110, 95, 99, 105, 117, 116, 102, 49, 54, 95, 114, 111, 109, 97, 110, 105, 97, 110, 95, 99, 105, 117],
   [116, 102, 49, 54, 95, 115, 108, 111, 118, 101, 110, 105, 97, 110, 95, 99, 105, 117, 116, 102, 49, 54, 95, 112, 111, 108, 105, 115, 104, 95, 99, 105, 117, 116, 102, 49, 54, 95, 101, 115, 116, 111, 110, 105, 97, 110, 95, 99, 105, 117, 116, 102, 49, 54, 95, 115, 112, 97, 110, 105, 115, 104, 95, 99],
   [105, 117, 116, 102, 49, 54, 95, 115, 119, 101, 100, 105, 115, 104, 95, 99, 105, 117, 116, 102, 49, 54, 95, 116, 117, 114, 107, 105, 115, 104, 95, 99, 105, 117, 116, 102, 49, 54, 95, 99, 122, 101, 99, 104, 95, 99, 105, 117, 116, 102, 49, 54, 95, 100, 97, 110, 105, 115, 104, 95, 99, 105, 117, 116],
   [102, 49, 54, 95, 108, 105, 116, 104, 117, 97, 110, 105, 97, 110, 95, 99, 105, 117, 116, 102, 49, 54, 95, 115, 108, 111, 118, 97, 107, 95, 99, 105, 117, 116, 102, 49, 54, 95, 115, 112, 97, 110, 105, 115, 104, 50, 95, 99, 105, 117, 116, 102, 49, 54, 95, 114, 111, 109, 97, 110, 95, 99, 105, 117],
   [116, 102, 49, 54, 95, 112, 101, 114, 115, 105, 97, 110, 95, 99, 105, 117, 116, 102, 49, 54, 95, 101, 115, 112, 101, 114, 97, 110, 116, 111, 95, 99, 105, 117, 116, 102, 49, 54, 95, 104, 117, 110, 103, 97, 114, 105, 97, 110, 95, 99, 105, 117, 116, 102, 49, 54, 95, 115, 105, 110, 104, 97, 108, 97],
   [95, 99, 105, 117, 116, 102, 49, 54, 95, 103, 101, 114, 109, 97, 110, 50, 95, 99, 105, 117, 116, 102, 49, 54, 95, 99, 114, 111, 97, 116, 105, 97, 110, 95, 99, 105, 117, 116, 102, 49, 54, 95, 117, 110, 105, 99, 111, 100, 101, 95, 53, 50, 48, 95, 99, 105, 117, 116, 102, 49, 54, 95, 118, 105],
   [101, 116, 110, 97, 109, 101, 115, 101, 95, 99, 105, 117, 99, 115, 50, 95, 117, 110, 105, 99, 111, 100, 101, 95, 99, 105, 117, 99, 115, 50, 95, 105, 99, 101, 108, 97, 110, 100, 105, 99, 95, 99, 105, 117, 99, 115, 50, 95, 108, 97, 116, 118, 105, 97, 110, 95, 99, 105, 117, 99, 115, 50, 95, 114],
   [111, 109, 97, 110, 105, 97, 110, 95, 99, 105, 117, 99, 115, 50, 95, 115, 108, 111, 118, 101, 110, 105, 97, 110, 95, 99, 105, 117, 99, 115, 50, 95, 112, 111, 108, 105, 115, 104, 95, 99, 105, 117, 99, 115, 50, 95, 101, 115, 116, 111, 110, 105, 97, 110, 95, 99, 105, 117, 99, 115, 50, 95, 115, 112],
   [97, 110, 105, 115, 104, 95, 99, 105, 117, 99, 115, 50, 95, 115, 119, 101, 100, 105, 115, 104, 95, 99, 105, 117, 99, 115, 50, 95, 116, 117, 114, 107, 105, 115, 104, 95, 99, 105, 117, 99, 115, 50, 95, 99, 122, 101, 99, 104, 95, 99, 105, 117, 99, 115, 50, 95, 100, 97, 110, 105, 115, 104, 95, 99],
   [105, 117, 99, 115, 50, 95, 108, 105, 116, 104, 117, 97, 110, 105, 97, 110, 95, 99, 105, 117, 99, 115, 50, 95, 115, 108, 111, 118, 97, 107, 95, 99, 105, 117, 99, 115, 50, 95, 115, 112, 97, 110, 105, 115, 104, 50, 95, 99, 105, 117, 99, 115, 50, 95, 114, 111, 109, 97, 110, 95, 99, 105, 117, 99],
   [115, 50, 95, 112, 101, 114, 115, 105, 97, 110, 95, 99, 105, 117, 99, 115, 50, 95, 101, 115, 112, 101, 114, 97, 110, 116, 111, 95, 99, 105, 117, 99, 115, 50, 95, 104, 117, 110, 103, 97, 114, 105, 97, 110, 95, 99, 105, 117, 99, 115, 50, 95, 115, 105, 110, 104, 97, 108, 97, 95, 99, 105, 117, 99],
   [115, 50, 95, 103, 101, 114, 109, 97, 110, 50, 95, 99, 105, 117, 99, 115, 50, 95, 99, 114, 111, 97, 116, 105, 97, 110, 95, 99, 105, 117, 99, 115, 50, 95, 117, 110, 105, 99, 111, 100, 101, 95, 53, 50, 48, 95, 99, 105, 117, 99, 115, 50, 95, 118, 105, 101, 116, 110, 97, 109, 101, 115, 101, 95],
   [99, 105, 117, 99, 115, 50, 95, 103, 101, 110, 101, 114, 97, 108, 95, 109, 121, 115, 113, 108, 53, 48, 48, 95, 99, 105, 117, 116, 102, 51, 50, 95, 117, 110, 105, 99, 111, 100, 101, 95, 99, 105, 117, 116, 102, 51, 50, 95, 105, 99, 101, 108, 97, 110, 100, 105, 99, 95, 99, 105, 117, 116, 102, 51],
   [50, 95, 108, 97, 116, 118, 105, 97, 110, 95, 99, 105, 117, 116, 102, 51, 50, 95, 114, 111, 109, 97, 110, 105, 97, 110, 95, 99, 105, 117, 116, 102, 51, 50, 95, 115, 108, 111, 118, 101, 110, 105, 97, 110, 95, 99, 105, 117, 116, 102, 51, 50, 95, 112, 111, 108, 105, 115, 104, 95, 99, 105, 117, 116],
   [102, 51, 50, 95, 101, 115, 116, 111, 110, 105, 97, 110, 95, 99, 105, 117, 116, 102, 51, 50, 95, 115, 112, 97, 110, 105, 115, 104, 95, 99, 105, 117, 116, 102, 51, 50, 95, 115, 119, 101, 100, 105, 115, 104, 95, 99, 105, 117, 116, 102, 51, 50, 95, 116, 117, 114, 107, 105, 115, 104, 95, 99, 105, 117],
   [116, 102, 51, 50, 95, 99, 122, 101, 99, 104, 95, 99, 105, 117, 116, 102, 51, 50, 95, 100, 97, 110, 105, 115, 104, 95, 99, 105, 117, 116, 102, 51, 50, 95, 108, 105, 116, 104, 117, 97, 110, 105, 97, 110, 95, 99, 105, 117, 116, 102, 51, 50, 95, 115, 108, 111, 118, 97, 107, 95, 99, 105, 117, 116],
   [102, 51, 50, 95, 115, 112, 97, 110, 105, 115, 104, 50, 95, 99, 105, 117, 116, 102, 51, 50, 95, 114, 111, 109, 97, 110, 95, 99, 105, 117, 116, 102, 51, 50, 95, 112, 101, 114, 115, 105, 97, 110, 95, 99, 105, 117, 116, 102, 51, 50, 95, 101, 115, 112, 101, 114, 97, 110, 116, 111, 95, 99, 105, 117],
   [116, 102, 51, 50, 95, 104, 117, 110, 103, 97, 114, 105, 97, 110, 95, 99, 105, 117, 116, 102, 51, 50, 95, 115, 105, 110, 104, 97, 108, 97, 95, 99, 105, 117, 116, 102, 51, 50, 95, 103, 101, 114, 109, 97, 110, 50, 95, 99, 105, 117, 116, 102, 51, 50, 95, 99, 114, 111, 97, 116, 105, 97, 110, 95],
   [99, 105, 117, 116, 102, 51, 50, 95, 117, 110, 105, 99, 111, 100, 101, 95, 53, 50, 48, 95, 99, 105, 117, 116, 102, 51, 50, 95, 118, 105, 101, 116, 110, 97, 109, 101, 115, 101, 95, 99, 105, 117, 116, 102, 56, 95, 117, 110, 105, 99, 111, 100, 101, 95, 99, 105, 117, 116, 102, 56, 95, 105, 99, 101],
   [108, 97, 110, 100, 105, 99, 95, 99, 105, 117, 116, 102, 56, 95, 108, 97, 116, 118, 105, 97, 110, 95, 99, 105, 117, 116, 102, 56, 95, 114, 111, 109, 97, 110, 105, 97, 110, 95, 99, 105, 117, 116, 102, 56, 95, 115, 108, 111, 118, 101, 110, 105, 97, 110, 95, 99, 105, 117, 116, 102, 56, 95, 112, 111],
   [108, 105, 115, 104, 95, 99, 105, 117, 116, 102, 56, 95, 101, 115, 116, 111, 110, 105, 97, 110, 95, 99, 105, 117, 116, 102, 56, 95, 115, 112, 97, 110, 105, 115, 104, 95, 99, 105, 117, 116, 102, 56, 95, 115, 119, 101, 100, 105, 115, 104, 95, 99, 105, 117, 116, 102, 56, 95, 116, 117, 114, 107, 105, 115],
   [104, 95, 99, 105, 117, 116, 102, 56, 95, 99, 122, 101, 99, 104, 95, 99, 105, 117, 116, 102, 56, 95, 100, 97, 110, 105, 115, 104, 95, 99, 105, 117, 116, 102, 56, 95, 108, 105, 116, 104, 117, 97, 110, 105, 97, 110, 95, 99, 105, 117, 116, 102, 56, 95, 115, 108, 111, 118, 97, 107, 95, 99, 105, 117],
   [116, 102, 56, 95, 115, 112, 97, 110, 105, 115, 104, 50, 95, 99, 105, 117, 116, 102, 56, 95, 114, 111, 109, 97, 110, 95, 99, 105, 117, 116, 102, 56, 95, 112, 101, 114, 115, 105, 97, 110, 95, 99, 105, 117, 116, 102, 56, 95, 101, 115, 112, 101, 114, 97, 110, 116, 111, 95, 99, 105, 117, 116, 102, 56],
   [95, 104, 117, 110, 103, 97, 114, 105, 97, 110, 95, 99, 105, 117, 116, 102, 56, 95, 115, 105, 110, 104, 97, 108, 97, 95, 99, 105, 117, 116, 102, 56, 95, 103, 101, 114, 109, 97, 110, 50, 95, 99, 105, 117, 116, 102, 56, 95, 99, 114, 111, 97, 116, 105, 97, 110, 95, 99, 105, 117, 116, 102, 56, 95],
   [117, 110, 105, 99, 111, 100, 101, 95, 53, 50, 48, 95, 99, 105, 117, 116, 102, 56, 95, 118, 105, 101, 116, 110, 97, 109, 101, 115, 101, 95, 99, 105, 117, 116, 102, 56, 95, 103, 101, 110, 101, 114, 97, 108, 95, 109, 121, 115, 113, 108, 53, 48, 48, 95, 99, 105, 117, 116, 102, 56, 109, 98, 52, 95],
   [117, 110, 105, 99, 111, 100, 101, 95, 99, 105, 117, 116, 102, 56, 109, 98, 52, 95, 105, 99, 101, 108, 97, 110, 100, 105, 99, 95, 99, 105, 117, 116, 102, 56, 109, 98, 52, 95, 108, 97, 116, 118, 105, 97, 110, 95, 99, 105, 117, 116, 102, 56, 109, 98, 52, 95, 114, 111, 109, 97, 110, 105, 97, 110],
   [95, 99, 105, 117, 116, 102, 56, 109, 98, 52, 95, 115, 108, 111, 118, 101, 110, 105, 97, 110, 95, 99, 105, 117, 116, 102, 56, 109, 98, 52, 95, 112, 111, 108, 105, 115, 104, 95, 99, 105, 117, 116, 102, 56, 109, 98, 52, 95, 101, 115, 116, 111, 110, 105, 97, 110, 95, 99, 105, 117, 116, 102, 56, 109],
   [98, 52, 95, 115, 112, 97, 110, 105, 115, 104, 95, 99, 105, 117, 116, 102, 56, 109, 98, 52, 95, 115, 119, 101, 100, 105, 115, 104, 95, 99, 105, 117, 116, 102, 56, 109, 98, 52, 95, 116, 117, 114, 107, 105, 115, 104, 95, 99, 105, 117, 116, 102, 56, 109, 98, 52, 95, 99, 122, 101, 99, 104, 95, 99],
   [105, 117, 116, 102, 56, 109, 98, 52, 95, 100, 97, 110, 105, 115, 104, 95, 99, 105, 117, 116, 102, 56, 109, 98, 52, 95, 108, 105, 116, 104, 117, 97, 110, 105, 97, 110, 95, 99, 105, 117, 116, 102, 56, 109, 98, 52, 95, 115, 108, 111, 118, 97, 107, 95, 99, 105, 117, 116, 102, 56, 109, 98, 52, 95],
   [115, 112, 97, 110, 105, 115, 104, 50, 95, 99, 105, 117, 116, 102, 56, 109, 98, 52, 95, 114, 111, 109, 97, 110, 95, 99, 105, 117, 116, 102, 56, 109, 98, 52, 95, 112, 101, 114, 115, 105, 97, 110, 95, 99, 105, 117, 116, 102, 56, 109, 98, 52, 95, 101, 115, 112, 101, 114, 97, 110, 116, 111, 95, 99],
   [105, 117, 116, 102, 56, 109, 98, 52, 95, 104, 117, 110, 103, 97, 114, 105, 97, 110, 95, 99, 105, 117, 116, 102, 56, 109, 98, 52, 95, 115, 105, 110, 104, 97, 108, 97, 95, 99, 105, 117, 116, 102, 56, 109, 98, 52, 95, 103, 101, 114, 109, 97, 110, 50, 95, 99, 105, 117, 116, 102, 56, 109, 98, 52],
   [95, 99, 114, 111, 97, 116, 105, 97, 110, 95, 99, 105, 117, 116, 102, 56, 109, 98, 52, 95, 117, 110, 105, 99, 111, 100, 101, 95, 53, 50, 48, 95, 99, 105, 117, 116, 102, 56, 109, 98, 52, 95, 118, 105, 101, 116, 110, 97, 109, 101, 115, 101, 95, 99, 105, 103, 98, 49, 56, 48, 51, 48, 95, 99],
   [104, 105, 110, 101, 115, 101, 95, 99, 105, 103, 98, 49, 56, 48, 51, 48, 95, 98, 105, 110, 103, 98, 49, 56, 48, 51, 48, 95, 117, 110, 105, 99, 111, 100, 101, 95, 53, 50, 48, 95, 99, 105, 117, 116, 102, 56, 109, 98, 52, 95, 48, 57, 48, 48, 95, 97, 105, 95, 99, 105, 117, 116, 102, 56],
   [109, 98, 52, 95, 100, 101, 95, 112, 98, 95, 48, 57, 48, 48, 95, 97, 105, 95, 99, 105, 117, 116, 102, 56, 109, 98, 52, 95, 105, 115, 95, 48, 57, 48, 48, 95, 97, 105, 95, 99, 105, 117, 116, 102, 56, 109, 98, 52, 95, 108, 118, 95, 48, 57, 48, 48, 95, 97, 105, 95, 99, 105, 117, 116],
   [102, 56, 109, 98, 52, 95, 114, 111, 95, 48, 57, 48, 48, 95, 97, 105, 95, 99, 105, 117, 116, 102, 56, 109, 98, 52, 95, 115, 108, 95, 48, 57, 48, 48, 95, 97, 105, 95, 99, 105, 117, 116, 102, 56, 109, 98, 52, 95, 112, 108, 95, 48, 57, 48, 48, 95, 97, 105, 95, 99, 105, 117, 116, 102],
   [56, 109, 98, 52, 95, 101, 116, 95, 48, 57, 48, 48, 95, 97, 105, 95, 99, 105, 117, 116, 102, 56, 109, 98, 52, 95, 101, 115, 95, 48, 57, 48, 48, 95, 97, 105, 95, 99, 105, 117, 116, 102, 56, 109, 98, 52, 95, 115, 118, 95, 48, 57, 48, 48, 95, 97, 105, 95, 99, 105, 117, 116, 102, 56],
   [109, 98, 52, 95, 116, 114, 95, 48, 57, 48, 48, 95, 97, 105, 95, 99, 105, 117, 116, 102, 56, 109, 98, 52, 95, 99, 115, 95, 48, 57, 48, 48, 95, 97, 105, 95, 99, 105, 117, 116, 102, 56, 109, 98, 52, 95, 100, 97, 95, 48, 57, 48, 48, 95, 97, 105, 95, 99, 105, 117, 116, 102, 56, 109],
   [98, 52, 95, 108, 116, 95, 48, 57, 48, 48, 95, 97, 105, 95, 99, 105, 117, 116, 102, 56, 109, 98, 52, 95, 115, 107, 95, 48, 57, 48, 48, 95, 97, 105, 95, 99, 105, 117, 116, 102, 56, 109, 98, 52, 95, 101, 115, 95, 116, 114, 97, 100, 95, 48, 57, 48, 48, 95, 97, 105, 95, 99, 105, 117],
   [116, 102, 56, 109, 98, 52, 95, 108, 97, 95, 48, 57, 48, 48, 95, 97, 105, 95, 99, 105, 117, 116, 102, 56, 109, 98, 52, 95, 101, 111, 95, 48, 57, 48, 48, 95, 97, 105, 95, 99, 105, 117, 116, 102, 56, 109, 98, 52, 95, 104, 117, 95, 48, 57, 48, 48, 95, 97, 105, 95, 99, 105, 117, 116],
   [102, 56, 109, 98, 52, 95, 104, 114, 95, 48, 57, 48, 48, 95, 97, 105, 95, 99, 105, 117, 116, 102, 56, 109, 98, 52, 95, 118, 105, 95, 48, 57, 48, 48, 95, 97, 105, 95, 99, 105, 117, 116, 102, 56, 109, 98, 52, 95, 48, 57, 48, 48, 95, 97, 115, 95, 99, 115, 117, 116, 102, 56, 109, 98],
   [52, 95, 100, 101, 95, 112, 98, 95, 48, 57, 48, 48, 95, 97, 115, 95, 99, 115, 117, 116, 102, 56, 109, 98, 52, 95, 105, 115, 95, 48, 57, 48, 48, 95, 97, 115, 95, 99, 115, 117, 116, 102, 56, 109, 98, 52, 95, 108, 118, 95, 48, 57, 48, 48, 95, 97, 115, 95, 99, 115, 117, 116, 102, 56],
   [109, 98, 52, 95, 114, 111, 95, 48, 57, 48, 48, 95, 97, 115, 95, 99, 115, 117, 116, 102, 56, 109, 98, 52, 95, 115, 108, 95, 48, 57, 48, 48, 95, 97, 115, 95, 99, 115, 117, 116, 102, 56, 109, 98, 52, 95, 112, 108, 95, 48, 57, 48, 48, 95, 97, 115, 95, 99, 115, 117, 116, 102, 56, 109],
   [98, 52, 95, 101, 116, 95, 48, 57, 48, 48, 95, 97, 115, 95, 99, 115, 117, 116, 102, 56, 109, 98, 52, 95, 101, 115, 95, 48, 57, 48, 48, 95, 97, 115, 95, 99, 115, 117, 116, 102, 56, 109, 98, 52, 95, 115, 118, 95, 48, 57, 48, 48, 95, 97, 115, 95, 99, 115, 117, 116, 102, 56, 109, 98],
   [52, 95, 116, 114, 95, 48, 57, 48, 48, 95, 97, 115, 95, 99, 115, 117, 116, 102, 56, 109, 98, 52, 95, 99, 115, 95, 48, 57, 48, 48, 95, 97, 115, 95, 99, 115, 117, 116, 102, 56, 109, 98, 52, 95, 100, 97, 95, 48, 57, 48, 48, 95, 97, 115, 95, 99, 115, 117, 116, 102, 56, 109, 98, 52],
   [95, 108, 116, 95, 48, 57, 48, 48, 95, 97, 115, 95, 99, 115, 117, 116, 102, 56, 109, 98, 52, 95, 115, 107, 95, 48, 57, 48, 48, 95, 97, 115, 95, 99, 115, 117, 116, 102, 56, 109, 98, 52, 95, 101, 115, 95, 116, 114, 97, 100, 95, 48, 57, 48, 48, 95, 97, 115, 95, 99, 115, 117, 116, 102],
   [56, 109, 98, 52, 95, 108, 97, 95, 48, 57, 48, 48, 95, 97, 115, 95, 99, 115, 117, 116, 102, 56, 109, 98, 52, 95, 101, 111, 95, 48, 57, 48, 48, 95, 97, 115, 95, 99, 115, 117, 116, 102, 56, 109, 98, 52, 95, 104, 117, 95, 48, 57, 48, 48, 95, 97, 115, 95, 99, 115, 117, 116, 102, 56],
   [109, 98, 52, 95, 104, 114, 95, 48, 57, 48, 48, 95, 97, 115, 95, 99, 115, 117, 116, 102, 56, 109, 98, 52, 95, 118, 105, 95, 48, 57, 48, 48, 95, 97, 115, 95, 99, 115, 117, 116, 102, 56, 109, 98, 52, 95, 106, 97, 95, 48, 57, 48, 48, 95, 97, 115, 95, 99, 115, 117, 116, 102, 56, 109],
   [98, 52, 95, 106, 97, 95, 48, 57, 48, 48, 95, 97, 115, 95, 99, 115, 95, 107, 115, 117, 116, 102, 56, 109, 98, 52, 95, 48, 57, 48, 48, 95, 97, 115, 95, 99, 105, 117, 116, 102, 56, 109, 98, 52, 95, 114, 117, 95, 48, 57, 48, 48, 95, 97, 105, 95, 99, 105, 117, 116, 102, 56, 109, 98],
   [52, 95, 114, 117, 95, 48, 57, 48, 48, 95, 97, 115, 95, 99, 115]]

/-- collation.go:22-293 `collationMap`: id, and the bounds of the slice of `collationName` -/
def collationMap : List (Nat × Nat × Nat) :=
  [(1, 0, 15), (2, 15, 30), (3, 30, 45), (4, 45, 61), (5, 61, 78), (6, 78, 92),
   (7, 92, 108), (8, 108, 125), (9, 125, 142), (10, 142, 157), (11, 157, 173), (12, 173, 189),
   (13, 189, 205), (14, 205, 224), (15, 224, 240), (16, 240, 257), (18, 257, 271), (19, 271, 286),
   (20, 286, 304), (21, 304, 323), (22, 323, 339), (23, 339, 358), (24, 358, 375), (25, 375, 391),
   (26, 391, 408), (27, 408, 426), (28, 426, 440), (29, 440, 460), (30, 460, 477), (31, 477, 494),
   (32, 494, 513), (33, 513, 528), (34, 528, 543), (35, 543, 558), (36, 558, 574), (37, 574, 592),
   (38, 592, 608), (39, 608, 627), (40, 627, 643), (41, 643, 660), (42, 660, 677), (43, 677, 686),
   (44, 686, 704), (45, 704, 722), (46, 722, 733), (47, 733, 743), (48, 743, 760), (49, 760, 777),
   (50, 777, 787), (51, 787, 804), (52, 804, 821), (53, 821, 833), (54, 833, 849), (55, 849, 858),
   (56, 858, 876), (57, 876, 893), (58, 893, 903), (59, 903, 920), (60, 920, 936), (61, 936, 945),
   (62, 945, 956), (63, 956, 962), (64, 962, 974), (65, 974, 983), (66, 983, 993), (67, 993, 1003),
   (68, 1003, 1012), (69, 1012, 1020), (70, 1020, 1029), (71, 1029, 1039), (72, 1039, 1046), (73, 1046, 1057),
   (74, 1057, 1066), (75, 1066, 1075), (76, 1075, 1090), (77, 1090, 1100), (78, 1100, 1110), (79, 1110, 1120),
   (80, 1120, 1129), (81, 1129, 1138), (82, 1138, 1146), (83, 1146, 1154), (84, 1154, 1162), (85, 1162, 1171),
   (86, 1171, 1181), (87, 1181, 1188), (88, 1188, 1196), (89, 1196, 1206), (90, 1206, 1214), (91, 1214, 1222),
   (92, 1222, 1240), (93, 1240, 1251), (94, 1251, 1268), (95, 1268, 1285), (96, 1285, 1294), (97, 1294, 1313),
   (98, 1313, 1324), (99, 1324, 1340), (101, 1340, 1356), (102, 1356, 1374), (103, 1374, 1390), (104, 1390, 1407),
   (105, 1407, 1425), (106, 1425, 1440), (107, 1440, 1457), (108, 1457, 1473), (109, 1473, 1489), (110, 1489, 1505),
   (111, 1505, 1519), (112, 1519, 1534), (113, 1534, 1553), (114, 1553, 1568), (115, 1568, 1585), (116, 1585, 1599),
   (117, 1599, 1615), (118, 1615, 1633), (119, 1633, 1651), (120, 1651, 1667), (121, 1667, 1683), (122, 1683, 1700),
   (123, 1700, 1720), (124, 1720, 1739), (128, 1739, 1754), (129, 1754, 1771), (130, 1771, 1786), (131, 1786, 1802),
   (132, 1802, 1819), (133, 1819, 1833), (134, 1833, 1849), (135, 1849, 1864), (136, 1864, 1879), (137, 1879, 1894),
   (138, 1894, 1907), (139, 1907, 1921), (140, 1921, 1939), (141, 1939, 1953), (142, 1953, 1969), (143, 1969, 1982),
   (144, 1982, 1997), (145, 1997, 2014), (146, 2014, 2031), (147, 2031, 2046), (148, 2046, 2061), (149, 2061, 2077),
   (150, 2077, 2096), (151, 2096, 2114), (159, 2114, 2138), (160, 2138, 2154), (161, 2154, 2172), (162, 2172, 2188),
   (163, 2188, 2205), (164, 2205, 2223), (165, 2223, 2238), (166, 2238, 2255), (167, 2255, 2271), (168, 2271, 2287),
   (169, 2287, 2303), (170, 2303, 2317), (171, 2317, 2332), (172, 2332, 2351), (173, 2351, 2366), (174, 2366, 2383),
   (175, 2383, 2397), (176, 2397, 2413), (177, 2413, 2431), (178, 2431, 2449), (179, 2449, 2465), (180, 2465, 2481),
   (181, 2481, 2498), (182, 2498, 2518), (183, 2518, 2537), (192, 2537, 2552), (193, 2552, 2569), (194, 2569, 2584),
   (195, 2584, 2600), (196, 2600, 2617), (197, 2617, 2631), (198, 2631, 2647), (199, 2647, 2662), (200, 2662, 2677),
   (201, 2677, 2692), (202, 2692, 2705), (203, 2705, 2719), (204, 2719, 2737), (205, 2737, 2751), (206, 2751, 2767),
   (207, 2767, 2780), (208, 2780, 2795), (209, 2795, 2812), (210, 2812, 2829), (211, 2829, 2844), (212, 2844, 2859),
   (213, 2859, 2875), (214, 2875, 2894), (215, 2894, 2912), (223, 2912, 2936), (224, 2936, 2954), (225, 2954, 2974),
   (226, 2974, 2992), (227, 2992, 3011), (228, 3011, 3031), (229, 3031, 3048), (230, 3048, 3067), (231, 3067, 3085),
   (232, 3085, 3103), (233, 3103, 3121), (234, 3121, 3137), (235, 3137, 3154), (236, 3154, 3175), (237, 3175, 3192),
   (238, 3192, 3211), (239, 3211, 3227), (240, 3227, 3245), (241, 3245, 3265), (242, 3265, 3285), (243, 3285, 3303),
   (244, 3303, 3321), (245, 3321, 3340), (246, 3340, 3362), (247, 3362, 3383), (248, 3383, 3401), (249, 3401, 3412),
   (250, 3412, 3434), (255, 3434, 3452), (256, 3452, 3476), (257, 3476, 3497), (258, 3497, 3518), (259, 3518, 3539),
   (260, 3539, 3560), (261, 3560, 3581), (262, 3581, 3602), (263, 3602, 3623), (264, 3623, 3644), (265, 3644, 3665),
   (266, 3665, 3686), (267, 3686, 3707), (268, 3707, 3728), (269, 3728, 3749), (270, 3749, 3775), (271, 3775, 3796),
   (273, 3796, 3817), (274, 3817, 3838), (275, 3838, 3859), (277, 3859, 3880), (278, 3880, 3898), (279, 3898, 3922),
   (280, 3922, 3943), (281, 3943, 3964), (282, 3964, 3985), (283, 3985, 4006), (284, 4006, 4027), (285, 4027, 4048),
   (286, 4048, 4069), (287, 4069, 4090), (288, 4090, 4111), (289, 4111, 4132), (290, 4132, 4153), (291, 4153, 4174),
   (292, 4174, 4195), (293, 4195, 4221), (294, 4221, 4242), (296, 4242, 4263), (297, 4263, 4284), (298, 4284, 4305),
   (300, 4305, 4326), (303, 4326, 4347), (304, 4347, 4371), (305, 4371, 4389), (306, 4389, 4410), (307, 4410, 4431)]

/-- collation.go:295-567, the exported constants -/
def collationConstants : List (String × Nat) :=
  [("Big5ChineseCi", 1), ("Latin2CzechCs", 2), ("Dec8SwedishCi", 3),
   ("Cp850GeneralCi", 4), ("Latin1German1Ci", 5), ("Hp8EnglishCi", 6),
   ("Koi8rGeneralCi", 7), ("Latin1SwedishCi", 8), ("Latin2GeneralCi", 9),
   ("Swe7SwedishCi", 10), ("ASCIIGeneralCi", 11), ("UjisJapaneseCi", 12),
   ("SjisJapaneseCi", 13), ("Cp1251BulgarianCi", 14), ("Latin1DanishCi", 15),
   ("HebrewGeneralCi", 16), ("Tis620ThaiCi", 18), ("EuckrKoreanCi", 19),
   ("Latin7EstonianCs", 20), ("Latin2HungarianCi", 21), ("Koi8uGeneralCi", 22),
   ("Cp1251UkrainianCi", 23), ("Gb2312ChineseCi", 24), ("GreekGeneralCi", 25),
   ("Cp1250GeneralCi", 26), ("Latin2CroatianCi", 27), ("GbkChineseCi", 28),
   ("Cp1257LithuanianCi", 29), ("Latin5TurkishCi", 30), ("Latin1German2Ci", 31),
   ("Armscii8GeneralCi", 32), ("UTF8GeneralCi", 33), ("Cp1250CzechCs", 34),
   ("UCS2GeneralCi", 35), ("Cp866GeneralCi", 36), ("Keybcs2GeneralCi", 37),
   ("MacceGeneralCi", 38), ("MacromanGeneralCi", 39), ("Cp852GeneralCi", 40),
   ("Latin7GeneralCi", 41), ("Latin7GeneralCs", 42), ("MacceBin", 43),
   ("Cp1250CroatianCi", 44), ("UTF8mb4GeneralCi", 45), ("UTF8mb4Bin", 46),
   ("Latin1Bin", 47), ("Latin1GeneralCi", 48), ("Latin1GeneralCs", 49),
   ("Cp1251Bin", 50), ("Cp1251GeneralCi", 51), ("Cp1251GeneralCs", 52),
   ("MacromanBin", 53), ("UTF16GeneralCi", 54), ("UTF16Bin", 55),
   ("UTF16leGeneralCi", 56), ("Cp1256GeneralCi", 57), ("Cp1257Bin", 58),
   ("Cp1257GeneralCi", 59), ("UTF32GeneralCi", 60), ("UTF32Bin", 61),
   ("UTF16leBin", 62), ("Binary", 63), ("Armscii8Bin", 64),
   ("ASCIIBin", 65), ("Cp1250Bin", 66), ("Cp1256Bin", 67),
   ("Cp866Bin", 68), ("Dec8Bin", 69), ("GreekBin", 70),
   ("HebrewBin", 71), ("Hp8Bin", 72), ("Keybcs2Bin", 73),
   ("Koi8rBin", 74), ("Koi8uBin", 75), ("UTF8TolowerCi", 76),
   ("Latin2Bin", 77), ("Latin5Bin", 78), ("Latin7Bin", 79),
   ("Cp850Bin", 80), ("Cp852Bin", 81), ("Swe7Bin", 82),
   ("UTF8Bin", 83), ("Big5Bin", 84), ("EuckrBin", 85),
   ("Gb2312Bin", 86), ("GbkBin", 87), ("SjisBin", 88),
   ("Tis620Bin", 89), ("UCS2Bin", 90), ("UjisBin", 91),
   ("Geostd8GeneralCi", 92), ("Geostd8Bin", 93), ("Latin1SpanishCi", 94),
   ("Cp932JapaneseCi", 95), ("Cp932Bin", 96), ("EucjpmsJapaneseCi", 97),
   ("EucjpmsBin", 98), ("Cp1250PolishCi", 99), ("UTF16UnicodeCi", 101),
   ("UTF16IcelandicCi", 102), ("UTF16LatvianCi", 103), ("UTF16RomanianCi", 104),
   ("UTF16SlovenianCi", 105), ("UTF16PolishCi", 106), ("UTF16EstonianCi", 107),
   ("UTF16SpanishCi", 108), ("UTF16SwedishCi", 109), ("UTF16TurkishCi", 110),
   ("UTF16CzechCi", 111), ("UTF16DanishCi", 112), ("UTF16LithuanianCi", 113),
   ("UTF16SlovakCi", 114), ("UTF16Spanish2Ci", 115), ("UTF16RomanCi", 116),
   ("UTF16PersianCi", 117), ("UTF16EsperantoCi", 118), ("UTF16HungarianCi", 119),
   ("UTF16SinhalaCi", 120), ("UTF16German2Ci", 121), ("UTF16CroatianCi", 122),
   ("UTF16Unicode520Ci", 123), ("UTF16VietnameseCi", 124), ("UCS2UnicodeCi", 128),
   ("UCS2IcelandicCi", 129), ("UCS2LatvianCi", 130), ("UCS2RomanianCi", 131),
   ("UCS2SlovenianCi", 132), ("UCS2PolishCi", 133), ("UCS2EstonianCi", 134),
   ("UCS2SpanishCi", 135), ("UCS2SwedishCi", 136), ("UCS2TurkishCi", 137),
   ("UCS2CzechCi", 138), ("UCS2DanishCi", 139), ("UCS2LithuanianCi", 140),
   ("UCS2SlovakCi", 141), ("UCS2Spanish2Ci", 142), ("UCS2RomanCi", 143),
   ("UCS2PersianCi", 144), ("UCS2EsperantoCi", 145), ("UCS2HungarianCi", 146),
   ("UCS2SinhalaCi", 147), ("UCS2German2Ci", 148), ("UCS2CroatianCi", 149),
   ("UCS2Unicode520Ci", 150), ("UCS2VietnameseCi", 151), ("UCS2GeneralMySQL500Ci", 159),
   ("UTF32UnicodeCi", 160), ("UTF32IcelandicCi", 161), ("UTF32LatvianCi", 162),
   ("UTF32RomanianCi", 163), ("UTF32SlovenianCi", 164), ("UTF32PolishCi", 165),
   ("UTF32EstonianCi", 166), ("UTF32SpanishCi", 167), ("UTF32SwedishCi", 168),
   ("UTF32TurkishCi", 169), ("UTF32CzechCi", 170), ("UTF32DanishCi", 171),
   ("UTF32LithuanianCi", 172), ("UTF32SlovakCi", 173), ("UTF32Spanish2Ci", 174),
   ("UTF32RomanCi", 175), ("UTF32PersianCi", 176), ("UTF32EsperantoCi", 177),
   ("UTF32HungarianCi", 178), ("UTF32SinhalaCi", 179), ("UTF32German2Ci", 180),
   ("UTF32CroatianCi", 181), ("UTF32Unicode520Ci", 182), ("UTF32VietnameseCi", 183),
   ("UTF8UnicodeCi", 192), ("UTF8IcelandicCi", 193), ("UTF8LatvianCi", 194),
   ("UTF8RomanianCi", 195), ("UTF8SlovenianCi", 196), ("UTF8PolishCi", 197),
   ("UTF8EstonianCi", 198), ("UTF8SpanishCi", 199), ("UTF8SwedishCi", 200),
   ("UTF8TurkishCi", 201), ("UTF8CzechCi", 202), ("UTF8DanishCi", 203),
   ("UTF8LithuanianCi", 204), ("UTF8SlovakCi", 205), ("UTF8Spanish2Ci", 206),
   ("UTF8RomanCi", 207), ("UTF8PersianCi", 208), ("UTF8EsperantoCi", 209),
   ("UTF8HungarianCi", 210), ("UTF8SinhalaCi", 211), ("UTF8German2Ci", 212),
   ("UTF8CroatianCi", 213), ("UTF8Unicode520Ci", 214), ("UTF8VietnameseCi", 215),
   ("UTF8GeneralMySQL500Ci", 223), ("UTF8mb4UnicodeCi", 224), ("UTF8mb4IcelandicCi", 225),
   ("UTF8mb4LatvianCi", 226), ("UTF8mb4RomanianCi", 227), ("UTF8mb4SlovenianCi", 228),
   ("UTF8mb4PolishCi", 229), ("UTF8mb4EstonianCi", 230), ("UTF8mb4SpanishCi", 231),
   ("UTF8mb4SwedishCi", 232), ("UTF8mb4TurkishCi", 233), ("UTF8mb4CzechCi", 234),
   ("UTF8mb4DanishCi", 235), ("UTF8mb4LithuanianCi", 236), ("UTF8mb4SlovakCi", 237),
   ("UTF8mb4Spanish2Ci", 238), ("UTF8mb4RomanCi", 239), ("UTF8mb4PersianCi", 240),
   ("UTF8mb4EsperantoCi", 241), ("UTF8mb4HungarianCi", 242), ("UTF8mb4SinhalaCi", 243),
   ("UTF8mb4German2Ci", 244), ("UTF8mb4CroatianCi", 245), ("UTF8mb4Unicode520Ci", 246),
   ("UTF8mb4VietnameseCi", 247), ("Gb18030ChineseCi", 248), ("Gb18030Bin", 249),
   ("Gb18030Unicode520Ci", 250), ("UTF8mb40900AiCi", 255), ("UTF8mb4DePb0900AiCi", 256),
   ("UTF8mb4Is0900AiCi", 257), ("UTF8mb4Lv0900AiCi", 258), ("UTF8mb4Ro0900AiCi", 259),
   ("UTF8mb4Sl0900AiCi", 260), ("UTF8mb4Pl0900AiCi", 261), ("UTF8mb4Et0900AiCi", 262),
   ("UTF8mb4Es0900AiCi", 263), ("UTF8mb4Sv0900AiCi", 264), ("UTF8mb4Tr0900AiCi", 265),
   ("UTF8mb4Cs0900AiCi", 266), ("UTF8mb4Da0900AiCi", 267), ("UTF8mb4Lt0900AiCi", 268),
   ("UTF8mb4Sk0900AiCi", 269), ("UTF8mb4EsTrad0900AiCi", 270), ("UTF8mb4La0900AiCi", 271),
   ("UTF8mb4Eo0900AiCi", 273), ("UTF8mb4Hu0900AiCi", 274), ("UTF8mb4Hr0900AiCi", 275),
   ("UTF8mb4Vi0900AiCi", 277), ("UTF8mb40900AsCs", 278), ("UTF8mb4DePb0900AsCs", 279),
   ("UTF8mb4Is0900AsCs", 280), ("UTF8mb4Lv0900AsCs", 281), ("UTF8mb4Ro0900AsCs", 282),
   ("UTF8mb4Sl0900AsCs", 283), ("UTF8mb4Pl0900AsCs", 284), ("UTF8mb4Et0900AsCs", 285),
   ("UTF8mb4Es0900AsCs", 286), ("UTF8mb4Sv0900AsCs", 287), ("UTF8mb4Tr0900AsCs", 288),
   ("UTF8mb4Cs0900AsCs", 289), ("UTF8mb4Da0900AsCs", 290), ("UTF8mb4Lt0900AsCs", 291),
   ("UTF8mb4Sk0900AsCs", 292), ("UTF8mb4EsTrad0900AsCs", 293), ("UTF8mb4La0900AsCs", 294),
   ("UTF8mb4Eo0900AsCs", 296), ("UTF8mb4Hu0900AsCs", 297), ("UTF8mb4Hr0900AsCs", 298),
   ("UTF8mb4Vi0900AsCs", 300), ("UTF8mb4Ja0900AsCs", 303), ("UTF8mb4Ja0900AsCsKs", 304),
   ("UTF8mb40900AsCi", 305), ("UTF8mb4Ru0900AiCi", 306), ("UTF8mb4Ru0900AsCs", 307)]

end Verif.Model
