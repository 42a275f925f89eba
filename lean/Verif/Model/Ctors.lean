import Verif.Model.Value
import Verif.Spec.Operators
/-! Model of the expression constructors of /repo/expr.go:88-430. -/
namespace Verif.Model
open Verif.Go
open Verif.Spec (Unary Binary Ternary)

/-- expr.go:96-100 `Default` -/
def exprDefault : Val := .op (ascii "default") []

/-- expr.go:105-121 `Not`, `Plus`, `Minus` -/
def unary : Unary → Val → Val
  | .not, a => .op (ascii "!") [a]
  | .plus, a => .op (ascii "sign_plus") [a]
  | .minus, a => .op (ascii "sign_minus") [a]

/-- expr.go:126-326, the constructors of two operands in the order of the file. -/
def binary : Binary → Val → Val → Val
  | .and, a, b => .op (ascii "&&") [a, b]
  | .or, a, b => .op (ascii "||") [a, b]
  | .xor, a, b => .op (ascii "xor") [a, b]
  | .eq, a, b => .op (ascii "==") [a, b]
  | .neq, a, b => .op (ascii "!=") [a, b]
  | .lte, a, b => .op (ascii "<=") [a, b]
  | .lt, a, b => .op (ascii "<") [a, b]
  | .gt, a, b => .op (ascii ">") [a, b]
  | .gte, a, b => .op (ascii ">=") [a, b]
  | .bitAnd, a, b => .op (ascii "&") [a, b]
  | .bitOr, a, b => .op (ascii "|") [a, b]
  | .bitXor, a, b => .op (ascii "^") [a, b]
  | .leftShift, a, b => .op (ascii "<<") [a, b]
  | .rightShift, a, b => .op (ascii ">>") [a, b]
  | .add, a, b => .op (ascii "+") [a, b]
  | .sub, a, b => .op (ascii "-") [a, b]
  | .mul, a, b => .op (ascii "*") [a, b]
  | .div, a, b => .op (ascii "/") [a, b]
  | .intDiv, a, b => .op (ascii "div") [a, b]
  | .mod, a, b => .op (ascii "%") [a, b]
  | .is, a, b => .op (ascii "is") [a, b]
  | .isNot, a, b => .op (ascii "is_not") [a, b]
  | .regexp, a, b => .op (ascii "rexgexp") [a, b]
  | .notRegexp, a, b => .op (ascii "not_regexp") [a, b]
  | .like, a, b => .op (ascii "like") [a, b]
  | .notLike, a, b => .op (ascii "not_like") [a, b]
  | .contIn, a, b => .op (ascii "cont_in") [a, b]
  | .notContIn, a, b => .op (ascii "not_cont_in") [a, b]
  | .overlaps, a, b => .op (ascii "overlaps") [a, b]
  | .notOverlaps, a, b => .op (ascii "not_overlaps") [a, b]

/-- expr.go:328-340 `Between`, `NotBetween` -/
def ternary : Ternary → Val → Val → Val → Val
  | .between, a, b, c => .op (ascii "between") [a, b, c]
  | .notBetween, a, b, c => .op (ascii "not_between") [a, b, c]

/-- expr.go:396-408 `DateAdd`, `DateSub`; the unit is sent as `[]byte`. -/
def dateAdd (a b : Val) (unit : Bytes) : Val := .op (ascii "date_add") [a, b, .bytes (some unit)]
def dateSub (a b : Val) (unit : Bytes) : Val := .op (ascii "date_sub") [a, b, .bytes (some unit)]

/-- expr.go:419-430 `RowCount`, `LastInsertID` -/
def rowCount : Val := .call (ascii "ROW_COUNT") []
def lastInsertID : Val := .call (ascii "LAST_INSERT_ID") []

/-- The contents of the client's `[]interface{}` variables, by address. -/
abbrev Arrays := Nat → List Val

/-- A closure whose expression may depend on the contents of arrays at the time it is called. -/
abbrev Closure := Arrays → Val

/-- expr.go:342-349 `In(a, b)` and 352-354 `InV(a, b...)` (passing a slice with `...` passes the slice itself):
`v` is a new array, filled at the time of the call. -/
def mkIn (now : Arrays) (a : Val) (b : Nat) : Closure :=
  let v := a :: now b
  fun _ => .op (ascii "in") v

/-- expr.go:357-364 `NotIn`, 367-369 `NotInV` -/
def mkNotIn (now : Arrays) (a : Val) (b : Nat) : Closure :=
  let v := a :: now b
  fun _ => .op (ascii "not_in") v

/-- expr.go:412-416 `Concat(a...)`: the closure keeps the slice itself. -/
def mkConcat (_now : Arrays) (a : Nat) : Closure := fun later => .call (ascii "CONCAT") (later a)

end Verif.Model
