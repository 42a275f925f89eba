import Verif.Go.Strconv
/-! The constructors of /repo/expr.go by their exported names, and the operators of the protocol. -/
namespace Verif.Spec

/-- The operators listed in /repo/protobuf/mysqlx_expr.proto:202-250. -/
def protocolOperators : List String :=
  ["*", "default", "!", "sign_plus", "sign_minus", "~", "&&", "||", "xor", "==", "!=", ">", ">=", "<", "<=", "&", "|",
   "^", "<<", ">>", "+", "-", "/", "div", "%", "is", "is_not", "regexp", "not_regexp", "like", "not_like", "cast",
   "cont_in", "not_cont_in", "overlaps", "not_overlaps", "in", "not_in", "between", "between_not", "date_add",
   "date_sub"]

/-- constructors with one operand -/
inductive Unary | not | plus | minus
  deriving DecidableEq, Repr

/-- constructors with two operands -/
inductive Binary
  | and | or | xor | eq | neq | lte | lt | gt | gte | bitAnd | bitOr | bitXor | leftShift | rightShift
  | add | sub | mul | div | intDiv | mod | is | isNot | regexp | notRegexp | like | notLike
  | contIn | notContIn | overlaps | notOverlaps
  deriving DecidableEq, Repr

/-- constructors with three operands -/
inductive Ternary | between | notBetween
  deriving DecidableEq, Repr

/-- the protocol's name for what the constructor is called -/
def Unary.documented : Unary → String
  | .not => "!" | .plus => "sign_plus" | .minus => "sign_minus"

def Binary.documented : Binary → String
  | .and => "&&" | .or => "||" | .xor => "xor" | .eq => "==" | .neq => "!=" | .lte => "<=" | .lt => "<"
  | .gt => ">" | .gte => ">=" | .bitAnd => "&" | .bitOr => "|" | .bitXor => "^" | .leftShift => "<<"
  | .rightShift => ">>" | .add => "+" | .sub => "-" | .mul => "*" | .div => "/" | .intDiv => "div" | .mod => "%"
  | .is => "is" | .isNot => "is_not" | .regexp => "regexp" | .notRegexp => "not_regexp" | .like => "like"
  | .notLike => "not_like" | .contIn => "cont_in" | .notContIn => "not_cont_in" | .overlaps => "overlaps"
  | .notOverlaps => "not_overlaps"

def Ternary.documented : Ternary → String
  | .between => "between" | .notBetween => "between_not"

end Verif.Spec
