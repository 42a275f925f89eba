import Verif.Model.Unmarshal
/-! Model of the text of errors, /repo/netx/connection/errors.go. -/
namespace Verif.Model
open Verif.Go

/-- protobuf/mysqlx/mysqlx.pb.go:384-387, 400-402 `Error_Severity.String`: the name, for other values the number
(`protoimpl.X.EnumStringOf`; library contract).  The value is an int32, held modulo 2^32. -/
def severityText (n : Nat) : Bytes :=
  if n = 0 then ascii "ERROR"
  else if n = 1 then ascii "FATAL"
  else if n < 2 ^ 31 then decimal n
  else ascii "-" ++ decimal (2 ^ 32 - n)

/-- errors.go:16-18 `Error`: `fmt.Sprintf("%s %d (%s): %s", ...)`. -/
def errorText (e : SrvError) : Bytes :=
  severityText e.severity ++ ascii " " ++ decimal e.code ++ ascii " (" ++ e.sqlState ++ ascii "): " ++ e.msg

end Verif.Model
