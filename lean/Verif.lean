import Verif.Axioms
import Verif.Go.Bufio
import Verif.Go.Slice
import Verif.Go.Strconv
import Verif.Model.Alias
import Verif.Model.Any
import Verif.Model.Auth
import Verif.Model.Builder
import Verif.Model.Capability
import Verif.Model.Collation
import Verif.Model.CollationTable
import Verif.Model.Connection
import Verif.Model.Connector
import Verif.Model.Ctors
import Verif.Model.Decimal
import Verif.Model.ErrCodes
import Verif.Model.ErrorText
import Verif.Model.Expr
import Verif.Model.Flow
import Verif.Model.Memory
import Verif.Model.Messages
import Verif.Model.Options
import Verif.Model.Pool
import Verif.Model.PoolConn
import Verif.Model.Protobuf
import Verif.Model.Recover
import Verif.Model.SlicePkg
import Verif.Model.Timed
import Verif.Model.Unmarshal
import Verif.Model.Value
import Verif.Proof.Alias
import Verif.Proof.Answer
import Verif.Proof.Any
import Verif.Proof.AnyAll
import Verif.Proof.Auth
import Verif.Proof.Bufio
import Verif.Proof.Calendar
import Verif.Proof.Connecting
import Verif.Proof.Connector
import Verif.Proof.CrudPost
import Verif.Proof.Decide
import Verif.Proof.Decimal
import Verif.Proof.Decode
import Verif.Proof.Explodes
import Verif.Proof.ExprAll
import Verif.Proof.FieldAll
import Verif.Proof.Flow
import Verif.Proof.Groups
import Verif.Proof.Ids
import Verif.Proof.Injection
import Verif.Proof.Meaning
import Verif.Proof.Misuse
import Verif.Proof.MsgDecode
import Verif.Proof.MsgEnc
import Verif.Proof.MsgPost
import Verif.Proof.Plugin
import Verif.Proof.Pool
import Verif.Proof.PoolConn
import Verif.Proof.Pure
import Verif.Proof.Race
import Verif.Proof.Read
import Verif.Proof.Record
import Verif.Proof.Recover
import Verif.Proof.Remote
import Verif.Proof.Run
import Verif.Proof.Schema
import Verif.Proof.Session
import Verif.Proof.Slice
import Verif.Proof.Text
import Verif.Proof.TextRead
import Verif.Proof.Torn
import Verif.Proof.Units
import Verif.Proof.Unmarshal
import Verif.Proof.Wire
import Verif.Props.Alias
import Verif.Props.Auth
import Verif.Props.Calendar
import Verif.Props.Calls
import Verif.Props.Collation
import Verif.Props.Connection
import Verif.Props.Connector
import Verif.Props.ConnectorExact
import Verif.Props.Decimal
import Verif.Props.Ending
import Verif.Props.ErrCodes
import Verif.Props.ErrorText
import Verif.Props.Errors
import Verif.Props.Exact
import Verif.Props.ExactValues
import Verif.Props.Exprs
import Verif.Props.Flow
import Verif.Props.GoSlice
import Verif.Props.Groups
import Verif.Props.Headers
import Verif.Props.Ids
import Verif.Props.Injection
import Verif.Props.Isolation
import Verif.Props.Keys
import Verif.Props.Later
import Verif.Props.Leftovers
import Verif.Props.Memory
import Verif.Props.Nested
import Verif.Props.Options
import Verif.Props.Panics
import Verif.Props.Pool
import Verif.Props.PoolCases
import Verif.Props.PoolConn
import Verif.Props.PoolExact
import Verif.Props.PoolResults
import Verif.Props.Prepared
import Verif.Props.Race
import Verif.Props.Recover
import Verif.Props.Remote
import Verif.Props.Schema
import Verif.Props.Series
import Verif.Props.Server
import Verif.Props.ServerMsg
import Verif.Props.Sql
import Verif.Props.System
import Verif.Props.Tables
import Verif.Props.Timed
import Verif.Props.TimedOrder
import Verif.Props.Units
import Verif.Props.Values
import Verif.Props.Whole
import Verif.Props.Wire
import Verif.Props.Writes
import Verif.Spec.Alias
import Verif.Spec.Auth
import Verif.Spec.Blame
import Verif.Spec.Calendar
import Verif.Spec.Connecting
import Verif.Spec.Decimal
import Verif.Spec.Ending
import Verif.Spec.ErrorText
import Verif.Spec.Explodes
import Verif.Spec.Field
import Verif.Spec.Flow
import Verif.Spec.Groups
import Verif.Spec.Ids
import Verif.Spec.Injection
import Verif.Spec.Isolation
import Verif.Spec.Keys
import Verif.Spec.Meaning
import Verif.Spec.Memory
import Verif.Spec.Message
import Verif.Spec.Misuse
import Verif.Spec.Mysqlx
import Verif.Spec.Nested
import Verif.Spec.Operators
import Verif.Spec.Options
import Verif.Spec.Plugin
import Verif.Spec.Pool
import Verif.Spec.PoolConn
import Verif.Spec.Prepared
import Verif.Spec.Race
import Verif.Spec.Record
import Verif.Spec.Recover
import Verif.Spec.Remote
import Verif.Spec.Schema
import Verif.Spec.SchemaTable
import Verif.Spec.Series
import Verif.Spec.Server
import Verif.Spec.ServerMsg
import Verif.Spec.Sql
import Verif.Spec.System
import Verif.Spec.Text
import Verif.Spec.Timed
import Verif.Spec.Unit
import Verif.Spec.Wire
import Verif.Spec.Writes
