/-! The messages a client may send or has to understand, and those they contain, as declared in /repo/protobuf/*.proto.
Written by tools/schema.py from these files; names and numbers are theirs. -/
namespace Verif.Spec.Schema

/-- The messages. -/
inductive Msg where
  | Error
  | Datatypes_Scalar_String
  | Datatypes_Scalar_Octets
  | Datatypes_Scalar
  | Datatypes_Object_ObjectField
  | Datatypes_Object
  | Datatypes_Array
  | Datatypes_Any
  | Expr_Expr
  | Expr_Identifier
  | Expr_DocumentPathItem
  | Expr_ColumnIdentifier
  | Expr_FunctionCall
  | Expr_Operator
  | Expr_Object_ObjectField
  | Expr_Object
  | Expr_Array
  | Sql_StmtExecute
  | Crud_Column
  | Crud_Projection
  | Crud_Collection
  | Crud_Limit
  | Crud_LimitExpr
  | Crud_Order
  | Crud_UpdateOperation
  | Crud_Find
  | Crud_Insert_TypedRow
  | Crud_Insert
  | Crud_Update
  | Crud_Delete
  | Crud_CreateView
  | Crud_ModifyView
  | Crud_DropView
  | Prepare_Prepare_OneOfMessage
  | Prepare_Prepare
  | Prepare_Execute
  | Prepare_Deallocate
  | Expect_Open_Condition
  | Expect_Open
  | Expect_Close
  | Session_AuthenticateStart
  | Session_AuthenticateContinue
  | Session_Reset
  | Session_Close
  | Connection_Capability
  | Connection_Capabilities
  | Connection_CapabilitiesGet
  | Connection_CapabilitiesSet
  | Connection_Close
  | Connection_Compression
  | Resultset_ColumnMetaData
  deriving DecidableEq, Repr

/-- The enumerations. -/
inductive Enum where
  | ClientMessages_Type
  | ServerMessages_Type
  | Error_Severity
  | Datatypes_Scalar_Type
  | Datatypes_Any_Type
  | Expr_Expr_Type
  | Expr_DocumentPathItem_Type
  | Crud_DataModel
  | Crud_Order_Direction
  | Crud_UpdateOperation_UpdateType
  | Crud_Find_RowLock
  | Crud_Find_RowLockOptions
  | Crud_ViewAlgorithm
  | Crud_ViewSqlSecurity
  | Crud_ViewCheckOption
  | Prepare_Prepare_OneOfMessage_Type
  | Expect_Open_Condition_ConditionOperation
  | Expect_Open_CtxOperation
  | Resultset_ColumnMetaData_FieldType
  deriving DecidableEq, Repr

/-- Types of fields. -/
inductive Ty where
  | bool
  | bytes
  | double
  | float
  | sint64
  | string
  | uint32
  | uint64
  | enum (e : Enum)
  | msg (m : Msg)
  deriving DecidableEq, Repr

inductive Label where
  | required
  | optional
  | repeated
  deriving DecidableEq, Repr

structure Decl where
  name : String
  num : Nat
  label : Label
  ty : Ty
  deriving DecidableEq, Repr

/-- The fields of a message. -/
def fields : Msg → List Decl
  /- protobuf/mysqlx.proto:266-285 -/
  | .Error => [⟨"severity", 1, .optional, .enum .Error_Severity⟩,
      ⟨"code", 2, .required, .uint32⟩,
      ⟨"sql_state", 4, .required, .string⟩,
      ⟨"msg", 3, .required, .string⟩]
  /- protobuf/mysqlx_datatypes.proto:40-43 -/
  | .Datatypes_Scalar_String => [⟨"value", 1, .required, .bytes⟩,
      ⟨"collation", 2, .optional, .uint64⟩]
  /- protobuf/mysqlx_datatypes.proto:47-50 -/
  | .Datatypes_Scalar_Octets => [⟨"value", 1, .required, .bytes⟩,
      ⟨"content_type", 2, .optional, .uint32⟩]
  /- protobuf/mysqlx_datatypes.proto:38-73 -/
  | .Datatypes_Scalar => [⟨"type", 1, .required, .enum .Datatypes_Scalar_Type⟩,
      ⟨"v_signed_int", 2, .optional, .sint64⟩,
      ⟨"v_unsigned_int", 3, .optional, .uint64⟩,
      ⟨"v_octets", 5, .optional, .msg .Datatypes_Scalar_Octets⟩,
      ⟨"v_double", 6, .optional, .double⟩,
      ⟨"v_float", 7, .optional, .float⟩,
      ⟨"v_bool", 8, .optional, .bool⟩,
      ⟨"v_string", 9, .optional, .msg .Datatypes_Scalar_String⟩]
  /- protobuf/mysqlx_datatypes.proto:79-82 -/
  | .Datatypes_Object_ObjectField => [⟨"key", 1, .required, .string⟩,
      ⟨"value", 2, .required, .msg .Datatypes_Any⟩]
  /- protobuf/mysqlx_datatypes.proto:78-85 -/
  | .Datatypes_Object => [⟨"fld", 1, .repeated, .msg .Datatypes_Object_ObjectField⟩]
  /- protobuf/mysqlx_datatypes.proto:90-92 -/
  | .Datatypes_Array => [⟨"value", 1, .repeated, .msg .Datatypes_Any⟩]
  /- protobuf/mysqlx_datatypes.proto:97-109 -/
  | .Datatypes_Any => [⟨"type", 1, .required, .enum .Datatypes_Any_Type⟩,
      ⟨"scalar", 2, .optional, .msg .Datatypes_Scalar⟩,
      ⟨"obj", 3, .optional, .msg .Datatypes_Object⟩,
      ⟨"array", 4, .optional, .msg .Datatypes_Array⟩]
  /- protobuf/mysqlx_expr.proto:73-95 -/
  | .Expr_Expr => [⟨"type", 1, .required, .enum .Expr_Expr_Type⟩,
      ⟨"identifier", 2, .optional, .msg .Expr_ColumnIdentifier⟩,
      ⟨"variable", 3, .optional, .string⟩,
      ⟨"literal", 4, .optional, .msg .Datatypes_Scalar⟩,
      ⟨"function_call", 5, .optional, .msg .Expr_FunctionCall⟩,
      ⟨"operator", 6, .optional, .msg .Expr_Operator⟩,
      ⟨"position", 7, .optional, .uint32⟩,
      ⟨"object", 8, .optional, .msg .Expr_Object⟩,
      ⟨"array", 9, .optional, .msg .Expr_Array⟩]
  /- protobuf/mysqlx_expr.proto:106-109 -/
  | .Expr_Identifier => [⟨"name", 1, .required, .string⟩,
      ⟨"schema_name", 2, .optional, .string⟩]
  /- protobuf/mysqlx_expr.proto:122-144 -/
  | .Expr_DocumentPathItem => [⟨"type", 1, .required, .enum .Expr_DocumentPathItem_Type⟩,
      ⟨"value", 2, .optional, .string⟩,
      ⟨"index", 3, .optional, .uint32⟩]
  /- protobuf/mysqlx_expr.proto:168-180 -/
  | .Expr_ColumnIdentifier => [⟨"document_path", 1, .repeated, .msg .Expr_DocumentPathItem⟩,
      ⟨"name", 2, .optional, .string⟩,
      ⟨"table_name", 3, .optional, .string⟩,
      ⟨"schema_name", 4, .optional, .string⟩]
  /- protobuf/mysqlx_expr.proto:190-196 -/
  | .Expr_FunctionCall => [⟨"name", 1, .required, .msg .Expr_Identifier⟩,
      ⟨"param", 2, .repeated, .msg .Expr_Expr⟩]
  /- protobuf/mysqlx_expr.proto:294-300 -/
  | .Expr_Operator => [⟨"name", 1, .required, .string⟩,
      ⟨"param", 2, .repeated, .msg .Expr_Expr⟩]
  /- protobuf/mysqlx_expr.proto:306-311 -/
  | .Expr_Object_ObjectField => [⟨"key", 1, .required, .string⟩,
      ⟨"value", 2, .required, .msg .Expr_Expr⟩]
  /- protobuf/mysqlx_expr.proto:305-315 -/
  | .Expr_Object => [⟨"fld", 1, .repeated, .msg .Expr_Object_ObjectField⟩]
  /- protobuf/mysqlx_expr.proto:320-323 -/
  | .Expr_Array => [⟨"value", 1, .repeated, .msg .Expr_Expr⟩]
  /- protobuf/mysqlx_sql.proto:55-70 -/
  | .Sql_StmtExecute => [⟨"namespace", 3, .optional, .string⟩,
      ⟨"stmt", 1, .required, .bytes⟩,
      ⟨"args", 2, .repeated, .msg .Datatypes_Any⟩,
      ⟨"compact_metadata", 4, .optional, .bool⟩]
  /- protobuf/mysqlx_crud.proto:52-56 -/
  | .Crud_Column => [⟨"name", 1, .optional, .string⟩,
      ⟨"alias", 2, .optional, .string⟩,
      ⟨"document_path", 3, .repeated, .msg .Expr_DocumentPathItem⟩]
  /- protobuf/mysqlx_crud.proto:58-65 -/
  | .Crud_Projection => [⟨"source", 1, .required, .msg .Expr_Expr⟩,
      ⟨"alias", 2, .optional, .string⟩]
  /- protobuf/mysqlx_crud.proto:75-78 -/
  | .Crud_Collection => [⟨"name", 1, .required, .string⟩,
      ⟨"schema", 2, .optional, .string⟩]
  /- protobuf/mysqlx_crud.proto:80-85 -/
  | .Crud_Limit => [⟨"row_count", 1, .required, .uint64⟩,
      ⟨"offset", 2, .optional, .uint64⟩]
  /- protobuf/mysqlx_crud.proto:93-99 -/
  | .Crud_LimitExpr => [⟨"row_count", 1, .required, .msg .Expr_Expr⟩,
      ⟨"offset", 2, .optional, .msg .Expr_Expr⟩]
  /- protobuf/mysqlx_crud.proto:104-112 -/
  | .Crud_Order => [⟨"expr", 1, .required, .msg .Expr_Expr⟩,
      ⟨"direction", 2, .optional, .enum .Crud_Order_Direction⟩]
  /- protobuf/mysqlx_crud.proto:114-154 -/
  | .Crud_UpdateOperation => [⟨"source", 1, .required, .msg .Expr_ColumnIdentifier⟩,
      ⟨"operation", 2, .required, .enum .Crud_UpdateOperation_UpdateType⟩,
      ⟨"value", 3, .optional, .msg .Expr_Expr⟩]
  /- protobuf/mysqlx_crud.proto:166-223 -/
  | .Crud_Find => [⟨"collection", 2, .required, .msg .Crud_Collection⟩,
      ⟨"data_model", 3, .optional, .enum .Crud_DataModel⟩,
      ⟨"projection", 4, .repeated, .msg .Crud_Projection⟩,
      ⟨"args", 11, .repeated, .msg .Datatypes_Scalar⟩,
      ⟨"criteria", 5, .optional, .msg .Expr_Expr⟩,
      ⟨"limit", 6, .optional, .msg .Crud_Limit⟩,
      ⟨"order", 7, .repeated, .msg .Crud_Order⟩,
      ⟨"grouping", 8, .repeated, .msg .Expr_Expr⟩,
      ⟨"grouping_criteria", 9, .optional, .msg .Expr_Expr⟩,
      ⟨"locking", 12, .optional, .enum .Crud_Find_RowLock⟩,
      ⟨"locking_options", 13, .optional, .enum .Crud_Find_RowLockOptions⟩,
      ⟨"limit_expr", 14, .optional, .msg .Crud_LimitExpr⟩]
  /- protobuf/mysqlx_crud.proto:242-244 -/
  | .Crud_Insert_TypedRow => [⟨"field", 1, .repeated, .msg .Expr_Expr⟩]
  /- protobuf/mysqlx_crud.proto:230-258 -/
  | .Crud_Insert => [⟨"collection", 1, .required, .msg .Crud_Collection⟩,
      ⟨"data_model", 2, .optional, .enum .Crud_DataModel⟩,
      ⟨"projection", 3, .repeated, .msg .Crud_Column⟩,
      ⟨"row", 4, .repeated, .msg .Crud_Insert_TypedRow⟩,
      ⟨"args", 5, .repeated, .msg .Datatypes_Scalar⟩,
      ⟨"upsert", 6, .optional, .bool⟩]
  /- protobuf/mysqlx_crud.proto:265-294 -/
  | .Crud_Update => [⟨"collection", 2, .required, .msg .Crud_Collection⟩,
      ⟨"data_model", 3, .optional, .enum .Crud_DataModel⟩,
      ⟨"criteria", 4, .optional, .msg .Expr_Expr⟩,
      ⟨"limit", 5, .optional, .msg .Crud_Limit⟩,
      ⟨"order", 6, .repeated, .msg .Crud_Order⟩,
      ⟨"operation", 7, .repeated, .msg .Crud_UpdateOperation⟩,
      ⟨"args", 8, .repeated, .msg .Datatypes_Scalar⟩,
      ⟨"limit_expr", 9, .optional, .msg .Crud_LimitExpr⟩]
  /- protobuf/mysqlx_crud.proto:301-326 -/
  | .Crud_Delete => [⟨"collection", 1, .required, .msg .Crud_Collection⟩,
      ⟨"data_model", 2, .optional, .enum .Crud_DataModel⟩,
      ⟨"criteria", 3, .optional, .msg .Expr_Expr⟩,
      ⟨"limit", 4, .optional, .msg .Crud_Limit⟩,
      ⟨"order", 5, .repeated, .msg .Crud_Order⟩,
      ⟨"args", 6, .repeated, .msg .Datatypes_Scalar⟩,
      ⟨"limit_expr", 7, .optional, .msg .Crud_LimitExpr⟩]
  /- protobuf/mysqlx_crud.proto:375-404 -/
  | .Crud_CreateView => [⟨"collection", 1, .required, .msg .Crud_Collection⟩,
      ⟨"definer", 2, .optional, .string⟩,
      ⟨"algorithm", 3, .optional, .enum .Crud_ViewAlgorithm⟩,
      ⟨"security", 4, .optional, .enum .Crud_ViewSqlSecurity⟩,
      ⟨"check", 5, .optional, .enum .Crud_ViewCheckOption⟩,
      ⟨"column", 6, .repeated, .string⟩,
      ⟨"stmt", 7, .required, .msg .Crud_Find⟩,
      ⟨"replace_existing", 8, .optional, .bool⟩]
  /- protobuf/mysqlx_crud.proto:411-436 -/
  | .Crud_ModifyView => [⟨"collection", 1, .required, .msg .Crud_Collection⟩,
      ⟨"definer", 2, .optional, .string⟩,
      ⟨"algorithm", 3, .optional, .enum .Crud_ViewAlgorithm⟩,
      ⟨"security", 4, .optional, .enum .Crud_ViewSqlSecurity⟩,
      ⟨"check", 5, .optional, .enum .Crud_ViewCheckOption⟩,
      ⟨"column", 6, .repeated, .string⟩,
      ⟨"stmt", 7, .optional, .msg .Crud_Find⟩]
  /- protobuf/mysqlx_crud.proto:442-450 -/
  | .Crud_DropView => [⟨"collection", 1, .required, .msg .Crud_Collection⟩,
      ⟨"if_exists", 2, .optional, .bool⟩]
  /- protobuf/mysqlx_prepare.proto:62-79 -/
  | .Prepare_Prepare_OneOfMessage => [⟨"type", 1, .required, .enum .Prepare_Prepare_OneOfMessage_Type⟩,
      ⟨"find", 2, .optional, .msg .Crud_Find⟩,
      ⟨"insert", 3, .optional, .msg .Crud_Insert⟩,
      ⟨"update", 4, .optional, .msg .Crud_Update⟩,
      ⟨"delete", 5, .optional, .msg .Crud_Delete⟩,
      ⟨"stmt_execute", 6, .optional, .msg .Sql_StmtExecute⟩]
  /- protobuf/mysqlx_prepare.proto:57-86 -/
  | .Prepare_Prepare => [⟨"stmt_id", 1, .required, .uint32⟩,
      ⟨"stmt", 2, .required, .msg .Prepare_Prepare_OneOfMessage⟩]
  /- protobuf/mysqlx_prepare.proto:104-116 -/
  | .Prepare_Execute => [⟨"stmt_id", 1, .required, .uint32⟩,
      ⟨"args", 2, .repeated, .msg .Datatypes_Any⟩,
      ⟨"compact_metadata", 3, .optional, .bool⟩]
  /- protobuf/mysqlx_prepare.proto:133-138 -/
  | .Prepare_Deallocate => [⟨"stmt_id", 1, .required, .uint32⟩]
  /- protobuf/mysqlx_expect.proto:52-73 -/
  | .Expect_Open_Condition => [⟨"condition_key", 1, .required, .uint32⟩,
      ⟨"condition_value", 2, .optional, .bytes⟩,
      ⟨"op", 3, .optional, .enum .Expect_Open_Condition_ConditionOperation⟩]
  /- protobuf/mysqlx_expect.proto:51-85 -/
  | .Expect_Open => [⟨"op", 1, .optional, .enum .Expect_Open_CtxOperation⟩,
      ⟨"cond", 2, .repeated, .msg .Expect_Open_Condition⟩]
  /- protobuf/mysqlx_expect.proto:95-97 -/
  | .Expect_Close => []
  /- protobuf/mysqlx_session.proto:65-76 -/
  | .Session_AuthenticateStart => [⟨"mech_name", 1, .required, .string⟩,
      ⟨"auth_data", 2, .optional, .bytes⟩,
      ⟨"initial_response", 3, .optional, .bytes⟩]
  /- protobuf/mysqlx_session.proto:84-90 -/
  | .Session_AuthenticateContinue => [⟨"auth_data", 1, .required, .bytes⟩]
  /- protobuf/mysqlx_session.proto:107-113 -/
  | .Session_Reset => [⟨"keep_open", 1, .optional, .bool⟩]
  /- protobuf/mysqlx_session.proto:121-123 -/
  | .Session_Close => []
  /- protobuf/mysqlx_connection.proto:43-46 -/
  | .Connection_Capability => [⟨"name", 1, .required, .string⟩,
      ⟨"value", 2, .required, .msg .Datatypes_Any⟩]
  /- protobuf/mysqlx_connection.proto:53-57 -/
  | .Connection_Capabilities => [⟨"capabilities", 1, .repeated, .msg .Connection_Capability⟩]
  /- protobuf/mysqlx_connection.proto:64-66 -/
  | .Connection_CapabilitiesGet => []
  /- protobuf/mysqlx_connection.proto:78-82 -/
  | .Connection_CapabilitiesSet => [⟨"capabilities", 1, .required, .msg .Connection_Capabilities⟩]
  /- protobuf/mysqlx_connection.proto:91-93 -/
  | .Connection_Close => []
  /- protobuf/mysqlx_connection.proto:95-103 -/
  | .Connection_Compression => [⟨"uncompressed_size", 1, .optional, .uint64⟩,
      ⟨"server_messages", 2, .optional, .enum .ServerMessages_Type⟩,
      ⟨"client_messages", 3, .optional, .enum .ClientMessages_Type⟩,
      ⟨"payload", 4, .required, .bytes⟩]
  /- protobuf/mysqlx_resultset.proto:489-578 -/
  | .Resultset_ColumnMetaData => [⟨"type", 1, .required, .enum .Resultset_ColumnMetaData_FieldType⟩,
      ⟨"name", 2, .optional, .bytes⟩,
      ⟨"original_name", 3, .optional, .bytes⟩,
      ⟨"table", 4, .optional, .bytes⟩,
      ⟨"original_table", 5, .optional, .bytes⟩,
      ⟨"schema", 6, .optional, .bytes⟩,
      ⟨"catalog", 7, .optional, .bytes⟩,
      ⟨"collation", 8, .optional, .uint64⟩,
      ⟨"fractional_digits", 9, .optional, .uint32⟩,
      ⟨"length", 10, .optional, .uint32⟩,
      ⟨"flags", 11, .optional, .uint32⟩,
      ⟨"content_type", 12, .optional, .uint32⟩]

/-- The values of an enumeration. -/
def values : Enum → List (Nat × String)
  /- protobuf/mysqlx.proto:166-199 -/
  | .ClientMessages_Type => [(1, "CON_CAPABILITIES_GET"), (2, "CON_CAPABILITIES_SET"), (3, "CON_CLOSE"), (4, "SESS_AUTHENTICATE_START"), (5, "SESS_AUTHENTICATE_CONTINUE"), (6, "SESS_RESET"), (7, "SESS_CLOSE"), (12, "SQL_STMT_EXECUTE"), (17, "CRUD_FIND"), (18, "CRUD_INSERT"), (19, "CRUD_UPDATE"), (20, "CRUD_DELETE"), (24, "EXPECT_OPEN"), (25, "EXPECT_CLOSE"), (30, "CRUD_CREATE_VIEW"), (31, "CRUD_MODIFY_VIEW"), (32, "CRUD_DROP_VIEW"), (40, "PREPARE_PREPARE"), (41, "PREPARE_EXECUTE"), (42, "PREPARE_DEALLOCATE"), (43, "CURSOR_OPEN"), (44, "CURSOR_CLOSE"), (45, "CURSOR_FETCH"), (46, "COMPRESSION")]
  /- protobuf/mysqlx.proto:212-234 -/
  | .ServerMessages_Type => [(0, "OK"), (1, "ERROR"), (2, "CONN_CAPABILITIES"), (3, "SESS_AUTHENTICATE_CONTINUE"), (4, "SESS_AUTHENTICATE_OK"), (11, "NOTICE"), (12, "RESULTSET_COLUMN_META_DATA"), (13, "RESULTSET_ROW"), (14, "RESULTSET_FETCH_DONE"), (15, "RESULTSET_FETCH_SUSPENDED"), (16, "RESULTSET_FETCH_DONE_MORE_RESULTSETS"), (17, "SQL_STMT_EXECUTE_OK"), (18, "RESULTSET_FETCH_DONE_MORE_OUT_PARAMS"), (19, "COMPRESSION")]
  /- protobuf/mysqlx.proto:279-282 -/
  | .Error_Severity => [(0, "ERROR"), (1, "FATAL")]
  /- protobuf/mysqlx_datatypes.proto:52-61 -/
  | .Datatypes_Scalar_Type => [(1, "V_SINT"), (2, "V_UINT"), (3, "V_NULL"), (4, "V_OCTETS"), (5, "V_DOUBLE"), (6, "V_FLOAT"), (7, "V_BOOL"), (8, "V_STRING")]
  /- protobuf/mysqlx_datatypes.proto:98-102 -/
  | .Datatypes_Any_Type => [(1, "SCALAR"), (2, "OBJECT"), (3, "ARRAY")]
  /- protobuf/mysqlx_expr.proto:74-83 -/
  | .Expr_Expr_Type => [(1, "IDENT"), (2, "LITERAL"), (3, "VARIABLE"), (4, "FUNC_CALL"), (5, "OPERATOR"), (6, "PLACEHOLDER"), (7, "OBJECT"), (8, "ARRAY")]
  /- protobuf/mysqlx_expr.proto:123-138 -/
  | .Expr_DocumentPathItem_Type => [(1, "MEMBER"), (2, "MEMBER_ASTERISK"), (3, "ARRAY_INDEX"), (4, "ARRAY_INDEX_ASTERISK"), (5, "DOUBLE_ASTERISK")]
  /- protobuf/mysqlx_crud.proto:70-73 -/
  | .Crud_DataModel => [(1, "DOCUMENT"), (2, "TABLE")]
  /- protobuf/mysqlx_crud.proto:105-108 -/
  | .Crud_Order_Direction => [(1, "ASC"), (2, "DESC")]
  /- protobuf/mysqlx_crud.proto:115-139 -/
  | .Crud_UpdateOperation_UpdateType => [(1, "SET"), (2, "ITEM_REMOVE"), (3, "ITEM_SET"), (4, "ITEM_REPLACE"), (5, "ITEM_MERGE"), (6, "ARRAY_INSERT"), (7, "ARRAY_APPEND"), (8, "MERGE_PATCH")]
  /- protobuf/mysqlx_crud.proto:167-172 -/
  | .Crud_Find_RowLock => [(1, "SHARED_LOCK"), (2, "EXCLUSIVE_LOCK")]
  /- protobuf/mysqlx_crud.proto:174-181 -/
  | .Crud_Find_RowLockOptions => [(1, "NOWAIT"), (2, "SKIP_LOCKED")]
  /- protobuf/mysqlx_crud.proto:332-342 -/
  | .Crud_ViewAlgorithm => [(1, "UNDEFINED"), (2, "MERGE"), (3, "TEMPTABLE")]
  /- protobuf/mysqlx_crud.proto:349-355 -/
  | .Crud_ViewSqlSecurity => [(1, "INVOKER"), (2, "DEFINER")]
  /- protobuf/mysqlx_crud.proto:362-369 -/
  | .Crud_ViewCheckOption => [(1, "LOCAL"), (2, "CASCADED")]
  /- protobuf/mysqlx_prepare.proto:65-71 -/
  | .Prepare_Prepare_OneOfMessage_Type => [(0, "FIND"), (1, "INSERT"), (2, "UPDATE"), (4, "DELETE"), (5, "STMT")]
  /- protobuf/mysqlx_expect.proto:63-69 -/
  | .Expect_Open_Condition_ConditionOperation => [(0, "EXPECT_OP_SET"), (1, "EXPECT_OP_UNSET")]
  /- protobuf/mysqlx_expect.proto:74-80 -/
  | .Expect_Open_CtxOperation => [(0, "EXPECT_CTX_COPY_PREV"), (1, "EXPECT_CTX_EMPTY")]
  /- protobuf/mysqlx_resultset.proto:490-506 -/
  | .Resultset_ColumnMetaData_FieldType => [(1, "SINT"), (2, "UINT"), (5, "DOUBLE"), (6, "FLOAT"), (7, "BYTES"), (10, "TIME"), (12, "DATETIME"), (15, "SET"), (16, "ENUM"), (17, "BIT"), (18, "DECIMAL")]

/-- The message of a type number: the option `client_message_id` of the message names an element of
`ClientMessages.Type` (protobuf/mysqlx.proto:166-199). -/
def clientMessage : Nat → Option Msg
  | 1 => some .Connection_CapabilitiesGet
  | 2 => some .Connection_CapabilitiesSet
  | 3 => some .Connection_Close
  | 4 => some .Session_AuthenticateStart
  | 5 => some .Session_AuthenticateContinue
  | 6 => some .Session_Reset
  | 7 => some .Session_Close
  | 12 => some .Sql_StmtExecute
  | 17 => some .Crud_Find
  | 18 => some .Crud_Insert
  | 19 => some .Crud_Update
  | 20 => some .Crud_Delete
  | 24 => some .Expect_Open
  | 25 => some .Expect_Close
  | 30 => some .Crud_CreateView
  | 31 => some .Crud_ModifyView
  | 32 => some .Crud_DropView
  | 40 => some .Prepare_Prepare
  | 41 => some .Prepare_Execute
  | 42 => some .Prepare_Deallocate
  | 46 => some .Connection_Compression
  | _ => none

/-- Of the messages of the server those the client looks into, by the option `server_message_id`, an element of
`ServerMessages.Type` (protobuf/mysqlx.proto:212-234). -/
def serverMessage : Nat → Option Msg
  | 1 => some .Error
  | 3 => some .Session_AuthenticateContinue
  | 12 => some .Resultset_ColumnMetaData
  | _ => none

end Verif.Spec.Schema
