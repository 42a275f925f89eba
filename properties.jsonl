{"id": "C01", "title": "StmtExecute and Execute carry statement, id and arguments exactly", "statement": "For every SQL text, statement id and argument list of supported Go values, the message recorded by Builder.StmtExecute / Builder.Execute is one frame whose payload a strict protobuf reader of mysqlx_sql.StmtExecute / mysqlx_prepare.Execute accepts, and the decoded message has exactly that text (or id) and exactly those argument values in the same order. (Messages of 4 GiB and more: C28.)", "quantifier": "all statement texts, all uint32 ids, all argument lists of any length, all buffers (content, capacity, growth policy)", "why_tests_cant": "values, lengths and buffer capacities are unbounded; the repo's test decodes three statements and never looks at the arguments", "anchors": ["builder.go Builder.StmtExecute Builder.Execute", "xproto/xproto.go StmtExecute", "xproto/prepare.go Execute", "xproto/any.go appendAny"]}
{"id": "C02", "title": "Signed integers arrive with their exact value", "statement": "Every int8, int16, int32, int64 and int passed as a statement argument or as an expression literal is decoded by a protobuf reader as a V_SINT scalar holding the same mathematical integer.", "quantifier": "all values of every signed width, both encodings (Any and Expr), every tag 1..15", "why_tests_cant": "2^64 values per width; tests use a handful per type", "anchors": ["xproto/any.go appendAnyInt8 appendAnyInt16 appendAnyInt32 appendAnyInt64", "xproto/expr.go appendExprInt64"]}
{"id": "C03", "title": "Unsigned integers arrive with their exact value", "statement": "Every uint8, uint16, uint32, uint64 and uint passed as a statement argument or an expression literal is decoded as a V_UINT scalar holding the same integer.", "quantifier": "all values of every unsigned width, both encodings, every tag 1..15", "why_tests_cant": "2^64 values; the hand-unrolled varints have a different shape at each of ten sizes", "anchors": ["xproto/any.go appendAnyUint8 appendAnyUint16 appendAnyUint32 appendAnyUint64", "xproto/expr.go appendExprUint64", "xproto/protobuf.go sizeVarint64"]}
{"id": "C04", "title": "nil, bool and float values arrive bit-exactly", "statement": "nil decodes as V_NULL, bool as V_BOOL with the same truth value, float32/float64 as V_FLOAT/V_DOUBLE with the same IEEE bit pattern (NaN payloads, signed zeros and infinities included), for arguments and for literals.", "quantifier": "all bool/float32/float64 bit patterns, both encodings", "why_tests_cant": "2^64 bit patterns", "anchors": ["xproto/any.go appendAnyNull appendAnyBool appendAnyFloat32 appendAnyFloat64", "xproto/expr.go appendExprNull appendExprBool appendExprFloat32 appendExprFloat64"]}
{"id": "C05", "title": "Strings and byte slices of any length arrive unchanged with their collation / content type", "statement": "string, []byte, String{Value,Collation}, XML, XMLString, JSON, JSONString and Geometry values decode to exactly the same bytes, with exactly the given collation or content type (absent when zero); a nil byte slice decodes as V_NULL while an empty non-nil slice decodes as an empty octets value.", "quantifier": "all byte contents and lengths, all collations and content types, both encodings", "why_tests_cant": "the length-of-length arithmetic changes at every power of 128 on three nested levels; tests use strings of 0 and 26 bytes", "anchors": ["xproto/any.go AppendAnyString AppendAnyBytes AppendAnyBytesString", "xproto/expr.go AppendExprString AppendExprBytes AppendExprBytesString", "expr.go String XML XMLString JSON JSONString Geometry"]}
{"id": "C06", "title": "time.Time is sent as its full wall clock reading", "statement": "A time.Time argument or literal decodes to an octets value whose text is 'YYYY-MM-DD hh:mm:ss.nnnnnnnnn' of the time's own wall clock fields, and two times with different wall clock fields never produce the same text.", "quantifier": "all years (any int), months, days, times and nanoseconds", "why_tests_cant": "unbounded domain; injectivity is a statement about all pairs", "anchors": ["xproto/any.go appendAnyTime", "xproto/expr.go appendExprTime"]}
{"id": "C07", "title": "time.Duration is sent as its value in whole seconds", "statement": "A time.Duration argument or literal decodes to an octets value '[-]H:MM:SS' whose value is the duration truncated toward zero to whole seconds, for every int64 duration.", "quantifier": "all 2^64 durations", "why_tests_cant": "2^64 values, tests look at none of the produced text", "anchors": ["xproto/scalar.go AppendDuration", "xproto/any.go appendAnyDuration", "xproto/expr.go appendExprDuration"]}
{"id": "C08", "title": "Expression trees of any shape arrive as the same tree", "statement": "For every expression built from columns, literals, operators, function calls, variables and placeholders, nested to any depth and with any number of parameters, the encoding decodes to exactly the same tree: same node kinds, same names, same parameters in the same order. (Names of variables up to 123 bytes; longer ones are the subject of C24.)", "quantifier": "all expression trees (depth, arity, names unbounded)", "why_tests_cant": "induction over trees; enclosing length prefixes depend on the size of all descendants", "anchors": ["xproto/expr.go appendExpr AppendExprOperator AppendExprFunctionCall AppendExprColumn AppendExprVariable AppendExprPlaceholder", "slice/slice.go Insert"]}
{"id": "C09", "title": "A value means the same as a statement argument and as an expression literal", "statement": "Whenever a Go value is accepted both as a prepared/SQL statement argument and as an expression literal, the scalar the server decodes is the same in both cases.", "quantifier": "all values accepted by both encoders", "why_tests_cant": "two separately written encoders must agree on every value", "anchors": ["xproto/any.go appendAny", "xproto/expr.go appendExpr"]}
{"id": "C10", "title": "A unit of work is a well formed sequence of frames, one per recorded message", "statement": "After any error-free sequence of builder calls (arbitrarily nested callbacks included) the buffer splits exactly, with no bytes left over, into length-prefixed frames; decoding them gives exactly the messages the calls asked for, in call order. (Messages below 4 GiB, beyond that see C28; variable names up to 123 bytes, beyond that see C24; contexts that the protocol has, see C26.)", "quantifier": "all builder programs, including programs that use InsertRow's returned variable in later calls", "why_tests_cant": "programs, nesting and values are unbounded; header lengths are patched in afterwards by hand", "anchors": ["builder.go Builder", "crud.go InsertF UpdateF", "xproto"]}
{"id": "C11", "title": "What is sent does not depend on old buffer contents or capacity", "statement": "The bytes Send transmits are a function of the calls made since the last Reset only: they do not depend on the initial capacity, on how append grows the slice, or on bytes left behind in the reused buffer by an earlier unit of work (so nothing of an earlier unit of work leaks).", "quantifier": "all stale buffer contents, capacities and growth policies, all programs", "why_tests_cant": "needs all possible contents of the spare capacity; encoders reslice into uninitialised capacity and fill it by hand", "anchors": ["slice/slice.go ForAppend Insert", "builder.go reset", "xproto/insert.go", "xproto/update.go"]}
{"id": "C12", "title": "Building a unit of work never panics on a legal call sequence", "statement": "No sequence of builder calls with arbitrary argument values (unsupported types, nil slices, nil pointers, empty names included) panics, as long as only the innermost builder is used inside a callback.", "quantifier": "all programs and argument values", "why_tests_cant": "index arithmetic on every path and size must be in range", "anchors": ["builder.go", "crud.go", "xproto/*.go"]}
{"id": "C13", "title": "Errors stick: after a failed call nothing is sent", "statement": "After a builder call fails, later calls leave the first error in place, Send transmits no bytes and returns that first error, until Reset, after which the builder behaves as new.", "quantifier": "all programs, all positions of the failing call, all nesting depths", "why_tests_cant": "every position in every program", "anchors": ["builder.go Builder.send Builder.reset Builder.call"]}
{"id": "C14", "title": "Calls only append", "statement": "Every builder call leaves the bytes recorded by earlier calls untouched: as long as no call has failed they are a prefix of what Send transmits. After a failed call (which may discard the buffer) nothing is transmitted at all.", "quantifier": "all programs, all buffers", "why_tests_cant": "insertions and reslices in the middle of the buffer at every capacity", "anchors": ["builder.go", "xproto/insert.go AppendInsertRow", "xproto/update.go AppendUpdateSet", "slice/slice.go Insert"]}
{"id": "C15", "title": "Tx brackets its body with START TRANSACTION and COMMIT", "statement": "Tx(level, f) records, in order: the SET TRANSACTION ISOLATION LEVEL statement of the level (none for Default and Snapshot), START TRANSACTION (WITH CONSISTENT SNAPSHOT for Snapshot), the messages of f, COMMIT; an undefined level records an error and nothing else.", "quantifier": "all isolation levels (any uint), all bodies, all preceding messages", "why_tests_cant": "bodies are arbitrary programs", "anchors": ["builder.go Builder.Tx"]}
{"id": "C16", "title": "Expectation blocks are balanced and properly nested", "statement": "In every sendable unit of work each ExpectOpen has exactly one matching ExpectClose, blocks nest like the callbacks do, and every block opened by ExpectFailOnError carries exactly the condition no_error = 1 with the requested context.", "quantifier": "all programs, all nesting depths", "why_tests_cant": "arbitrary nesting", "anchors": ["builder.go ExpectFailOnError", "xproto/expect.go ExpectOpen ExpectClose OpenConditionExpectNoError"]}
{"id": "C17", "title": "An enclosing builder cannot be used inside a callback", "statement": "While a callback of Tx, ExpectFailOnError, InsertF or UpdateF runs, every recording method, Send and Reset on any enclosing builder panics; after the callback returns the enclosing builder is usable again and contains the callback's messages.", "quantifier": "all methods, all nesting depths, all programs", "why_tests_cant": "every method at every depth", "anchors": ["builder.go Builder.call", "crud.go InsertF UpdateF"]}
{"id": "C18", "title": "Insert rejects rows with the wrong number of values", "statement": "If any row given to Builder.Insert has a number of values different from the number of columns, the unit of work is rejected: Send transmits nothing and reports an error; otherwise the decoded insert has exactly the given table, columns and rows.", "quantifier": "all tables, column lists and row lists", "why_tests_cant": "any row position, any counts", "anchors": ["builder.go Builder.Insert", "xproto/insert.go Insert AppendInsertRow"]}
{"id": "C19", "title": "InsertRow captures its own generated id in a fresh variable", "statement": "Each InsertRow records the insert immediately followed by 'SET @id$N = LAST_INSERT_ID()', returns an expression naming that same variable, and two InsertRow calls in one unit of work never use the same variable.", "quantifier": "all programs with any number of InsertRow calls", "why_tests_cant": "pairs of calls anywhere in arbitrary programs", "anchors": ["builder.go InsertRow"]}
{"id": "C20", "title": "Update records exactly the requested assignments", "statement": "Update(name, criteria, set) decodes to an update of that table with exactly one SET operation per map entry, with that column and value, whatever order the map is iterated in; UpdateF records its Set calls in order.", "quantifier": "all maps and iteration orders, all values", "why_tests_cant": "map iteration order is randomised", "anchors": ["builder.go Builder.Update", "crud.go UpdateF Update.Set", "xproto/update.go"]}
{"id": "C21", "title": "A callback that returns an error aborts the unit of work", "statement": "If the function passed to Tx, ExpectFailOnError, InsertF or UpdateF returns a non-nil error, nothing of the unit of work is transmitted and Send reports the error.", "quantifier": "all callbacks and errors", "why_tests_cant": "any callback at any depth", "anchors": ["builder.go Builder.call Tx ExpectFailOnError", "crud.go InsertF UpdateF"]}
{"id": "C22", "title": "Delete and Update touch only rows selected by the criteria", "statement": "A non-nil criteria is transmitted as exactly the given expression; the criteria field is absent only if the criteria passed was nil; and the message names the requested table and declares the TABLE data model.", "quantifier": "all tables and criteria expressions", "why_tests_cant": "a dropped or truncated filter deletes everything; criteria are unbounded trees", "anchors": ["builder.go Delete Update", "xproto/xproto.go Delete", "xproto/update.go Update"]}
{"id": "C23", "title": "Every expression constructor sends an operator the protocol defines, with its operands in order", "statement": "For each exported constructor of expr.go the transmitted operator or function name is the documented one for that constructor (mysqlx_expr.proto's operator list), and the operands are transmitted in argument order.", "quantifier": "all constructors, all operands", "why_tests_cant": "operands are arbitrary; the operator list is a table", "anchors": ["expr.go", "protobuf/mysqlx_expr.proto"]}
{"id": "C24", "title": "Variable references of any length are encoded correctly", "statement": "AppendExprVariable encodes a reference to the named variable that decodes to that name for every name.", "quantifier": "all names", "why_tests_cant": "length boundary not reached by tests", "anchors": ["xproto/expr.go AppendExprVariable"]}
{"id": "C25", "title": "Prepare and Deallocate carry id and statement exactly", "statement": "Prepare(id, stmt) and Deallocate(id) decode to exactly that id (and statement, tagged STMT) for every uint32 id and every text.", "quantifier": "all ids, all texts", "why_tests_cant": "2^32 ids, unbounded texts", "anchors": ["xproto/prepare.go Prepare Deallocate"]}
{"id": "C26", "title": "Expectation conditions are encoded exactly", "statement": "ExpectOpen with any list of no_error / field_exists conditions and one of the two context operations of the protocol decodes to that context operation and exactly those conditions in order, for every field name below 4 GiB.", "quantifier": "all condition lists and field names", "why_tests_cant": "unbounded names and lists", "anchors": ["xproto/expect.go"]}
{"id": "C27", "title": "Pointers are dereferenced to any depth, nil pointers become NULL", "statement": "A pointer (of any depth) passed as a statement argument is encoded as the value it points to, and a nil pointer at any depth is encoded as NULL.", "quantifier": "all pointer depths and pointees", "why_tests_cant": "unbounded depth", "anchors": ["xproto/any.go appendAny"]}
{"id": "C28", "title": "Frames up to 4 GiB: the header equals the real length", "statement": "Every recorded message's 4-byte header equals the number of bytes that follow it.", "quantifier": "all messages of any size", "why_tests_cant": "needs messages larger than 4 GiB", "anchors": ["builder.go", "xproto/*.go PutUint32"]}
{"id": "C29", "title": "Send returns exactly one response per request message, in order", "statement": "For every unit of work of n messages and every server byte stream that answers each message with any number of intermediate messages (notices, metadata, rows, ...) followed by one terminal message, Send returns n responses, the i-th stemming from the i-th message's terminal message, and leaves the connection positioned exactly after the last terminal message.", "quantifier": "all units of work, all server streams", "why_tests_cant": "arbitrary interleavings of server messages and sizes", "anchors": ["netx/connection/connection.go Send ReadResponsesToSlice Read"]}
{"id": "C30", "title": "A statement error is reported at the position of its statement and does not desynchronise the rest", "statement": "If the server answers message i with a non-fatal error, the i-th response is that error and the other responses are unaffected; a fatal error, or any error during authentication or session reset, ends Send with that error.", "quantifier": "all positions, all errors, all streams", "why_tests_cant": "all positions in all streams", "anchors": ["netx/connection/connection.go Read", "netx/connection/errors.go"]}
{"id": "C31", "title": "Reading hostile or truncated input is safe", "statement": "For every byte stream the server may send, reading a response terminates without panicking, never consumes bytes of a following message, and on a truncated stream returns an error, never a success.", "quantifier": "all byte strings, truncated at every point", "why_tests_cant": "all byte strings", "anchors": ["netx/connection/connection.go Read"]}
{"id": "C32", "title": "Response reading does not depend on network fragmentation", "statement": "The responses returned and the bytes consumed depend only on the concatenation of the bytes received, not on how reads split them.", "quantifier": "all fragmentations", "why_tests_cant": "exponentially many splits", "anchors": ["netx/connection/connection.go conn.r Read"]}
{"id": "C33", "title": "MYSQL41 authentication answers any challenge correctly and hides the password", "statement": "For every database, user, password and server challenge the AuthenticateContinue message carries database NUL user NUL '*' hex(token), and the server, which stores only SHA1(SHA1(password)), accepts the token; with an empty password the token part is absent.", "quantifier": "all credentials, challenges and buffers", "why_tests_cant": "in-place hashing and hex encoding overlap in one buffer for every length of the names", "anchors": ["netx/connector/authentication/mysql41/mysql41.go", "slice/slice.go Allocate", "xproto/authentication.go"]}
{"id": "C34", "title": "SHA256_MEMORY authentication answers any challenge correctly", "statement": "For every database, user, password and challenge the AuthenticateContinue message carries database NUL user NUL hex(token) and the server, storing SHA256(SHA256(password)), accepts the token.", "quantifier": "all credentials, challenges and buffers", "why_tests_cant": "as C33", "anchors": ["netx/connector/authentication/sha256/sha256.go"]}
{"id": "C35", "title": "PLAIN authentication carries the credentials unambiguously", "statement": "For every database and user without NUL bytes and every password the PLAIN AuthenticateStart message is parsed by the server into exactly that database, user and password.", "quantifier": "all NUL-free databases and users, all passwords", "why_tests_cant": "unbounded strings", "anchors": ["netx/connector/authentication/plain/plain.go", "xproto/authentication.go AuthenticateStart"]}
{"id": "C36", "title": "Authenticate succeeds only when the server says so", "statement": "Authenticate reports success only if the server's terminal answer to the last message sent was an OK message; it writes at most two messages, and the second only after the server asked for it.", "quantifier": "all mechanisms and server streams", "why_tests_cant": "all server behaviours", "anchors": ["netx/connection/connection.go Authenticate WriteOne"]}
{"id": "C37", "title": "The clear-text password is never sent over an insecure transport unless PLAIN was configured", "statement": "If the configured mechanism is not PLAIN, a message containing the clear-text password is written only on a TLS or Unix socket connection and only after the server answered the configured mechanism with access denied.", "quantifier": "all configurations, transports and server behaviours", "why_tests_cant": "all server behaviours", "anchors": ["netx/connector/connector.go Connector.New"]}
{"id": "C38", "title": "With a TLS configuration no credentials travel before TLS is established", "statement": "If a TLS configuration was given, no authentication message is written on a network connection unless the TLS handshake succeeded on it.", "quantifier": "all configurations, dialers and server behaviours", "why_tests_cant": "all server behaviours", "anchors": ["netx/connector/connector.go Connector.New"]}
{"id": "C39", "title": "A failed connection attempt does not leak the network connection", "statement": "Whenever Connector.New returns an error after dialling, the dialled network connection has been closed; when it returns a connection, that connection is open and authenticated.", "quantifier": "all server behaviours and failure points", "why_tests_cant": "every failure point", "anchors": ["netx/connector/connector.go Connector.New"]}
{"id": "C40", "title": "A pooled connection is never used by two Sends at once", "statement": "At every moment of every schedule of concurrent Send and Close calls, a connection is in use by at most one Send, and a connection in use is not in the pool.", "quantifier": "all schedules, any number of goroutines and connections", "why_tests_cant": "all interleavings", "anchors": ["netx/pool/fifoch/fifoch.go"]}
{"id": "C41", "title": "The pool keeps at most size idle connections", "statement": "In every schedule the number of idle connections held by the pool never exceeds the size given to New.", "quantifier": "all schedules", "why_tests_cant": "all interleavings", "anchors": ["netx/pool/fifoch/fifoch.go"]}
{"id": "C42", "title": "A connection whose Send failed is closed and never reused", "statement": "If a Send on a connection returns an error, the connection is closed and no later Send uses it; a closed connection is never handed to a Send and no connection is closed twice.", "quantifier": "all schedules", "why_tests_cant": "all interleavings", "anchors": ["netx/pool/fifoch/fifoch.go Send"]}
{"id": "C43", "title": "No connection is lost", "statement": "In every schedule each connection ever created is idle in the pool, in use by exactly one running Send, or closed; when Close has returned nil and no Send is running, all connections are closed.", "quantifier": "all schedules", "why_tests_cant": "all interleavings", "anchors": ["netx/pool/fifoch/fifoch.go"]}
{"id": "C44", "title": "After Close, Send fails with ErrPoolClosed", "statement": "After a Close that returned nil, every Send that starts later returns ErrPoolClosed (or its context's error) and opens no connection.", "quantifier": "all schedules and later Sends", "why_tests_cant": "all interleavings", "anchors": ["netx/pool/fifoch/fifoch.go Close Send"]}
{"id": "C45", "title": "Close is safe at any time", "statement": "Calling Close while Sends are running, more than once, or with a cancelled context never panics and loses no connection.", "quantifier": "all schedules", "why_tests_cant": "races", "anchors": ["netx/pool/fifoch/fifoch.go Close Send"]}
{"id": "C46", "title": "Idle connections are reused first in, first out", "statement": "Connections are taken from the pool in the order in which they were put back, and a Send opens a new connection only when none was idle at the moment it looked.", "quantifier": "all schedules", "why_tests_cant": "all interleavings", "anchors": ["netx/pool/fifoch/fifoch.go"]}
{"id": "C47", "title": "Decimal.Decompose is exact", "statement": "For every DECIMAL wire value (scale byte, up to 77 BCD digits, sign nibble) Decompose returns the exact coefficient in minimal big-endian form, the sign and the exponent -scale.", "quantifier": "all digit strings up to 77 digits, all scales, both signs", "why_tests_cant": "10^77 values; carries across four words", "anchors": ["types/decimal.go Decompose Uint256.MulAdd Uint256.AppendBytes"]}
{"id": "C48", "title": "Decimal.String is exact and agrees with Decompose", "statement": "For every DECIMAL wire value Decimal.String returns a decimal literal whose value is the encoded number.", "quantifier": "all digit strings, scales and signs", "why_tests_cant": "unbounded digit strings, all positions of the point", "anchors": ["types/decimal.go String"]}
{"id": "C49", "title": "Uint256 multiply-add is exact including carry", "statement": "MulAdd(y,z) leaves x*y+z modulo 2^256 in x and returns the exact overflow word.", "quantifier": "all 256-bit x, all y, z", "why_tests_cant": "2^384 inputs", "anchors": ["types/decimal.go MulAdd"]}
{"id": "C50", "title": "In an expectation block, COMMIT takes effect only if every preceding statement succeeded", "statement": "For a unit of work ExpectFailOnError(Tx(body)), whatever statements the server fails, the server executes COMMIT only if no earlier message of the block failed, and the response to COMMIT is a success only then.", "quantifier": "all bodies, all server failure patterns", "why_tests_cant": "all failure patterns", "anchors": ["README.md Error Handling", "builder.go ExpectFailOnError Tx"]}
{"id": "C51", "title": "A unit of work whose commit did not succeed has no effect", "statement": "If the COMMIT of a unit of work did not succeed, none of its changes ever become durable, also when the connection goes back to the pool and is used by later units of work.", "quantifier": "all units of work, failure patterns and later histories", "why_tests_cant": "needs a second unit of work on the same pooled connection", "anchors": ["README.md", "xpipe.go Send", "builder.go Tx", "netx/pool/fifoch/fifoch.go Send"]}
{"id": "C52", "title": "In/NotIn and InV/NotInV agree and keep all operands", "statement": "In(a,b) and InV(a,b...) transmit operator in with a followed by all of b in order (same for NotIn), also if the caller modifies the slice b after building the expression.", "quantifier": "all operands and list lengths", "why_tests_cant": "unbounded lists, aliasing", "anchors": ["expr.go In InV NotIn NotInV"]}
{"id": "C53", "title": "Collation names are unambiguous", "statement": "Collation.String gives different names to different collation ids: table entries are pairwise distinct and the fallback form cannot collide with a table entry or another fallback.", "quantifier": "all pairs of collation ids (any uint)", "why_tests_cant": "all pairs of 2^64 ids", "anchors": ["collation/collation.go"]}
{"id": "C54", "title": "The TLS capability request is encoded exactly", "statement": "CapabilitySet(name, enable) yields one frame that decodes to a CapabilitiesSet with exactly one capability of that name with that boolean value.", "quantifier": "all names, both values", "why_tests_cant": "unbounded names", "anchors": ["xproto/authentication.go CapabilitySet"]}
{"id": "C55", "title": "Plaintext received before the TLS handshake is never interpreted afterwards", "statement": "Two runs of Connector.New over TCP with a TLS configuration that differ only in the bytes the peer sent in the clear, and that both complete the TLS handshake, write the same bytes and return the same result.", "quantifier": "all plaintext streams, server behaviours, mechanisms and faults", "why_tests_cant": "all injected byte streams", "anchors": ["netx/connector/connector.go Connector.New", "netx/connection/connection.go Reset"]}
{"id": "C56", "title": "The pool never makes a call wait for another call", "statement": "In every state of every schedule a running Send or Close can go on by itself, without another call taking a step, and a Send is over after a bounded number of its own steps (given that opening, using and closing a connection return).", "quantifier": "all schedules, any number of goroutines", "why_tests_cant": "all interleavings", "anchors": ["netx/pool/fifoch/fifoch.go"]}
{"id": "C57", "title": "What a call of the pool returns tells what it did", "statement": "When Send has returned nil, the command was sent exactly once, on one connection that came from the pool or was just made, and that connection is back in the pool or closed; when it returned the connection's error, that connection was closed; the connector's error, no connection was used; ctx.Err() (only if the context is done) or ErrPoolClosed (only if Close has closed the pool), no connection was touched. When Close has returned, it closed every connection it took out and then the pool, returning nil, or ctx.Err() only if its context is done.", "quantifier": "all schedules, any number of concurrent calls, all pool sizes", "why_tests_cant": "all interleavings and failures", "anchors": ["netx/pool/fifoch/fifoch.go Send", "netx/pool/fifoch/fifoch.go Close"]}
{"id": "C58", "title": "The pool bounds the number of open connections", "statement": "At any moment the connections that are open number at most the size of the pool plus the number of calls of Send and Close that have not returned.", "quantifier": "all schedules, any number of concurrent calls, all pool sizes", "why_tests_cant": "all interleavings and failures", "anchors": ["netx/pool/fifoch/fifoch.go"]}
{"id": "C59", "title": "Everything sent is valid under the .proto files", "statement": "Every message the client sends (units of work, authentication, the TLS request) is accepted by a reader that follows nothing but the declarations of the .proto files - required fields present, no undeclared field, wire types, ranges and enumeration values as declared, nothing given twice - and says under the names of those files what was asked for.", "quantifier": "all programs, values, credentials, challenges, buffers; bounds as in C10", "why_tests_cant": "all programs and all values; a round trip through the generated code accepts unknown fields and repeated singular fields silently", "anchors": ["xproto/", "protobuf/*.proto"]}
{"id": "C60", "title": "From the calls to the database: all or nothing, and Send tells which", "statement": "A user runs ExpectFailOnError(Tx(body)) and sends it to a server that executes it in a session without open transaction, any of its statements failing and the connection going away at any point. Then all changes of the body are durable or none is; if Send returns no error there is one response per message, and if all responses are OK all changes are durable, otherwise none is.", "quantifier": "all bodies (whose statements do not end the transaction), servers' outcomes, cut points, answers, fragmentations", "why_tests_cant": "all bodies, all failure points and all answer streams; needs the server", "anchors": ["xproto/builder.go", "netx/connection/connection.go", "README.md"]}
{"id": "C61", "title": "The id returned by InsertRow is the id of its own row", "statement": "Inside ExpectFailOnError, whenever the session executes a message that comes after a call of InsertRow, the variable which that call returned (and which the caller uses as a value in later rows) holds the id that the server generated for exactly that row: not the id of another row, not a left-over of an earlier unit of work on the same connection. Outside such a block this fails: if the insert fails, the variable gets the id of an earlier row and the child is inserted with it.", "quantifier": "all bodies (whose own statements do not set @id$ variables), outcomes of the server, generated ids, earlier contents of the session's variables", "why_tests_cant": "all interleavings of inserts and failures, all earlier session states; needs the server's LAST_INSERT_ID and user variables", "anchors": ["builder.go:132-154", "xproto/expr.go"]}
{"id": "C62", "title": "Errors lead to the first offending value", "statement": "If a call of the builder records an error, the error is about the first offending value of that call and its positions are those of that value: the index of the row whose length differs from the number of columns, else the index of the column in its row, else the index of the parameter at every level of nested operators and functions. What Send reports is the error of the first call that failed, also from nested callbacks; later failures do not replace it.", "quantifier": "all programs, all values of any nesting, all buffers", "why_tests_cant": "all nestings and positions; error messages are hardly ever asserted by tests", "anchors": ["builder.go:107-154", "xproto/insert.go:60-78", "xproto/expr.go:313-370"]}
{"id": "C63", "title": "The client understands the server's messages as the .proto files declare them", "statement": "An Error message of the server reaches the caller with exactly the severity, code, SQL state and text that are in it, a challenge (AuthenticateContinue) with exactly its data, and well-formed metadata is never refused: for every encoding the .proto files allow, fields in any order, severity present or not. A message without a required field is refused, nothing is made up, and an unknown field does not matter. Together with the framing: whatever answers a server gives to the messages of a unit of work, Send returns exactly those, in order.", "quantifier": "all byte strings, all fields and orders of fields, all answer streams and fragmentations", "why_tests_cant": "all encodings of all messages; tests have a handful of literal messages", "anchors": ["netx/connection/connection.go:120-225", "netx/connection/errors.go", "protobuf/mysqlx.proto", "protobuf/mysqlx_session.proto", "protobuf/mysqlx_resultset.proto"]}
{"id": "C64", "title": "Every Send through the pool gets the answers to its own request", "statement": "Whatever the number of concurrent Sends and Closes and their interleaving: on each connection the requests of the calls that use it are written whole and one after the other, what the server sends after authentication is consumed exactly up to the end of the answers to these requests, and the responses that a Send of the pool returns without an error are the server's answers to the messages of this request, not to those of another call. If the server answers in the order of the requests, each call gets the answers meant for it. After a failed Send nothing more is written on that connection.", "quantifier": "all executions of the pool with real connections: all interleavings, all requests of whole messages, all server streams and fragmentations, all faults", "why_tests_cant": "depends on every earlier user of a pooled connection having left the stream at a message boundary, in all interleavings", "anchors": ["netx/pool/fifoch/fifoch.go:53-89", "netx/connection/connection.go:65-106", "netx/connector/connector.go:59-97"]}
{"id": "C65", "title": "A connector does what its options say", "statement": "New with the library's options, in any number and order, returns a connector for exactly the given network and address in which the last option of each kind counts, with the documented defaults otherwise (MYSQL41, no TLS, no user, password or database). If an option fails, New returns the error of the first that does, and no connector. The connector then dials exactly that network and address, and everything it writes while connecting is the request for TLS or a message of the chosen mechanism, or of PLAIN, with the chosen user, password and database; over TCP with a TLS configuration nothing else than the request for TLS is written outside of TLS.", "quantifier": "all lists of options, all environments (dial results, server streams, faults, handshakes)", "why_tests_cant": "all combinations of options and all server behaviours", "anchors": ["netx/connector/connector.go:23-60", "netx/connector/connector.go:99-135"]}
{"id": "C66", "title": "Send comes to an end if the server keeps answering", "statement": "Against a server that takes the messages of a request in order and writes the whole answer to one before it takes the next, Send cannot get stuck: from every state that writing, answering and reading can reach, all answers can still be read, and no execution goes on for ever.", "quantifier": "all requests (any number and lengths of messages and answers), all buffer sizes on both ways, all interleavings of single bytes", "why_tests_cant": "a deadlock depends on buffer sizes of the operating systems and on the lengths of the answers; tests use small requests on the loopback device", "anchors": ["netx/connection/connection.go:65-74"]}
{"id": "C67", "title": "Builders do not disturb each other through shared arrays", "statement": "Whatever client code does with the builders it gets hold of (calls on enclosing builders, on builders whose callback has returned, nested callbacks, InsertF and UpdateF, Reset), what Send hands over is exactly what was recorded through the builders, as if each had a buffer of its own.", "quantifier": "all sequences of calls on all builders that exist, all capacities and growth policies, all message bytes", "why_tests_cant": "whether an append overwrites another builder's bytes depends on the capacities the runtime happens to choose", "anchors": ["builder.go:31-43", "crud.go:24-66", "builder.go:220-226"]}
{"id": "C68", "title": "Execute runs the statement that was prepared", "statement": "An Execute runs the statement most recently prepared under its number by the program: within a guarded block the one said last before it in the block, even if the session had another under that number or a Prepare failed; and, through the pool, the one prepared by an earlier call that has returned without an error.", "quantifier": "all bodies of a guarded block, all servers' choices of what fails, all sessions and tables of statements; all executions of the pool with any number of calls", "why_tests_cant": "which session a later call reaches depends on the interleaving of earlier calls and on the order in which connections were put back; a test with one goroutine only ever sees one connection", "anchors": ["builder.go:75-106", "builder.go:52-62", "netx/pool/fifoch/fifoch.go:54-90"]}
{"id": "C69", "title": "Calls end when their context is done", "statement": "A call of Send (on a connection or on the pool) or Connector.New whose context is done, because its deadline passed or because it was cancelled, is over then, apart from closing the connection; it is never left waiting for the network alone; and it does not report a timeout before its own context is done, whatever deadline earlier calls left on the connection.", "quantifier": "all behaviours of network and server in time, all deadlines and times of cancellation, with and without TLS, all numbers of reads and handshake messages", "why_tests_cant": "a network that stalls at one particular operation (the handshake, the third read) is one of unboundedly many timings; stale deadlines only show on reused connections", "anchors": ["netx/connection/connection.go:53-74", "netx/connector/connector.go:59-97", "netx/pool/fifoch/fifoch.go:54-90"]}
{"id": "C70", "title": "A server cannot make the client allocate more than it sends", "statement": "For the answers to a request, Send allocates scratch buffers of no more bytes in total than the server has actually sent; messages of at most 4096 bytes cost nothing.", "quantifier": "all byte streams a server sends, however cut into pieces and wherever they end, all requests, all states of the reader", "why_tests_cant": "a test sends well-formed messages; the harm is in headers announcing what never comes, and in how sizes of unboundedly many messages add up", "anchors": ["netx/connection/connection.go:108-141", "netx/connection/connection.go:97-106"]}
{"id": "C71", "title": "The text of a server error says which error it is", "statement": "Error() of an error of the server gives its severity, code, SQL state and message so that all four can be read off the text; two errors with the same text are the same error.", "quantifier": "all severities (also unknown and negative ones), codes, SQL states and messages a server can send", "why_tests_cant": "ambiguity shows only for particular pairs of states and messages; all texts have to be compared with all others", "anchors": ["netx/connection/errors.go:16-18", "netx/connection/connection.go:163-172"]}
{"id": "C72", "title": "A server's refusal of TLS is reported", "statement": "If the server answers the connector's request for TLS with an error, Connector.New returns that error to the caller and does not go on to the TLS handshake.", "quantifier": "all errors and intermediate messages of the server, fragmentations of the stream, mechanisms, credentials and results of the handshake", "why_tests_cant": "needs every error a server may answer with and every continuation of the stream; the code carries a TODO in this place", "anchors": ["netx/connector/connector.go Connector.New", "netx/connection/connection.go Read"]}
{"id": "C73", "title": "A recovered panic leaves the pipe usable", "statement": "If client code recovers from a panic (of a call handed a nil expression or pointer, or of a callback), the pipe can still be used: Reset works, and what Send hands over are whole messages, those of the calls that returned, with every transaction and block that was begun also ended.", "quantifier": "all programs with panics and recover at any place and depth, all values, growth policies, buffer contents and stale bytes", "why_tests_cant": "where the panic strikes and where it is recovered range over all programs; what is sent depends on stale bytes behind the buffer", "anchors": ["builder.go call", "builder.go Insert", "builder.go InsertRow", "builder.go Update", "crud.go InsertF", "crud.go UpdateF"]}
{"id": "C74", "title": "The transaction of Tx has the isolation level asked for", "statement": "In ExpectFailOnError(Tx(level, body)), whenever a statement of the body is executed it is inside a transaction that has the isolation level asked for: the one of the session for Default, the named one for ReadUncommitted to Serializable, a consistent snapshot for Snapshot.", "quantifier": "all levels, bodies, sessions (with whatever earlier units of work have left), settings of the session, outcomes of the statements", "why_tests_cant": "whether a level takes effect depends on what the session was told before and on what earlier units of work left open; a mistake shows only in anomalies between concurrent transactions", "anchors": ["builder.go:190-218", "builder.go:14-23"]}
{"id": "C75", "title": "A unit of work ExpectFailOnError(Tx(body)) is all or nothing, also if the body calls Tx", "statement": "On an idle session, a unit of work ExpectFailOnError(Tx(level, body)) whose body leaves transactions to Tx (issues no START TRANSACTION, COMMIT or ROLLBACK of its own) makes all of its changes durable if it succeeds, and none of them if any statement fails; a Tx called by the body, directly or in a function it calls, takes part in the outer transaction.", "quantifier": "all bodies, levels, sessions, outcomes of the statements (including those in later positions)", "why_tests_cant": "needs every shape of body and every position of the failing statement, and a server whose transactions are really rolled back; a test of a nested Tx without a failure sees all rows", "anchors": ["builder.go:190-218"]}
{"id": "C76", "title": "Concurrent callers of a pool: each Send tells the fate of its own unit of work", "statement": "Any number of goroutines call Send of one pool, each with a unit of work ExpectFailOnError(Tx(level, body)). What becomes durable in the databases behind the connections is, for each call, all of its changes if all of its responses are OK, none of them if it got an error response, all or none if Send returned an error; nothing is applied twice, nothing else becomes durable, and the responses returned are those to the caller's own unit of work.", "quantifier": "all interleavings of calls of Send and Close, sizes of the pool, programs, behaviours of connector and network, outcomes of the statements", "why_tests_cant": "spans builder, connection, pool and server; needs every interleaving, every reuse of a connection after every kind of failure", "anchors": ["netx/pool/fifoch/fifoch.go:58-91", "builder.go:190-218", "netx/connection/connection.go:65-141"]}
{"id": "C77", "title": "Data cannot become code", "statement": "Two programs that make the same calls with the same statement texts, tables, columns, operators and functions, but with different data (of any type and content), send messages that differ in literals only: same kinds of messages in the same order, same texts, names and operators, same number of arguments. The only other difference is the numbering of the variables of InsertRow, which is consistent. Every SQL text sent was given to StmtExecute or Prepare by the program, or is one of seven fixed texts, or SET @id$<number> = LAST_INSERT_ID().", "quantifier": "all pairs of programs, all nesting, all data, all initial buffers", "why_tests_cant": "a statement about pairs of executions (2-safety); an injection is found by a value nobody thought of", "anchors": ["builder.go:52-218", "crud.go:1-66", "xproto/expr.go:42-470", "xproto/xproto.go:1-400"]}
{"id": "C78", "title": "The constants for server errors tell errors apart", "statement": "No two constants of package errs have the same code, every one is a code a MySQL server sends (1000-1999, 3000-3999, 5000-5999), and the errors on which New falls back to PLAIN are exactly those with the code of ErAccessDeniedError.", "quantifier": "all 1122 constants, all server errors", "why_tests_cant": "a test compares the constants it uses; a clash between two of them shows up only if a program distinguishes just these", "anchors": ["netx/connection/errs/codes.go:4-1133", "netx/connector/connector.go:84-86"]}
{"id": "C79", "title": "No data race on a connection", "statement": "Whatever calls of Send and Close are made on a pool at once, any two accesses to the same connection (its set-up, each use, its closing) are ordered by Go's memory model: by program order within a goroutine and by the k-th send on the pool's channel happening before the k-th receive, and nothing else. The order agrees with the execution. A call that has a connection sees everything done with it before.", "quantifier": "all pool sizes, all numbers of calls, all interleavings, cancellations and failures", "why_tests_cant": "the race detector sees only the interleavings that happen to run; the claim is about every pair of accesses of every execution", "anchors": ["netx/pool/fifoch/fifoch.go:13-89", "netx/connection/connection.go:49-141"]}
{"id": "C80", "title": "The server takes a time.Time for the instant it is", "statement": "A time.Time (an instant, with the offset of its location) arrives as a text that a session with any time zone takes for the same instant; times keep their order and different instants stay different. False of the code: the location is not sent. Exactly: the instant is off by the difference between the offset of the location and that of the session; order and identity are kept among times with the same offset.", "quantifier": "all instants of the years 0-9999, all offsets of locations and sessions", "why_tests_cant": "tests run in one time zone, mostly UTC; the claim is about all pairs of instants and the whole Gregorian calendar", "anchors": ["xproto/any.go:263-282", "xproto/expr.go:103-121"]}
{"id": "C81", "title": "The server takes a time.Duration for the time span it is", "statement": "The text of every time.Duration is a MySQL TIME with the same value. False of the code: fractions of a second are dropped and durations of 839 hours or more are no TIME. Exactly: the server gets the whole seconds if they are less than 839 hours in either direction, and no TIME otherwise.", "quantifier": "all 2^64 durations", "why_tests_cant": "2^64 values; where the value stops being a TIME depends on the server", "anchors": ["xproto/scalar.go:47-55", "xproto/any.go:284-300", "xproto/expr.go:123-138"]}
{"id": "C82", "title": "A unit of work takes one Write", "statement": "However many messages a unit of work has, and whatever the network and the server do, they are handed to net.Conn in a single Write, before anything is read; no Write at all if SetDeadline fails, and no second attempt after a failed Write. A connection costs at most four Writes before that (TLS, two for MYSQL41, PLAIN), and on a pooled connection there is exactly one Write per call of Send served on it, plus at most one of the call that failed on it.", "quantifier": "all programs of builder calls, all requests, all networks and servers, all interleavings of the users of a pool", "why_tests_cant": "the number of writes of one run says nothing about other requests, failures and interleavings", "anchors": ["README.md:9", "netx/connection/connection.go:65-106", "netx/connector/connector.go:59-97", "netx/pool/fifoch/fifoch.go:53-89"]}
{"id": "C83", "title": "A message cut off is not taken for a clean end of the stream", "statement": "If the server closes the connection before the answer to a message is complete, Send returns the responses so far and io.EOF if the stream ended between messages, io.ErrUnexpectedEOF if it ended within one (as package io has it); other errors of the network are handed on. False of the code: within a message it reports io.EOF, except for messages of more than 4096 bytes of which something came behind the header.", "quantifier": "all requests, all streams cut at any point, all fragmentations, all errors of the network", "why_tests_cant": "all points at which a stream of any length may be cut, and the size of the buffer decides", "anchors": ["netx/connection/connection.go:108-147"]}
{"id": "C84", "title": "An error of Send says what the server did", "statement": "If Send fails after the request was written, then the messages before the failing one were answered, the responses are those answers, and behind the intermediate messages of the failing answer comes what the error says: the end of the stream, a message without a type, metadata, an error or a challenge that cannot be decoded, a challenge nobody asked for, or an error of the server that ends the exchange. Conversely each of these is reported as that error.", "quantifier": "all requests of whole messages, all streams, fragmentations and decoders", "why_tests_cant": "all byte streams a server can send", "anchors": ["netx/connection/connection.go:65-74", "netx/connection/connection.go:97-202"]}
{"id": "C85", "title": "Expressions mean what their constructors say", "statement": "An expression built by the constructors of expr.go from Go values, columns, ids and other such expressions is sent as an expression whose value on the server, in every row, is what the constructors say: three-valued logic for And, Or, Xor and Not, comparisons in the order of the operands, membership for In, ranges with both ends for Between, and so on; criteria built this way therefore select exactly the rows they describe.", "quantifier": "all expressions of any depth, all rows, all servers (values, comparison, other operators and functions are parameters)", "why_tests_cant": "expression trees are unbounded and values and rows range over everything", "anchors": ["expr.go:88-430", "protobuf/mysqlx_expr.proto:202-250"]}
{"id": "C86", "title": "An update gives each column the value of its expression", "statement": "Update gives each column in its map the value that its expression has in the row as it was, in exactly the rows that meet the criteria, and leaves all other columns, rows and tables alone, whatever the order in which the map is iterated. UpdateF makes its assignments one after the other, in the order of the Set calls.", "quantifier": "all tables, criteria, maps, iteration orders, servers", "why_tests_cant": "the iteration order of a Go map is random", "anchors": ["builder.go:156-178", "crud.go:45-71"]}
{"id": "C87", "title": "Insert and Delete add and remove exactly the given rows", "statement": "Insert and InsertRow append one row for each of the given ones, with the given values in the given columns and defaults in all others, or nothing at all if a value cannot be computed or does not fit. Delete removes exactly the rows for which the criteria are true (not those for which they are false or unknown).", "quantifier": "all tables, rows, values, criteria, servers", "why_tests_cant": "tables and expressions are unbounded", "anchors": ["builder.go:109-154", "builder.go:180-189", "xproto/insert.go"]}
{"id": "C88", "title": "A unit of work changes the tables as its calls say, or not at all", "statement": "After Send of a unit of work of the form Expect(Tx(calls)), with Insert, InsertF, Update, UpdateF and Delete calls, the database is either as it was before or as the calls say, one after the other; and if Send returns responses, they tell which of the two.", "quantifier": "all sequences of calls, isolation levels, databases, servers, failures of statements and of the connection at any point, fragmentations", "why_tests_cant": "failures can come at any point of unbounded units of work", "anchors": ["README.md", "builder.go:52-63", "builder.go:109-218", "crud.go:14-71", "netx/connection/connection.go:65-74"]}
{"id": "C89", "title": "An id from InsertRow is that of the row it inserted", "statement": "After Send of a unit of work of the form Expect(Tx(calls)), with any mix of InsertRow, Insert, InsertF, Update, UpdateF, Delete, StmtExecute, Prepare, Execute and Deallocate calls (statements that stay within the transaction), where later calls use the ids that earlier InsertRow calls returned, the database is either as it was before or as the calls say with each id standing for the id that the server generated for the row of its own InsertRow, however many rows were inserted in between; and if Send returns responses, they tell which of the two. In particular a child row inserted with the id of its parent refers to that parent.", "quantifier": "all units of work (calls may depend on the ids), databases, generated ids, servers, failures of statements and of the connection at any point, fragmentations", "why_tests_cant": "ids are generated by the server; units of work and points of failure are unbounded", "anchors": ["builder.go:132-154", "expr.go:420-430", "xtorm_test.go:160-180", "README.md:39"]}
{"id": "C90", "title": "An id keeps its meaning in later units of work", "statement": "An id returned by InsertRow in one unit of work stands for the same row when it is used in a later unit of work on the same connection.", "quantifier": "all pairs of units of work, databases, generated ids, servers", "why_tests_cant": "whether names collide depends on the sizes of all messages of both units of work", "anchors": ["builder.go:147-153"]}
{"id": "C91", "title": "A series of units of work takes effect from the front, without gaps", "statement": "A client that sends one unit of work of the form Expect(Tx(calls)) after the other on one connection and stops at the first that is not answered OK for all its messages finds the database as some number of its units of work say, one after the other from the first one on: exactly those that went well, or, if the last Send returned an error, perhaps that one as well. Such a client always comes to an end.", "quantifier": "all numbers of units of work of any calls (InsertRow and its ids included, and statements prepared in earlier units of work), databases, generated ids, servers, failures of statements and of the connection at any point of any unit, fragmentations", "why_tests_cant": "the number of units of work and the points of failure are unbounded; each unit works on the connection, session and variables that the earlier ones left", "anchors": ["builder.go:52-63", "builder.go:109-218", "crud.go:14-71", "xpipe.go", "netx/connection/connection.go:65-74"]}
