# Formal model of xtorm: design

Source: `/repo` (Go). Everything here is a model written by reading that source; nothing of it is
compiled or executed. Every definition of the model cites the file and lines it stands for and says in its
comment where it simplifies.

## 1. Layers

| Directory | What it is | May use |
|---|---|---|
| `lean/Verif/Go` | Go slices with stale spare capacity, `append` with an arbitrary growth policy, panic / out of memory as results (`Except Crash`), decimal printing (strconv), `bufio.Reader` | – |
| `lean/Verif/Model` | the code, function by function | `Go` |
| `lean/Verif/Spec` | independent specification: protobuf wire format, strict readers of the X Protocol messages, meaning of Go values, meaning of client programs, blame of errors, server sessions, authentication, pool rules, decimals | `Go`; of `Model` only types (arguments and results of the API) and the exceptions named in section 5 |
| `lean/Verif/Proof` | helper lemmas | all |
| `lean/Verif/Props` | the property theorems `Cnn_...`, each with concrete instances as `example`s | all |
| `lean/Verif/Axioms.lean` | generated: fails to build if a claimed theorem depends on an axiom other than `propext`, `Classical.choice`, `Quot.sound` | `Props` |

Generated modules (committed): `Model/CollationTable.lean` (`tools/collation.py` from `collation/collation.go`),
`Spec/SchemaTable.lean` (`tools/schema.py` from `protobuf/*.proto`), `Axioms.lean`, `MANIFEST.json`
(`tools/manifest.py`).

### How the parts are modelled

* **Encoders** (`slice`, `xproto`): `Slice = {data, spare}`, `spare` being the stale bytes between len and cap. Each
  encoder is transcribed with its index arithmetic (`p[i:]`, `copy`, one-byte lengths patched afterwards, moving of
  the payload when the length grows) in the monad `Except Crash`. For every slice, spare contents and growth policy
  the result is out of memory, a panic (only where stated), or `data ++ enc`; round trips `decode enc = meaning` are
  proved against the strict decoders by induction on values (nested expression trees included).
* **Builder** (`builder.go`, `crud.go`, `xpipe.go`): client code is a free-monad program `Prog`: calls, nested
  `Tx`/`Expect`/`InsertF`/`UpdateF` callbacks, calls on enclosing builders, results of `InsertRow` flowing into
  later calls, map iteration order arbitrary. `run` transcribes the code. `Model/Alias` has the same builders with
  the arrays behind their buffers and client code that keeps them. The specification is the big-step relation
  `Exec` over messages (`Spec/Unit`), which knows nothing of buffers. Proofs by induction on `Prog`. `Model/Recover` has the same with `panic` and
  `recover`, keeping the state at the moment of a panic.
* **Connection** (`netx/connection`): the peer's stream is arbitrary bytes, fragmented arbitrarily, ending in an
  arbitrary error; `bufio` by its source-level behaviour (`Go/Bufio`); `Read` with its loop, `ReadResponsesToSlice`,
  `WriteOne`, `Send`, with an arbitrary failure of each `SetDeadline`/`Write` and arbitrary partial writes.
  `Model/Flow` is the movement of bytes between `Send` and the server through finite buffers (counts only).
* **Authentication / connector**: mechanisms with the hash as a parameter; `Authenticate`; `Connector.New` against an
  arbitrary environment (dial, handshake, streams, faults), producing a log of network events.
* **Pool** (`netx/pool/fifoch`): labelled transition system, one program counter per goroutine, any number of
  `Send`/`Close` calls, every interleaving, Go channel semantics (buffered, closed). Properties are invariants.
  `Model/PoolConn` puts the connection model behind the connections of the pool.
* **Server** (specification): `Spec/Plugin` executes decoded messages with a stack of expectation blocks and a
  transaction state; which statements fail, and what free SQL text does, is an arbitrary script. `Spec/Ids` adds
  LAST_INSERT_ID and user variables, `Spec/Isolation` the isolation levels of the session, of the next transaction and of the
  current one, `Spec/Remote` the answers and a connection that may go away at any point. `Spec/System` puts such a
  session behind each connection of a pool.
* **Decoding of server messages**: `Model/Unmarshal` states what golang/protobuf does with bytes (varints, unknown
  fields, groups, last value wins, required fields) and instantiates the parameter `Codec` of the connection model.

## 2. Trusted base

* Lean 4.33 kernel; axioms at most `propext`, `Classical.choice`, `Quot.sound` (enforced by `Verif/Axioms.lean`);
  no `sorry`, `native_decide`, `bv_decide`, no added axioms. Mathlib is not used.
* The transcription of the Go text by reading (no tool connects the Go source with the model).
* Go semantics: 64-bit `int`; slices as (array, len, cap); `append` (pinned by `Props/GoSlice`) in place if the capacity suffices, otherwise into
  a new array of any sufficient capacity; `copy` and overlapping `append` are memmove; out-of-range indices panic;
  allocations beyond 2^48 bytes abort (`oom`); goroutines interleave arbitrarily; channel semantics; map iteration in
  any order.
* Library contracts: strconv and time formatting (`Go/Strconv`, `Model/Value`: `time.Time` is its civil reading),
  `math/bits` (`Model/Decimal`), `encoding/hex`, `bufio`/`io.ReadFull` (`Go/Bufio`), `proto.Marshal` of the small
  capability and start messages where used, `proto.Unmarshal` (`Model/Unmarshal`), `crypto/tls` (a handshake that
  succeeds gives a stream only the peer can write), SHA-1 and SHA-256 (arbitrary functions with results of 20 / 32
  bytes), `connector.New` gives a connection not handed out before (pool), `context` as a nondeterministic
  cancellation; `net.Conn` ends operations when the deadline passes, `DialContext` when the context is done, `Close` in
  bounded time (C69). Go's memory model (C79): program order, and the k-th send on a channel happens before the k-th
  receive completes; no function of the project starts a goroutine.
* MySQL takes a DATETIME text for the time of the session's zone; a TIME is within ±838:59:59 (C80, C81). That it keeps at most
  six digits of a fraction is not modelled.
* Tables (C85-C88, `Spec/Sql`): the operators of mysqlx_expr.proto mean what the MySQL manual says of the SQL operators, with
  three-valued logic; an UPDATE assigns from left to right; a statement that fails changes nothing; INSERT wants at least one row
  and one column, UPDATE one assignment. Values, comparison, conversion, arithmetic, functions are parameters, and so is `IN` of
  nothing. Names of columns and tables are compared byte by byte. Rows of a table have an order (that of `Insert`), schemas,
  keys, triggers and other sessions are left out. A message without data model is left to the server (`other`).
* Generated ids (C89, C90, `Spec/Keys`): an INSERT into a table with an AUTO_INCREMENT column, and without a value for it, gives
  the rows ids that are parameters; LAST_INSERT_ID() is that of the first row, and stays as it is with an INSERT that generates
  none. User variables belong to the session and are not rolled back. Expressions of type VARIABLE are read as user variables:
  README.md:39 says that MySQL 8.0.27 does not support them yet.
  What a statement given to `StmtExecute` does is up to the server (`rest`); those in the units of C89 and C91 must neither begin nor
  end a transaction (`Known.within`), those in the units of C90 set no variables either.
  Numbers of prepared statements belong to the session; Prepare and Deallocate change nothing else, Execute does what the text does
  (or fails, if there is none). After an error nothing is assumed about them.
* The server side: X Protocol framing and message types, the .proto files, expectation blocks, transactions,
  LAST_INSERT_ID, one message answered before the next is taken (C66), the verification rules of MYSQL41/SHA256_MEMORY/PLAIN: written from the documentation and the
  .proto files. SET TRANSACTION sets the level of the next transaction only and is refused while one is open (C74); WITH
  CONSISTENT SNAPSHOT gives a snapshot at REPEATABLE READ only; START TRANSACTION commits an open transaction. One assumption is explicit in the theorems: for units with further blocks inside (`spreads`), the
  error that closes a failed inner block counts as an error of the enclosing block.

## 3. What is not modelled

* The time of deadlines, except in `Model/Timed`, which leaves out the bytes: elsewhere an expired deadline is one of the
  arbitrary failures of reads and writes.
* Memory except for the scratch buffers of `Read` (`Model/Memory`, C70): what `proto.Unmarshal` and `append` allocate.
* Sharing of arrays between builders, except in `Model/Alias`, where the encoders are abstracted to appending any bytes;
  elsewhere slices are values, which `C67_partial` justifies. `Model/Recover` takes what a panic leaves behind the end of
  a buffer to be any bytes.
* Generated code `protobuf/*.pb.go` (except as the contract above), tests.

## 4. Properties

"F" marks properties that the code violates: the full statement is kept in `properties.jsonl`, the negation is
proved with a witness (`..._wrong`), and what does hold is `..._partial`.

| Property | Model | Specification and proof |
|---|---|---|
| C01, C25 | `Messages.stmtExecute/execute/prepare/deallocate` | recorded frame decodes (`decodeStream`) to exactly text/id/arguments; refusals fail |
| C02–C05 | `Any`, `Expr` | strict decoder of Any/Scalar returns the mathematical value; all integers, floats by bits, strings with collation |
| C06, C07 (F) | `Value.fmtTime/fmtDuration` | text is read back by `Spec/Text`; injective; F: −2^63 ns |
| C08, C09, C27 (F) | `appendExpr`, `appendAny` | induction over nested values; meaning `exprOf`/`argScalarOf`; F: nil pointers to library types panic |
| C10, C13–C16, C18–C21 (C21 F) | `run`, `step` | `Exec` (`Spec/Unit`), induction on programs; F: errors of callbacks are dropped |
| C11 | `run` | result independent of buffer, spare bytes and growth policy |
| C12 (F), C17 | `run` with enclosing builders | panics only for the misuses in `Spec/Misuse`, and exactly as `Spec/Explodes` says; F: nil expressions panic |
| C22 (F) | `update`, `delete` | criteria recorded in full; F: Delete has no data model |
| C23 (F), C52 | `Ctors` | table of the protocol's operators; F: `rexgexp`, `not_between` |
| C24 (F) | `appendExprVariable` | F: one-byte length, names from 124 bytes on are malformed, all of them (`C24_exact`) |
| C26 | `expectOpen` | decodes to exactly the conditions |
| C28 (F) | headers | header equals length below 4 GiB and never above (`C28_exact`); F: wraps |
| C29–C32 | `Conn.send`, `readLoop`, `Bufio` | `Answered` (`Spec/Server`): responses in order, errors in place, no overrun on hostile input, fragmentation irrelevant |
| C33–C35 | `Auth` | verifier of `Spec/Auth` accepts; what is sent does not depend on the password beyond the hash |
| C36–C39 (C38, C39 F), C55 | `authenticate`, `Connector.new` | log of network events; F: TLS skipped off TCP, leak if the capability cannot be sent; exactly then (`C38_exact`, `C39_exact`) |
| C40–C46 (C43–C45 F), C56–C58 | `Pool` | invariants over all executions; F: Close twice, Close during Send, cancelled Close; in all executions (`C45_one_close`, `C45_late_send`, `C43_left`) |
| C47–C49 (C48 F) | `Decimal` | value over `Nat`; F: scale larger than the number of digits; `C48_exact` says for every value whether the text is right |
| C50, C51 (F) | `run` + `Spec/Plugin` | COMMIT succeeds only if everything before did; F: failed unit leaves its transaction open on a re-pooled connection; `C51_exact` follows what it leaves through every history |
| C53 | `Collation` | injectivity over the whole generated table (`decide +kernel`), unknown names |
| C54 | `Capability` | exact encoding |
| C59 | all encoders | a reader that only knows the .proto files reads every message |
| C60 | composition | client, connection and server: all or nothing, and `Send` tells which |
| C61 | `insertRow` + `Spec/Ids` | the variable holds the id of its own row |
| C62 | errors with positions | `Spec/Blame`: error is about the first offending value, positions are its positions |
| C63 | `Unmarshal` + connection | errors, challenges and metadata are understood as declared, end to end |
| C64 | `PoolConn`: pool with real connections | invariant over all executions: the stream of a connection splits into the answers to its users' requests |
| C65 | `Options` + `Connector.new` | last option of each kind counts; what is dialled and written is what was asked for |
| C66 | `Flow` | false: a large answer followed by a large rest of the request hangs `Send`; exact condition proved |
| C67 | `Alias` | false: a builder used after its callback returned overwrites its parent; otherwise sharing of arrays never shows |
| C68 | `Prepared` | false across calls: the pool may take another connection, where the number means nothing or something else; proved within a guarded block, and for calls made one after the other without failures; exactly: if the connection is the same (`C68_exact`) |
| C69 | `Timed` | false: cancelling a context does not end a running `Send`; proved for deadlines (time, number of steps, TLS handshake included), and that no stale deadline acts |
| C70 | `Memory` | false: a header is believed, five bytes make `Read` allocate 4 GiB; proved that all other buffers are covered by bytes received |
| C71 (F) | `ErrorText` | reader of the text (`Spec/ErrorText`); F: SQL states with a parenthesis make it ambiguous; exactly when: `C71_exact` |
| C72 (F) | `Connector.new` | F: an error answering the request for TLS is taken for an OK unless it is fatal (`C72_ignored`) |
| C73 (F) | `Recover`: `run` with the state a panic leaves, and `recover` | relation `Ran` (`Spec/Recover`) over whole and torn messages, proved exact and deterministic; F: see finding 24 |
| C74 (F) | `Builder.tx`, `guarded` | overlay of session, next and current isolation level on the server session (`Spec/Isolation`); exactly when it is honoured; F: see finding 25 |
| C75 (F) | `Builder.tx`, `run` | relation `Leaves` on programs (`Spec/Nested`), effect of the first `k` statements; F: see finding 26 |
| C76 (F) | `PoolConn`, `run` | requests served by a session behind each connection (`Tends`, `Spec/System`), cut off at any point, or knowing just the bytes written to the connection (`Attends`); which part of the changes of each call becomes durable (`Kept`); F: see finding 27 |
| C77 | `run` | two programs side by side that differ in data only (`ProgAlike`), messages that differ in literals only (`MsgAlike`), where SQL texts come from (`Gives`, `ownTexts`), in `Spec/Injection` |
| C78 | `errCodes` (generated), `denied` | codes strictly increasing and inside MySQL's ranges |
| C79 | `RaceFree` | happens-before (`Before`) has two rules only: program order, k-th send before k-th receive; proved together with the pool invariant; the lock of `getCh` is not needed since `ch` is written in `New` only |
| C80 | `Shows`, `understood` | calendar counted in `Spec/Calendar` (days of years and months summed up); false across offsets; exact shift, and order and uniqueness for one offset; every instant has one reading |
| C81 | `span` | false for fractions and from 839 h on; exact for all 2^64 durations |
| C82 | `writes` | counts calls of `Write` in the log of the connection; `Send`, units of work, `New`, pools |
| C83 | `endOf`, `Begun`, `Skips` | false: `Peek` says `io.EOF` for part of a message; exact for every stream |
| C84 | `Cause` | one constructor for each error of `Read`; both directions |
| C85 | `den` against `eval` | what the constructors say, and what the server computes for what is sent; false for `Regexp`, `NotBetween` |
| C86 | `Simul`, `Steps` | all at once, or from left to right; false for maps whose entries read each other's columns |
| C87 | `Simul` on the blank row, `meets` | false for `Delete` on servers that want a data model |
| C88 | `AllDo` against `replay` | composition of C75, C86, C87: client, connection, server and tables |
| C89 | `UnitDoes` against `Works` | C88 with `InsertRow`, `StmtExecute`, `Prepare`, `Execute` and `Deallocate`: later calls are functions of the ids that earlier ones return |
| C90 | `LaterKeeps` | variables of the session before and after a second unit of work; false when names collide |
| C91 | `Client`, `Lives`, `UnitsDo` | induction over the calls of `Send`; C89 for the last one |

## 5. Where the specification touches the model

Types of the API (`Val`, `Call`, `Prog`, `Err`, `SrvError`, `Response`, pool events) are shared. Functions used:
`fmtTime` (contract of the library, pinned by C06), `Conn.new/readOne/readAll` in `Life` (reachable readers),
`Builder.step/send` in `Records`/`Failed` (what a call does), `capabilitySet` in `Configured`/`OnlyInTLS` (pinned by
C54). A script listing such uses is part of the routine; mutants of the model that a shared function would hide
(severity of errors, wrapper types) led to their removal from the specification.

## 6. Findings in the code

1. Errors returned by callbacks are ignored (C21).
2. A failed unit of work leaves its transaction open; the connection is re-pooled and the next START TRANSACTION
   commits the remains (C51).
3. `Tx` outside an expectation block commits after a failed statement (C50_needs_block).
4. `Regexp` sends `rexgexp`; `NotBetween` sends `not_between` where the protocol has `between_not` (C23).
5. `Delete` sends no data model (C22).
6. Variable names of 124 bytes or more are malformed (C24).
7. `time.Duration(math.MinInt64)` is misformatted (C07).
8. `Decimal.String` is wrong if the scale exceeds the number of digits (C48).
9. Pool: second `Close` panics; a `Send` that finishes after `Close` panics and loses its connection; a cancelled
   `Close` leaves connections open; a connection put between drain and close stays open (C43–C45).
10. Connector: a failure to send the TLS capability leaks the connection (C39); an error reply to it is ignored (C72); TLS is
    silently skipped if the dialler does not return a `*net.TCPConn` (C38). No exported option sets the dialler, so
    this needs a network other than tcp and unix or code inside the package; over tcp it does not happen (C65_tls).
11. Headers wrap for messages of 4 GiB and more (C28).
12. `ExpectOpen` with an operation of 128 or more, or field names of about 2^35 bytes, is malformed or panics (C26).
13. `InsertRow` and `InsertF` do not check the number of values.
14. An unsupported argument type discards the buffer (C12, C14, C27); nil expressions panic (C12).
15. `Read`: a message without payload hands the header to the decoder; malformed metadata is not discarded; a frame of
    length 0 consumes five bytes; a hostile length allocates up to 4 GiB (C70).
16. `Concat` keeps the caller's slice (C52_concat_aliases).
17. `InsertRow` outside a block may return another row's id (C61_needs_block).
18. Errors about values in `InsertF`/`Insert` do not name the row, those of `Update` not the column (C62).
19. A child builder kept after its callback stays usable and overwrites what its parent records (C67).
20. Prepared statement ids belong to a connection, but the pool uses any connection: once two calls have overlapped, a
    statement prepared by one call is not there for the next, or another one is (C68).
21. `Send` writes the whole request before it reads. If the answers to the first messages fill the buffers on the way
    back while more of the request remains than the buffers on the way there hold, both sides wait for ever, or until
    the deadline (C66).
22. A context that is cancelled without having a deadline does not end a running `Send` or `New` (after dialling): only
    `ctx.Deadline()` is used (C69). If the deadline passes in the second attempt, with PLAIN, `New` reports the error of
    the first (access denied), not the timeout.
23. The text of a server error is ambiguous if its SQL state contains `)` (C71).
24. Nothing is deferred in the builder (C73). After the panic of a callback that is recovered outside, the builder refuses
    everything, `Reset` included. If it is recovered inside an enclosing callback, the transaction or block that was begun is
    never ended, and is sent like that. A panic in `Insert`, `InsertRow` or the assignments of `Update` leaves a message
    without header behind and no error: `Send` sends it. The place of the header holds stale bytes; if these are the header
    of an earlier message of the same length, the server inserts the rows in front of the one that panicked.
25. Isolation levels (C74). `Snapshot` does not ask for REPEATABLE READ, so in a session whose level is another one there is
    no snapshot. `Default` takes over a level that was set by a unit of work whose START TRANSACTION failed. A `Tx` with a level
    inside a `Tx` fails, and so the outer one never commits. After a unit of work failed and left its transaction
    open (finding 2), every later unit of work with a level fails on that connection, until one without a level comes.
    Outside an expectation block the level is lost without notice (C74_needs_block).
26. The START TRANSACTION of a `Tx` inside a `Tx` commits what the outer one did so far; after the inner COMMIT what the outer
    one still does is durable at once (C75).
27. Callers of one pool are not independent (C76): the pool takes back a connection on which a unit of work has failed, its
    transaction still open (finding 2). The next call, of whatever caller, commits the changes in front of the failing
    statement, although the first caller was told that it failed. Only a pool of size 0 is safe.
28. A `time.Time` is sent as the wall clock of its own location, without the offset. A server takes it for the time of the
    session, so the instant is off by the difference; times of different locations (or of one location before and after a change
    of its clocks) are compared, sorted and found wrongly (C80).
29. A `time.Duration` loses its fraction of a second, while a `time.Time` keeps nine digits; from 839 hours on its text is no
    TIME (C81).
30. A connection that is closed within a message is reported as `io.EOF`, as if it had been closed in good order, unless the message
    has more than 4096 bytes and something came behind its header (C83).
31. `Update` sends the entries of its map in the random order of the iteration, and MySQL assigns from left to right: with
    `{"a": Column("b"), "b": Column("a")}` both columns end up with the value of one of them, and which is chance (C86).
    `UpdateF` is the way to have an order.
32. `InsertRow` for a table without AUTO_INCREMENT column (or with a value for that column) is executed, and the id that it
    returns is the last one generated for some other row of the session (C89).
33. Names of ids are made from the length of the buffer (`@id$34`). A later unit of work on the same connection whose
    `InsertRow` ends at the same length returns the same name, and an id kept from the first one then silently stands for the
    row of the second one (C90).

## 7. Mutation testing

`seeded/LOG.jsonl` has one line per wrong program: the definition, the edit, the claim it breaks, what failed first,
the property theorems depending on it, what was tightened. The edits are made in a scratch copy.
`theorems_failed` lists the property theorems that rest on a proof that failed. That a proof fails does not by itself show
that the statement is false of the edited program; where it is known not to be, a note says so. Up to M282 the build stops at
the first module that fails, so failures in later modules are not in `first_failures`; from M283 on failed proofs are
stubbed in the scratch copy and the build goes on.

Beside these, single tokens of `Model/` and `Go/` are changed by a script (a constant by one, an operator, a condition
negated, a statement left out) and the whole is rebuilt with all `example`s removed, so that only theorems count. Of the first
921 such changes 76 did not compile, 809 were refuted by a theorem, one ran into the time limit and 35 survived. Those that
make a difference anybody can see were logged as M399-M405, and theorems added against them. The others do not: spare
capacity, the contents of fresh memory and its addresses (nothing depends on them, which C11 says), when memory runs out exactly, how
the calls to the network are numbered (their results are arbitrary), an index check one too late that no caller
relies on, reading past the buffer of `bufio` or through it (same bytes), an operation that ends just when the deadline passes.
