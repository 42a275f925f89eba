import json
P="Verif.Props."
C={}
def c(i,status,ths,note): C[i]={"property":i,"status":status,"theorems":[P+t for t in ths],"note":note}
c("C01","proved",["C01_statements_exact"],"")
c("C02","proved",["C02_signed_exact"],"")
c("C03","proved",["C03_unsigned_exact"],"")
c("C04","proved",["C04_null_bool_float_exact"],"")
c("C05","proved",["C05_strings_exact"],"")
c("C06","proved",["C06_time_exact","C06_time_injective"],"time.Time is modelled by its civil fields")
c("C07","partial",["C07_duration_exact_partial","C07_min_wrong","C07_exact"],"False for the duration -2^63 ns, proved as C07_min_wrong; exact for all others")
c("C08","proved",["C08_expression_trees","C08_accepted_has_meaning"],"variable names of at most 123 bytes, see C24")
c("C09","proved",["C09_any_expr_agree"],"")
c("C10","proved",["C10_unit_frames"],"messages below 4 GiB (C28), variable names of at most 123 bytes (C24)")
c("C11","proved",["C11_buffer_independent"],"")
c("C12","partial",["C12_no_panic_partial","C12_legal_partial","C12_wrong","C12_exact","C12_call_exact"],"False for nil expressions and nil pointers to the library's own types (C12_wrong); exactly when is in C12_exact")
c("C13","proved",["C13_errors_stick","C13_errors_start","C11_buffer_independent"],"behaviour after Reset: C11_buffer_independent")
c("C14","proved",["C14_append_only"],"")
c("C15","proved",["C15_tx"],"")
c("C16","proved",["C16_blocks_balanced","C16_block_nesting"],"")
c("C17","proved",["C17_enclosing_panics","C17_disabled_panics","C17_callbacks","C17_usable_again","C17_usable_after_expect","C17_usable_after_rows"],"")
c("C18","proved",["C18_insert"],"")
c("C19","proved",["C19_insertRow","C19_fresh_variables"],"")
c("C20","proved",["C20_update","C20_updateF"],"")
c("C21","partial",["C21_failed_calls_partial","C21_ignored","C21_wrong"],"False: errors returned by callbacks are ignored (C21_wrong, C21_ignored); failed builder calls do abort")
c("C22","partial",["C22_criteria_partial","C22_delete_wrong"],"False for Delete, which omits the data model (C22_delete_wrong)")
c("C23","partial",["C23_operators_partial","C23_wrong","C23_exact"],"False for Regexp and NotBetween (C23_wrong)")
c("C24","partial",["C24_variable_partial","C24_long_wrong","C24_exact"],"False from 124 bytes on (C24_long_wrong); C24_exact: well formed exactly below that length")
c("C25","proved",["C25_prepare_deallocate"],"")
c("C26","proved",["C26_expect_open"],"contexts 0 and 1 (those of the protocol), field names below the size where the encoder's size computation overflows")
c("C27","partial",["C27_pointers_partial","C27_wrong","C27_exact"],"False for nil pointers to the library's own types (C27_wrong)")
c("C28","partial",["C28_headers_partial","C28_wrong","C28_exact"],"False from 4 GiB on (C28_wrong); C28_exact: right exactly below that length")
c("C33","proved",["C33_mysql41","C33_start","C33_password_hidden","C33_parsed"],"crypto/sha1 is an arbitrary function with 20 byte results")
c("C34","proved",["C34_sha256","C34_start","C34_password_hidden","C33_parsed"],"crypto/sha256 is an arbitrary function with 32 byte results")
c("C35","proved",["C35_plain"],"")
c("C47","proved",["C47_decompose_exact","C47_bound_tight"],"")
c("C48","partial",["C48_string_exact_partial","C48_agrees_partial","C48_wrong","C48_scale_dropped","C48_exact"],"False when there are more decimals than digits (C48_wrong, C48_scale_dropped); C48_exact says for every value whether the text is right")
c("C49","proved",["C49_mulAdd_exact","C49_mulAdd_parts"],"")
c("C53","proved",["C53_names_injective","C53_constants","C53_binary"],"")
c("C54","proved",["C54_capability"],"")
c("C52","proved",["C52_in_operands","C52_concat_aliases"],"")
c("C29","proved",["C29_one_response_each","C29_only_answers","C29_units"],"proto.Unmarshal is a parameter that rejects field number 0")
c("C30","proved",["C30_error_in_place","C30_error_ends"],"")
c("C31","proved",["C31_safe","C31_safe_one","C31_no_overrun","C31_success_complete","C31_truncated"],"")
c("C32","proved",["C32_fragmentation"],"")
c("C36","proved",["C36_success","C36_at_most_two","C36_no_panic"],"mechanisms whose messages are AuthenticateStart and AuthenticateContinue (proved for all three of the library)")
c("C37","proved",["C37_guarded","C37_mysql41_hidden","C37_sha256_hidden"],"crypto/tls is trusted; the hashes are arbitrary functions with results of the right length")
c("C38","partial",["C38_partial","C38_wrong","C38_ignored","C38_exact"],"False for network connections that are not *net.TCPConn (C38_wrong; C38_ignored, C38_exact: always, for those); true for TCP")
c("C39","partial",["C39_partial","C39_no_panic","C39_wrong","C39_exact"],"False exactly when sending the request for TLS fails (C39_wrong, C39_exact); true otherwise")
c("C55","proved",["C55_plaintext_ignored"],"")
c("C40","proved",["C40_well_used","C40_exclusive","C40_state"],"connector.New returns a new connection each time")
c("C41","proved",["C41_bounded"],"")
c("C42","proved",["C42_failed","C42_closed"],"")
c("C43","partial",["C43_places_partial","C43_no_panic_partial","C43_close_partial","C43_wrong","C43_panic_wrong","C43_left","C43_exact"],"False: a connection put back while Close returns stays open (C43_wrong); a panicking Send loses its connection (C43_panic_wrong)")
c("C44","partial",["C44_partial","C44_wrong","C44_exact"],"False if a connection was left in the pool (C44_wrong); true exactly if none was (C44_exact)")
c("C45","partial",["C45_partial","C45_first_close_partial","C45_wrong","C45_send_wrong","C45_cancelled_wrong","C45_one_close","C45_late_send"],"False: second Close panics, Send running during Close panics, cancelled Close leaves connections open; no panic before a Close has finished")
c("C46","proved",["C46_fifo","C46_empty"],"")
c("C56","proved",["C56_progress","C56_bounded"],"given that connector.New and the calls on the connection return")
c("C50","proved",["C50_commit_guarded","C50_needs_block"],"Server model in Spec/Plugin: expectation blocks and transactions; which statements fail and what free SQL text does is an arbitrary script. Bodies containing further blocks assume that the error closing a failed inner block counts as an error of the enclosing block. C50_needs_block: without the block a failed statement does not keep COMMIT from succeeding.")
c("C51","partial",["C51_partial","C51_wrong","C51_exact","C51_prefixes_partial"],"C51_full is false: a failed unit of work leaves its transaction open on the re-pooled connection and the next START TRANSACTION commits it. C51_partial: holds if the connection is closed after each failed unit of work. C51_prefixes_partial: in every history each unit leaves a beginning of its changes, all of them if committed; C51_exact says when.")
c("C57","proved",["C57_send","C57_reasons","C57_close","C57_told"],"for calls that return; calls that panic are C45")
c("C58","proved",["C58_open_bounded"],"a call that panicked counts as one that has not returned")
c("C59","proved",["C59_schema","C59_start","C59_continue","C59_capability","C59_reset"],"corollaries of C10, C33-C35, C54 by an agreement proof between the hand-written readers and the schema-driven one; tables generated from protobuf/*.proto by tools/schema.py")
c("C60","proved",["C60_end_to_end"],"composition of C10, C29, C31 and C50 with the session model of Spec/Plugin and the server of Spec/Remote")
c("C61","proved",["C61_own_id","C61_needs_block"],"for bodies with further blocks the assumption of C50; the user's statements leave variables named @id$... alone; C61_needs_block: outside a block the row of another insert may be meant")
c("C62","proved",["C62_call","C62_send","C62_unique"],"errors of InsertF and Insert about a value do not name the row, those of Update not the column")
c("C63","proved",["C63_error_exact","C63_continue_exact","C63_meta_accepted","C63_says","C63_says_all","C63_says_continue","C63_send","C63_error","C63_required","C63_no_invention","C63_rejects","C63_groups"],"golang/protobuf is modelled in Model/Unmarshal (wire types, groups, last value wins, required fields); strings are not checked for UTF-8 in proto2")
c("C64","proved",["C64_stream","C64_own","C64_planned"],"requests are whole messages (C13 for those of the builder); conn.Send is one step of the joint model, justified by C40")
c("C65","proved",["C65_settings","C65_first_error","C65_address","C65_messages","C65_tls"],"the dialer is net.Dialer with its documented connection types (no option sets another); PLAIN is used as a fallback only as C37 says")
c("C66","partial",["C66_partial","C66_exact","C66_hangs","C66_small_partial","C66_wrong","C66_always_some"],"false of the code: Send writes the whole request before it reads; it hangs (until the deadline, if any) exactly if some cut of the request leaves answers larger than the buffers back before it and messages larger than the buffers there after it. For all other requests proved, in particular for requests no larger than the buffers there and for requests with answers no larger than the buffers back")
c("C67","partial",["C67_partial","C67_prefix","C67_wrong"],"false of the code: a builder kept after its callback returned is not disabled, and its appends overwrite what the parent records. Proved for client code that does not use a builder after its callback returned; and that nobody can change what was recorded before the first callback (until Reset)")
c("C68","partial",["C68_partial","C68_sequential_partial","C68_exact","C68_tables","C68_wrong","C68_other_wrong","C68_needs_block"],"false of the code across calls: the pool takes idle connections in turn, so a statement prepared by one call is not there for the next, or another statement is. Proved within a guarded block for all servers, and over the pool for calls made one after the other without failures; exactly when it holds: if the call gets the connection which the earlier one used (C68_exact); what a number stands for in every execution (C68_tables)")
c("C69","partial",["C69_partial","C69_not_early","C69_hangs","C69_wrong","C69_late","C69_did","C69_order","C69_one_exchange"],"false of the code for contexts that are cancelled: only their deadline is used, so a running Send waits for the network. Proved for deadlines: the call is over when it passes, TLS handshake included, in a bounded number of steps; no timeout is reported early, whatever deadline earlier calls left")
c("C70","partial",["C70_same","C70_partial","C70_small_partial","C70_read_partial","C70_hostile","C70_wrong"],"False of the code: a header is believed, five bytes suffice for a buffer of 4 GiB (C70_wrong; C70_hostile for every size). Proved: without a network failure the buffers are covered by the bytes read; with one, all but the last are; nothing for payloads up to 4096 bytes; growing sizes within one answer.")
c("C71","partial",["C71_partial","C71_states_partial","C71_exact","C71_same","C71_decoded","C71_wrong"],"False of the code: an SQL state with a closing parenthesis makes the text ambiguous (C71_wrong). Proved: all four parts can be read back from the text for every SQL state without one, in particular for those of the SQL standard; without knowing anything about SQL states, the text tells the error exactly if neither its state nor its message contains what stands between the two (C71_exact); severity and code are always told (C71_same).")
c("C72","partial",["C72_partial","C72_ignored","C72_wrong"],"False for errors not marked as fatal, which New takes for an OK (C72_ignored, C72_wrong)")
c("C73","partial",["C73_recover_partial","C73_programs","C73_retry","C73_torn","C73_header","C73_dead","C73_dangling","C73_not_usable","C73_not_whole","C73_half"],"Exact account of what every program with panics and recover leaves behind (C73_recover_partial). The full statement holds of StmtExecute, Execute and Delete (C73_retry). It is false of Insert, InsertRow and Update (C73_torn, C73_half), of callbacks (C73_dead) and of transactions inside of blocks (C73_dangling)")
c("C74","partial",["C74_partial","C74_exact","C74_programs","C74_wrong","C74_wrong_default","C74_nested","C74_stuck","C74_needs_block"],"Exactly when the level is honoured (C74_exact): always for the four named levels; for Snapshot only on sessions at REPEATABLE READ, for Default unless an earlier unit of work has left a level behind (C74_wrong, C74_wrong_default). Levels inside a transaction are refused by the server: such units of work never commit (C74_nested), and after a unit of work that failed all others with a level fail on that connection (C74_stuck)")
c("C75","partial",["C75_partial","C75_end_to_end","C75_exact","C75_nested","C75_wrong"],"All or nothing for every body that does not call Tx (C75_partial, C75_end_to_end from the calls to the database; what the server is asked to do is derived from the program, the only assumption is on statements whose text the library does not know). False with a Tx inside (C75_wrong): its START TRANSACTION commits what the outer one did, and what follows its COMMIT is durable at once; exactly which changes are durable is C75_nested, for arbitrary statements C75_exact.")
c("C76","partial",["C76_partial","C76_own_partial","C76_wire_partial","C76_programs_partial","C76_call","C76_unpooled","C76_wrong"],"All interleavings of the pool, with connections, programs and servers (C76_partial per connection, C76_own_partial per call, C76_programs_partial from the programs, C76_wire_partial in terms of the bytes written and read, C76_call: one connection, once). False of the code: the changes of a call that got an error response become durable, in part, when the next call uses its connection (C76_wrong). In full for a pool of size 0 (C76_unpooled)")
c("C77","proved",["C77_no_injection","C77_texts"],"two runs side by side: messages differ in literals only; where every SQL text comes from. Messages with variables of 124 bytes and more, contexts other than 0 and 1, units of 4 GiB and more are recorded but not readable, see C24, C26, C28.")
c("C78","proved",["C78_codes","C78_denied"],"over the whole table, generated from the source by tools/errs.py; that names are unique is checked by the Go compiler.")
c("C79","proved",["C79_race_free","C79_order","C79_sees"],"happens-before is a small relation in Spec/Race with two rules of Go's memory model; the lock of the pool is not needed for it.")
c("C80","partial",["C80_partial","C80_shift","C80_order","C80_covers","C80_wrong","C80_order_wrong"],"false of the code: the text has the wall clock of the time's own location and no offset; the exact error is proved, and order for times with the same offset, over a calendar counted year by year and month by month (Spec/Calendar).")
c("C81","partial",["C81_partial","C81_exact","C81_wrong"],"false of the code for fractions of a second and for 839 hours or more; C81_exact says what arrives for each of the 2^64 durations.")
c("C82","proved",["C82_send","C82_unit","C82_new","C82_pool"],"C82_pool: requests are whole messages (C13 for those of the builder)")
c("C83","partial",["C83_partial","C83_exact","C83_wrong"],"false of the code for streams that end within a message of at most 4096 bytes, or within a header; C83_exact says which error comes for every stream")
c("C84","proved",["C84_cause","C84_said"],"the decoder of protobuf messages is a parameter that rejects headers (C63 for the real one)")
c("C85","partial",["C85_exact","C85_partial","C85_wrong"],"false of the code for Regexp and NotBetween, whose operators the server does not know; C85_exact says so for every expression")
c("C86","partial",["C86_partial","C86_exact","C86_updateF","C86_wrong"],"false of the code for maps in which an expression reads a column that another entry sets: MySQL assigns from left to right, in the random order of the map; C86_exact says what happens for every order")
c("C87","partial",["C87_insert","C87_insertRow","C87_delete_partial","C87_wrong"],"Delete does not declare the data model TABLE, so it works only on servers that take it for granted")
c("C88","proved",["C88_end_to_end"],"for servers that take TABLE for the missing data model of Delete (C87), expressions that the server knows (C85), and maps whose entries do not read each other's columns (C86); with InsertRow see C89")
c("C89","proved",["C89_keys","C89_child","C89_needs_auto","C89_needs_within"],"for statements given to StmtExecute, or prepared and then given to Execute, that neither begin nor end a transaction (C89_needs_within: otherwise the unit of work is not atomic), tables with an AUTO_INCREMENT column for which the calls give no value (C89_needs_auto: without one the id is that of another row), servers that know expressions of type VARIABLE (README.md: 8.0.27 does not) and take TABLE for the missing data model of Delete (C87), and under the restrictions of C85 and C86; nobody else writes meanwhile")
c("C90","partial",["C90_partial","C90_exact","C90_wrong"],"false of the code: names of ids are made from the length of the buffer, so InsertRow calls of two units of work can return the same name, and then the later one takes over; proved for second units of work that do not return the name again and whose own statements set no variables; C90_exact says which row it is in every case")
c("C91","proved",["C91_series","C91_ends","C91_needs_stop"],"under the restrictions of C89, where a unit of work may execute what earlier ones prepared; a client that goes on after an error response can find parts of units of work (C91_needs_stop, C51)")
json.dump({"claims":[C[k] for k in sorted(C)]},open('/verif/MANIFEST.json','w'),indent=1)
names = [t for k in sorted(C) for t in C[k]["theorems"]]
names = list(dict.fromkeys(names))
mods = sorted('Verif.Props.'+f[:-5] for f in __import__('os').listdir('/verif/lean/Verif/Props'))
with open('/verif/lean/Verif/Axioms.lean','w') as f:
    for m in mods: f.write(f'import {m}\n')
    f.write('import Lean.Elab.Command\nimport Lean.Util.CollectAxioms\n')
    f.write('/-! Written by tools/manifest.py: the theorems of MANIFEST.json depend on nothing but propext, Classical.choice and\nQuot.sound. -/\nopen Lean Elab Command\n\n')
    f.write('run_cmd\n  for n in [\n' + ',\n'.join(f'      ``{n}' for n in names) + '] do\n')
    f.write('    for a in ← liftCoreM (collectAxioms n) do\n      unless [``propext, ``Classical.choice, ``Quot.sound].contains a do\n        throwError "{n} depends on {a}"\n')
