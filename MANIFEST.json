{
 "claims": [
  {
   "property": "C01",
   "status": "proved",
   "theorems": [
    "Verif.Props.C01_statements_exact"
   ],
   "note": ""
  },
  {
   "property": "C02",
   "status": "proved",
   "theorems": [
    "Verif.Props.C02_signed_exact"
   ],
   "note": ""
  },
  {
   "property": "C03",
   "status": "proved",
   "theorems": [
    "Verif.Props.C03_unsigned_exact"
   ],
   "note": ""
  },
  {
   "property": "C04",
   "status": "proved",
   "theorems": [
    "Verif.Props.C04_null_bool_float_exact"
   ],
   "note": ""
  },
  {
   "property": "C05",
   "status": "proved",
   "theorems": [
    "Verif.Props.C05_strings_exact"
   ],
   "note": ""
  },
  {
   "property": "C06",
   "status": "proved",
   "theorems": [
    "Verif.Props.C06_time_exact",
    "Verif.Props.C06_time_injective"
   ],
   "note": "time.Time is modelled by its civil fields"
  },
  {
   "property": "C07",
   "status": "partial",
   "theorems": [
    "Verif.Props.C07_duration_exact_partial",
    "Verif.Props.C07_min_wrong",
    "Verif.Props.C07_exact"
   ],
   "note": "False for the duration -2^63 ns, proved as C07_min_wrong; exact for all others"
  },
  {
   "property": "C08",
   "status": "proved",
   "theorems": [
    "Verif.Props.C08_expression_trees",
    "Verif.Props.C08_accepted_has_meaning"
   ],
   "note": "variable names of at most 123 bytes, see C24"
  },
  {
   "property": "C09",
   "status": "proved",
   "theorems": [
    "Verif.Props.C09_any_expr_agree"
   ],
   "note": ""
  },
  {
   "property": "C10",
   "status": "proved",
   "theorems": [
    "Verif.Props.C10_unit_frames"
   ],
   "note": "messages below 4 GiB (C28), variable names of at most 123 bytes (C24)"
  },
  {
   "property": "C11",
   "status": "proved",
   "theorems": [
    "Verif.Props.C11_buffer_independent"
   ],
   "note": ""
  },
  {
   "property": "C12",
   "status": "partial",
   "theorems": [
    "Verif.Props.C12_no_panic_partial",
    "Verif.Props.C12_legal_partial",
    "Verif.Props.C12_wrong",
    "Verif.Props.C12_exact",
    "Verif.Props.C12_call_exact"
   ],
   "note": "False for nil expressions and nil pointers to the library's own types (C12_wrong); exactly when is in C12_exact"
  },
  {
   "property": "C13",
   "status": "proved",
   "theorems": [
    "Verif.Props.C13_errors_stick",
    "Verif.Props.C13_errors_start",
    "Verif.Props.C11_buffer_independent"
   ],
   "note": "behaviour after Reset: C11_buffer_independent"
  },
  {
   "property": "C14",
   "status": "proved",
   "theorems": [
    "Verif.Props.C14_append_only"
   ],
   "note": ""
  },
  {
   "property": "C15",
   "status": "proved",
   "theorems": [
    "Verif.Props.C15_tx"
   ],
   "note": ""
  },
  {
   "property": "C16",
   "status": "proved",
   "theorems": [
    "Verif.Props.C16_blocks_balanced",
    "Verif.Props.C16_block_nesting"
   ],
   "note": ""
  },
  {
   "property": "C17",
   "status": "proved",
   "theorems": [
    "Verif.Props.C17_enclosing_panics",
    "Verif.Props.C17_disabled_panics",
    "Verif.Props.C17_callbacks",
    "Verif.Props.C17_usable_again",
    "Verif.Props.C17_usable_after_expect",
    "Verif.Props.C17_usable_after_rows"
   ],
   "note": ""
  },
  {
   "property": "C18",
   "status": "proved",
   "theorems": [
    "Verif.Props.C18_insert"
   ],
   "note": ""
  },
  {
   "property": "C19",
   "status": "proved",
   "theorems": [
    "Verif.Props.C19_insertRow",
    "Verif.Props.C19_fresh_variables"
   ],
   "note": ""
  },
  {
   "property": "C20",
   "status": "proved",
   "theorems": [
    "Verif.Props.C20_update",
    "Verif.Props.C20_updateF"
   ],
   "note": ""
  },
  {
   "property": "C21",
   "status": "partial",
   "theorems": [
    "Verif.Props.C21_failed_calls_partial",
    "Verif.Props.C21_ignored",
    "Verif.Props.C21_wrong"
   ],
   "note": "False: errors returned by callbacks are ignored (C21_wrong, C21_ignored); failed builder calls do abort"
  },
  {
   "property": "C22",
   "status": "partial",
   "theorems": [
    "Verif.Props.C22_criteria_partial",
    "Verif.Props.C22_delete_wrong"
   ],
   "note": "False for Delete, which omits the data model (C22_delete_wrong)"
  },
  {
   "property": "C23",
   "status": "partial",
   "theorems": [
    "Verif.Props.C23_operators_partial",
    "Verif.Props.C23_wrong",
    "Verif.Props.C23_exact"
   ],
   "note": "False for Regexp and NotBetween (C23_wrong)"
  },
  {
   "property": "C24",
   "status": "partial",
   "theorems": [
    "Verif.Props.C24_variable_partial",
    "Verif.Props.C24_long_wrong",
    "Verif.Props.C24_exact"
   ],
   "note": "False from 124 bytes on (C24_long_wrong); C24_exact: well formed exactly below that length"
  },
  {
   "property": "C25",
   "status": "proved",
   "theorems": [
    "Verif.Props.C25_prepare_deallocate"
   ],
   "note": ""
  },
  {
   "property": "C26",
   "status": "proved",
   "theorems": [
    "Verif.Props.C26_expect_open"
   ],
   "note": "contexts 0 and 1 (those of the protocol), field names below the size where the encoder's size computation overflows"
  },
  {
   "property": "C27",
   "status": "partial",
   "theorems": [
    "Verif.Props.C27_pointers_partial",
    "Verif.Props.C27_wrong",
    "Verif.Props.C27_exact"
   ],
   "note": "False for nil pointers to the library's own types (C27_wrong)"
  },
  {
   "property": "C28",
   "status": "partial",
   "theorems": [
    "Verif.Props.C28_headers_partial",
    "Verif.Props.C28_wrong",
    "Verif.Props.C28_exact"
   ],
   "note": "False from 4 GiB on (C28_wrong); C28_exact: right exactly below that length"
  },
  {
   "property": "C29",
   "status": "proved",
   "theorems": [
    "Verif.Props.C29_one_response_each",
    "Verif.Props.C29_only_answers",
    "Verif.Props.C29_units"
   ],
   "note": "proto.Unmarshal is a parameter that rejects field number 0"
  },
  {
   "property": "C30",
   "status": "proved",
   "theorems": [
    "Verif.Props.C30_error_in_place",
    "Verif.Props.C30_error_ends"
   ],
   "note": ""
  },
  {
   "property": "C31",
   "status": "proved",
   "theorems": [
    "Verif.Props.C31_safe",
    "Verif.Props.C31_safe_one",
    "Verif.Props.C31_no_overrun",
    "Verif.Props.C31_success_complete",
    "Verif.Props.C31_truncated"
   ],
   "note": ""
  },
  {
   "property": "C32",
   "status": "proved",
   "theorems": [
    "Verif.Props.C32_fragmentation"
   ],
   "note": ""
  },
  {
   "property": "C33",
   "status": "proved",
   "theorems": [
    "Verif.Props.C33_mysql41",
    "Verif.Props.C33_start",
    "Verif.Props.C33_password_hidden",
    "Verif.Props.C33_parsed"
   ],
   "note": "crypto/sha1 is an arbitrary function with 20 byte results"
  },
  {
   "property": "C34",
   "status": "proved",
   "theorems": [
    "Verif.Props.C34_sha256",
    "Verif.Props.C34_start",
    "Verif.Props.C34_password_hidden",
    "Verif.Props.C33_parsed"
   ],
   "note": "crypto/sha256 is an arbitrary function with 32 byte results"
  },
  {
   "property": "C35",
   "status": "proved",
   "theorems": [
    "Verif.Props.C35_plain"
   ],
   "note": ""
  },
  {
   "property": "C36",
   "status": "proved",
   "theorems": [
    "Verif.Props.C36_success",
    "Verif.Props.C36_at_most_two",
    "Verif.Props.C36_no_panic"
   ],
   "note": "mechanisms whose messages are AuthenticateStart and AuthenticateContinue (proved for all three of the library)"
  },
  {
   "property": "C37",
   "status": "proved",
   "theorems": [
    "Verif.Props.C37_guarded",
    "Verif.Props.C37_mysql41_hidden",
    "Verif.Props.C37_sha256_hidden"
   ],
   "note": "crypto/tls is trusted; the hashes are arbitrary functions with results of the right length"
  },
  {
   "property": "C38",
   "status": "partial",
   "theorems": [
    "Verif.Props.C38_partial",
    "Verif.Props.C38_wrong",
    "Verif.Props.C38_ignored",
    "Verif.Props.C38_exact"
   ],
   "note": "False for network connections that are not *net.TCPConn (C38_wrong; C38_ignored, C38_exact: always, for those); true for TCP"
  },
  {
   "property": "C39",
   "status": "partial",
   "theorems": [
    "Verif.Props.C39_partial",
    "Verif.Props.C39_no_panic",
    "Verif.Props.C39_wrong",
    "Verif.Props.C39_exact"
   ],
   "note": "False exactly when sending the request for TLS fails (C39_wrong, C39_exact); true otherwise"
  },
  {
   "property": "C40",
   "status": "proved",
   "theorems": [
    "Verif.Props.C40_well_used",
    "Verif.Props.C40_exclusive",
    "Verif.Props.C40_state"
   ],
   "note": "connector.New returns a new connection each time"
  },
  {
   "property": "C41",
   "status": "proved",
   "theorems": [
    "Verif.Props.C41_bounded"
   ],
   "note": ""
  },
  {
   "property": "C42",
   "status": "proved",
   "theorems": [
    "Verif.Props.C42_failed",
    "Verif.Props.C42_closed"
   ],
   "note": ""
  },
  {
   "property": "C43",
   "status": "partial",
   "theorems": [
    "Verif.Props.C43_places_partial",
    "Verif.Props.C43_no_panic_partial",
    "Verif.Props.C43_close_partial",
    "Verif.Props.C43_wrong",
    "Verif.Props.C43_panic_wrong",
    "Verif.Props.C43_left",
    "Verif.Props.C43_exact"
   ],
   "note": "False: a connection put back while Close returns stays open (C43_wrong); a panicking Send loses its connection (C43_panic_wrong)"
  },
  {
   "property": "C44",
   "status": "partial",
   "theorems": [
    "Verif.Props.C44_partial",
    "Verif.Props.C44_wrong",
    "Verif.Props.C44_exact"
   ],
   "note": "False if a connection was left in the pool (C44_wrong); true exactly if none was (C44_exact)"
  },
  {
   "property": "C45",
   "status": "partial",
   "theorems": [
    "Verif.Props.C45_partial",
    "Verif.Props.C45_first_close_partial",
    "Verif.Props.C45_wrong",
    "Verif.Props.C45_send_wrong",
    "Verif.Props.C45_cancelled_wrong",
    "Verif.Props.C45_one_close",
    "Verif.Props.C45_late_send"
   ],
   "note": "False: second Close panics, Send running during Close panics, cancelled Close leaves connections open; no panic before a Close has finished"
  },
  {
   "property": "C46",
   "status": "proved",
   "theorems": [
    "Verif.Props.C46_fifo",
    "Verif.Props.C46_empty"
   ],
   "note": ""
  },
  {
   "property": "C47",
   "status": "proved",
   "theorems": [
    "Verif.Props.C47_decompose_exact",
    "Verif.Props.C47_bound_tight"
   ],
   "note": ""
  },
  {
   "property": "C48",
   "status": "partial",
   "theorems": [
    "Verif.Props.C48_string_exact_partial",
    "Verif.Props.C48_agrees_partial",
    "Verif.Props.C48_wrong",
    "Verif.Props.C48_scale_dropped",
    "Verif.Props.C48_exact"
   ],
   "note": "False when there are more decimals than digits (C48_wrong, C48_scale_dropped); C48_exact says for every value whether the text is right"
  },
  {
   "property": "C49",
   "status": "proved",
   "theorems": [
    "Verif.Props.C49_mulAdd_exact",
    "Verif.Props.C49_mulAdd_parts"
   ],
   "note": ""
  },
  {
   "property": "C50",
   "status": "proved",
   "theorems": [
    "Verif.Props.C50_commit_guarded",
    "Verif.Props.C50_needs_block"
   ],
   "note": "Server model in Spec/Plugin: expectation blocks and transactions; which statements fail and what free SQL text does is an arbitrary script. Bodies containing further blocks assume that the error closing a failed inner block counts as an error of the enclosing block. C50_needs_block: without the block a failed statement does not keep COMMIT from succeeding."
  },
  {
   "property": "C51",
   "status": "partial",
   "theorems": [
    "Verif.Props.C51_partial",
    "Verif.Props.C51_wrong",
    "Verif.Props.C51_exact",
    "Verif.Props.C51_prefixes_partial"
   ],
   "note": "C51_full is false: a failed unit of work leaves its transaction open on the re-pooled connection and the next START TRANSACTION commits it. C51_partial: holds if the connection is closed after each failed unit of work. C51_prefixes_partial: in every history each unit leaves a beginning of its changes, all of them if committed; C51_exact says when."
  },
  {
   "property": "C52",
   "status": "proved",
   "theorems": [
    "Verif.Props.C52_in_operands",
    "Verif.Props.C52_concat_aliases"
   ],
   "note": ""
  },
  {
   "property": "C53",
   "status": "proved",
   "theorems": [
    "Verif.Props.C53_names_injective",
    "Verif.Props.C53_constants",
    "Verif.Props.C53_binary"
   ],
   "note": ""
  },
  {
   "property": "C54",
   "status": "proved",
   "theorems": [
    "Verif.Props.C54_capability"
   ],
   "note": ""
  },
  {
   "property": "C55",
   "status": "proved",
   "theorems": [
    "Verif.Props.C55_plaintext_ignored"
   ],
   "note": ""
  },
  {
   "property": "C56",
   "status": "proved",
   "theorems": [
    "Verif.Props.C56_progress",
    "Verif.Props.C56_bounded"
   ],
   "note": "given that connector.New and the calls on the connection return"
  },
  {
   "property": "C57",
   "status": "proved",
   "theorems": [
    "Verif.Props.C57_send",
    "Verif.Props.C57_reasons",
    "Verif.Props.C57_close",
    "Verif.Props.C57_told"
   ],
   "note": "for calls that return; calls that panic are C45"
  },
  {
   "property": "C58",
   "status": "proved",
   "theorems": [
    "Verif.Props.C58_open_bounded"
   ],
   "note": "a call that panicked counts as one that has not returned"
  },
  {
   "property": "C59",
   "status": "proved",
   "theorems": [
    "Verif.Props.C59_schema",
    "Verif.Props.C59_start",
    "Verif.Props.C59_continue",
    "Verif.Props.C59_capability",
    "Verif.Props.C59_reset"
   ],
   "note": "corollaries of C10, C33-C35, C54 by an agreement proof between the hand-written readers and the schema-driven one; tables generated from protobuf/*.proto by tools/schema.py"
  },
  {
   "property": "C60",
   "status": "proved",
   "theorems": [
    "Verif.Props.C60_end_to_end"
   ],
   "note": "composition of C10, C29, C31 and C50 with the session model of Spec/Plugin and the server of Spec/Remote"
  },
  {
   "property": "C61",
   "status": "proved",
   "theorems": [
    "Verif.Props.C61_own_id",
    "Verif.Props.C61_needs_block"
   ],
   "note": "for bodies with further blocks the assumption of C50; the user's statements leave variables named @id$... alone; C61_needs_block: outside a block the row of another insert may be meant"
  },
  {
   "property": "C62",
   "status": "proved",
   "theorems": [
    "Verif.Props.C62_call",
    "Verif.Props.C62_send",
    "Verif.Props.C62_unique"
   ],
   "note": "errors of InsertF and Insert about a value do not name the row, those of Update not the column"
  },
  {
   "property": "C63",
   "status": "proved",
   "theorems": [
    "Verif.Props.C63_error_exact",
    "Verif.Props.C63_continue_exact",
    "Verif.Props.C63_meta_accepted",
    "Verif.Props.C63_says",
    "Verif.Props.C63_says_all",
    "Verif.Props.C63_says_continue",
    "Verif.Props.C63_send",
    "Verif.Props.C63_error",
    "Verif.Props.C63_required",
    "Verif.Props.C63_no_invention",
    "Verif.Props.C63_rejects",
    "Verif.Props.C63_groups"
   ],
   "note": "golang/protobuf is modelled in Model/Unmarshal (wire types, groups, last value wins, required fields); strings are not checked for UTF-8 in proto2"
  },
  {
   "property": "C64",
   "status": "proved",
   "theorems": [
    "Verif.Props.C64_stream",
    "Verif.Props.C64_own",
    "Verif.Props.C64_planned"
   ],
   "note": "requests are whole messages (C13 for those of the builder); conn.Send is one step of the joint model, justified by C40"
  },
  {
   "property": "C65",
   "status": "proved",
   "theorems": [
    "Verif.Props.C65_settings",
    "Verif.Props.C65_first_error",
    "Verif.Props.C65_address",
    "Verif.Props.C65_messages",
    "Verif.Props.C65_tls"
   ],
   "note": "the dialer is net.Dialer with its documented connection types (no option sets another); PLAIN is used as a fallback only as C37 says"
  },
  {
   "property": "C66",
   "status": "partial",
   "theorems": [
    "Verif.Props.C66_partial",
    "Verif.Props.C66_exact",
    "Verif.Props.C66_hangs",
    "Verif.Props.C66_small_partial",
    "Verif.Props.C66_wrong",
    "Verif.Props.C66_always_some"
   ],
   "note": "false of the code: Send writes the whole request before it reads; it hangs (until the deadline, if any) exactly if some cut of the request leaves answers larger than the buffers back before it and messages larger than the buffers there after it. For all other requests proved, in particular for requests no larger than the buffers there and for requests with answers no larger than the buffers back"
  },
  {
   "property": "C67",
   "status": "partial",
   "theorems": [
    "Verif.Props.C67_partial",
    "Verif.Props.C67_prefix",
    "Verif.Props.C67_wrong"
   ],
   "note": "false of the code: a builder kept after its callback returned is not disabled, and its appends overwrite what the parent records. Proved for client code that does not use a builder after its callback returned; and that nobody can change what was recorded before the first callback (until Reset)"
  },
  {
   "property": "C68",
   "status": "partial",
   "theorems": [
    "Verif.Props.C68_partial",
    "Verif.Props.C68_sequential_partial",
    "Verif.Props.C68_exact",
    "Verif.Props.C68_tables",
    "Verif.Props.C68_wrong",
    "Verif.Props.C68_other_wrong",
    "Verif.Props.C68_needs_block"
   ],
   "note": "false of the code across calls: the pool takes idle connections in turn, so a statement prepared by one call is not there for the next, or another statement is. Proved within a guarded block for all servers, and over the pool for calls made one after the other without failures; exactly when it holds: if the call gets the connection which the earlier one used (C68_exact); what a number stands for in every execution (C68_tables)"
  },
  {
   "property": "C69",
   "status": "partial",
   "theorems": [
    "Verif.Props.C69_partial",
    "Verif.Props.C69_not_early",
    "Verif.Props.C69_hangs",
    "Verif.Props.C69_wrong",
    "Verif.Props.C69_late",
    "Verif.Props.C69_did",
    "Verif.Props.C69_order",
    "Verif.Props.C69_one_exchange"
   ],
   "note": "false of the code for contexts that are cancelled: only their deadline is used, so a running Send waits for the network. Proved for deadlines: the call is over when it passes, TLS handshake included, in a bounded number of steps; no timeout is reported early, whatever deadline earlier calls left"
  },
  {
   "property": "C70",
   "status": "partial",
   "theorems": [
    "Verif.Props.C70_same",
    "Verif.Props.C70_partial",
    "Verif.Props.C70_small_partial",
    "Verif.Props.C70_read_partial",
    "Verif.Props.C70_hostile",
    "Verif.Props.C70_wrong"
   ],
   "note": "False of the code: a header is believed, five bytes suffice for a buffer of 4 GiB (C70_wrong; C70_hostile for every size). Proved: without a network failure the buffers are covered by the bytes read; with one, all but the last are; nothing for payloads up to 4096 bytes; growing sizes within one answer."
  },
  {
   "property": "C71",
   "status": "partial",
   "theorems": [
    "Verif.Props.C71_partial",
    "Verif.Props.C71_states_partial",
    "Verif.Props.C71_exact",
    "Verif.Props.C71_same",
    "Verif.Props.C71_decoded",
    "Verif.Props.C71_wrong"
   ],
   "note": "False of the code: an SQL state with a closing parenthesis makes the text ambiguous (C71_wrong). Proved: all four parts can be read back from the text for every SQL state without one, in particular for those of the SQL standard; without knowing anything about SQL states, the text tells the error exactly if neither its state nor its message contains what stands between the two (C71_exact); severity and code are always told (C71_same)."
  },
  {
   "property": "C72",
   "status": "partial",
   "theorems": [
    "Verif.Props.C72_partial",
    "Verif.Props.C72_ignored",
    "Verif.Props.C72_wrong"
   ],
   "note": "False for errors not marked as fatal, which New takes for an OK (C72_ignored, C72_wrong)"
  },
  {
   "property": "C73",
   "status": "partial",
   "theorems": [
    "Verif.Props.C73_recover_partial",
    "Verif.Props.C73_programs",
    "Verif.Props.C73_retry",
    "Verif.Props.C73_torn",
    "Verif.Props.C73_header",
    "Verif.Props.C73_dead",
    "Verif.Props.C73_dangling",
    "Verif.Props.C73_not_usable",
    "Verif.Props.C73_not_whole",
    "Verif.Props.C73_half"
   ],
   "note": "Exact account of what every program with panics and recover leaves behind (C73_recover_partial). The full statement holds of StmtExecute, Execute and Delete (C73_retry). It is false of Insert, InsertRow and Update (C73_torn, C73_half), of callbacks (C73_dead) and of transactions inside of blocks (C73_dangling)"
  },
  {
   "property": "C74",
   "status": "partial",
   "theorems": [
    "Verif.Props.C74_partial",
    "Verif.Props.C74_exact",
    "Verif.Props.C74_programs",
    "Verif.Props.C74_wrong",
    "Verif.Props.C74_wrong_default",
    "Verif.Props.C74_nested",
    "Verif.Props.C74_stuck",
    "Verif.Props.C74_needs_block"
   ],
   "note": "Exactly when the level is honoured (C74_exact): always for the four named levels; for Snapshot only on sessions at REPEATABLE READ, for Default unless an earlier unit of work has left a level behind (C74_wrong, C74_wrong_default). Levels inside a transaction are refused by the server: such units of work never commit (C74_nested), and after a unit of work that failed all others with a level fail on that connection (C74_stuck)"
  },
  {
   "property": "C75",
   "status": "partial",
   "theorems": [
    "Verif.Props.C75_partial",
    "Verif.Props.C75_end_to_end",
    "Verif.Props.C75_exact",
    "Verif.Props.C75_nested",
    "Verif.Props.C75_wrong"
   ],
   "note": "All or nothing for every body that does not call Tx (C75_partial, C75_end_to_end from the calls to the database; what the server is asked to do is derived from the program, the only assumption is on statements whose text the library does not know). False with a Tx inside (C75_wrong): its START TRANSACTION commits what the outer one did, and what follows its COMMIT is durable at once; exactly which changes are durable is C75_nested, for arbitrary statements C75_exact."
  },
  {
   "property": "C76",
   "status": "partial",
   "theorems": [
    "Verif.Props.C76_partial",
    "Verif.Props.C76_own_partial",
    "Verif.Props.C76_wire_partial",
    "Verif.Props.C76_programs_partial",
    "Verif.Props.C76_call",
    "Verif.Props.C76_unpooled",
    "Verif.Props.C76_wrong"
   ],
   "note": "All interleavings of the pool, with connections, programs and servers (C76_partial per connection, C76_own_partial per call, C76_programs_partial from the programs, C76_wire_partial in terms of the bytes written and read, C76_call: one connection, once). False of the code: the changes of a call that got an error response become durable, in part, when the next call uses its connection (C76_wrong). In full for a pool of size 0 (C76_unpooled)"
  },
  {
   "property": "C77",
   "status": "proved",
   "theorems": [
    "Verif.Props.C77_no_injection",
    "Verif.Props.C77_texts"
   ],
   "note": "two runs side by side: messages differ in literals only; where every SQL text comes from. Messages with variables of 124 bytes and more, contexts other than 0 and 1, units of 4 GiB and more are recorded but not readable, see C24, C26, C28."
  },
  {
   "property": "C78",
   "status": "proved",
   "theorems": [
    "Verif.Props.C78_codes",
    "Verif.Props.C78_denied"
   ],
   "note": "over the whole table, generated from the source by tools/errs.py; that names are unique is checked by the Go compiler."
  },
  {
   "property": "C79",
   "status": "proved",
   "theorems": [
    "Verif.Props.C79_race_free",
    "Verif.Props.C79_order",
    "Verif.Props.C79_sees"
   ],
   "note": "happens-before is a small relation in Spec/Race with two rules of Go's memory model; the lock of the pool is not needed for it."
  },
  {
   "property": "C80",
   "status": "partial",
   "theorems": [
    "Verif.Props.C80_partial",
    "Verif.Props.C80_shift",
    "Verif.Props.C80_order",
    "Verif.Props.C80_covers",
    "Verif.Props.C80_wrong",
    "Verif.Props.C80_order_wrong"
   ],
   "note": "false of the code: the text has the wall clock of the time's own location and no offset; the exact error is proved, and order for times with the same offset, over a calendar counted year by year and month by month (Spec/Calendar)."
  },
  {
   "property": "C81",
   "status": "partial",
   "theorems": [
    "Verif.Props.C81_partial",
    "Verif.Props.C81_exact",
    "Verif.Props.C81_wrong"
   ],
   "note": "false of the code for fractions of a second and for 839 hours or more; C81_exact says what arrives for each of the 2^64 durations."
  },
  {
   "property": "C82",
   "status": "proved",
   "theorems": [
    "Verif.Props.C82_send",
    "Verif.Props.C82_unit",
    "Verif.Props.C82_new",
    "Verif.Props.C82_pool"
   ],
   "note": "C82_pool: requests are whole messages (C13 for those of the builder)"
  },
  {
   "property": "C83",
   "status": "partial",
   "theorems": [
    "Verif.Props.C83_partial",
    "Verif.Props.C83_exact",
    "Verif.Props.C83_wrong"
   ],
   "note": "false of the code for streams that end within a message of at most 4096 bytes, or within a header; C83_exact says which error comes for every stream"
  },
  {
   "property": "C84",
   "status": "proved",
   "theorems": [
    "Verif.Props.C84_cause",
    "Verif.Props.C84_said"
   ],
   "note": "the decoder of protobuf messages is a parameter that rejects headers (C63 for the real one)"
  },
  {
   "property": "C85",
   "status": "partial",
   "theorems": [
    "Verif.Props.C85_exact",
    "Verif.Props.C85_partial",
    "Verif.Props.C85_wrong"
   ],
   "note": "false of the code for Regexp and NotBetween, whose operators the server does not know; C85_exact says so for every expression"
  },
  {
   "property": "C86",
   "status": "partial",
   "theorems": [
    "Verif.Props.C86_partial",
    "Verif.Props.C86_exact",
    "Verif.Props.C86_updateF",
    "Verif.Props.C86_wrong"
   ],
   "note": "false of the code for maps in which an expression reads a column that another entry sets: MySQL assigns from left to right, in the random order of the map; C86_exact says what happens for every order"
  },
  {
   "property": "C87",
   "status": "partial",
   "theorems": [
    "Verif.Props.C87_insert",
    "Verif.Props.C87_insertRow",
    "Verif.Props.C87_delete_partial",
    "Verif.Props.C87_wrong"
   ],
   "note": "Delete does not declare the data model TABLE, so it works only on servers that take it for granted"
  },
  {
   "property": "C88",
   "status": "proved",
   "theorems": [
    "Verif.Props.C88_end_to_end"
   ],
   "note": "for servers that take TABLE for the missing data model of Delete (C87), expressions that the server knows (C85), and maps whose entries do not read each other's columns (C86); with InsertRow see C89"
  },
  {
   "property": "C89",
   "status": "proved",
   "theorems": [
    "Verif.Props.C89_keys",
    "Verif.Props.C89_child",
    "Verif.Props.C89_needs_auto",
    "Verif.Props.C89_needs_within"
   ],
   "note": "for statements given to StmtExecute, or prepared and then given to Execute, that neither begin nor end a transaction (C89_needs_within: otherwise the unit of work is not atomic), tables with an AUTO_INCREMENT column for which the calls give no value (C89_needs_auto: without one the id is that of another row), servers that know expressions of type VARIABLE (README.md: 8.0.27 does not) and take TABLE for the missing data model of Delete (C87), and under the restrictions of C85 and C86; nobody else writes meanwhile"
  },
  {
   "property": "C90",
   "status": "partial",
   "theorems": [
    "Verif.Props.C90_partial",
    "Verif.Props.C90_exact",
    "Verif.Props.C90_wrong"
   ],
   "note": "false of the code: names of ids are made from the length of the buffer, so InsertRow calls of two units of work can return the same name, and then the later one takes over; proved for second units of work that do not return the name again and whose own statements set no variables; C90_exact says which row it is in every case"
  },
  {
   "property": "C91",
   "status": "proved",
   "theorems": [
    "Verif.Props.C91_series",
    "Verif.Props.C91_ends",
    "Verif.Props.C91_needs_stop"
   ],
   "note": "under the restrictions of C89, where a unit of work may execute what earlier ones prepared; a client that goes on after an error response can find parts of units of work (C91_needs_stop, C51)"
  }
 ]
}