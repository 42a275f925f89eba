import Verif.Props.Alias
import Verif.Props.Auth
import Verif.Props.Calendar
import Verif.Props.Calls
import Verif.Props.Collation
import Verif.Props.Connection
import Verif.Props.Connector
import Verif.Props.ConnectorExact
import Verif.Props.Decimal
import Verif.Props.Ending
import Verif.Props.ErrCodes
import Verif.Props.ErrorText
import Verif.Props.Errors
import Verif.Props.Exact
import Verif.Props.ExactValues
import Verif.Props.Exprs
import Verif.Props.Flow
import Verif.Props.GoSlice
import Verif.Props.Groups
import Verif.Props.Headers
import Verif.Props.Ids
import Verif.Props.Injection
import Verif.Props.Isolation
import Verif.Props.Keys
import Verif.Props.Later
import Verif.Props.Leftovers
import Verif.Props.Memory
import Verif.Props.Nested
import Verif.Props.Options
import Verif.Props.Panics
import Verif.Props.Pool
import Verif.Props.PoolCases
import Verif.Props.PoolConn
import Verif.Props.PoolExact
import Verif.Props.PoolResults
import Verif.Props.Prepared
import Verif.Props.Race
import Verif.Props.Recover
import Verif.Props.Remote
import Verif.Props.Schema
import Verif.Props.Series
import Verif.Props.Server
import Verif.Props.ServerMsg
import Verif.Props.Sql
import Verif.Props.System
import Verif.Props.Tables
import Verif.Props.Timed
import Verif.Props.TimedOrder
import Verif.Props.Units
import Verif.Props.Values
import Verif.Props.Whole
import Verif.Props.Wire
import Verif.Props.Writes
import Lean.Elab.Command
import Lean.Util.CollectAxioms
/-! Written by tools/manifest.py: the theorems of MANIFEST.json depend on nothing but propext, Classical.choice and
Quot.sound. -/
open Lean Elab Command

run_cmd
  for n in [
      ``Verif.Props.C01_statements_exact,
      ``Verif.Props.C02_signed_exact,
      ``Verif.Props.C03_unsigned_exact,
      ``Verif.Props.C04_null_bool_float_exact,
      ``Verif.Props.C05_strings_exact,
      ``Verif.Props.C06_time_exact,
      ``Verif.Props.C06_time_injective,
      ``Verif.Props.C07_duration_exact_partial,
      ``Verif.Props.C07_min_wrong,
      ``Verif.Props.C07_exact,
      ``Verif.Props.C08_expression_trees,
      ``Verif.Props.C08_accepted_has_meaning,
      ``Verif.Props.C09_any_expr_agree,
      ``Verif.Props.C10_unit_frames,
      ``Verif.Props.C11_buffer_independent,
      ``Verif.Props.C12_no_panic_partial,
      ``Verif.Props.C12_legal_partial,
      ``Verif.Props.C12_wrong,
      ``Verif.Props.C12_exact,
      ``Verif.Props.C12_call_exact,
      ``Verif.Props.C13_errors_stick,
      ``Verif.Props.C13_errors_start,
      ``Verif.Props.C14_append_only,
      ``Verif.Props.C15_tx,
      ``Verif.Props.C16_blocks_balanced,
      ``Verif.Props.C16_block_nesting,
      ``Verif.Props.C17_enclosing_panics,
      ``Verif.Props.C17_disabled_panics,
      ``Verif.Props.C17_callbacks,
      ``Verif.Props.C17_usable_again,
      ``Verif.Props.C17_usable_after_expect,
      ``Verif.Props.C17_usable_after_rows,
      ``Verif.Props.C18_insert,
      ``Verif.Props.C19_insertRow,
      ``Verif.Props.C19_fresh_variables,
      ``Verif.Props.C20_update,
      ``Verif.Props.C20_updateF,
      ``Verif.Props.C21_failed_calls_partial,
      ``Verif.Props.C21_ignored,
      ``Verif.Props.C21_wrong,
      ``Verif.Props.C22_criteria_partial,
      ``Verif.Props.C22_delete_wrong,
      ``Verif.Props.C23_operators_partial,
      ``Verif.Props.C23_wrong,
      ``Verif.Props.C23_exact,
      ``Verif.Props.C24_variable_partial,
      ``Verif.Props.C24_long_wrong,
      ``Verif.Props.C24_exact,
      ``Verif.Props.C25_prepare_deallocate,
      ``Verif.Props.C26_expect_open,
      ``Verif.Props.C27_pointers_partial,
      ``Verif.Props.C27_wrong,
      ``Verif.Props.C27_exact,
      ``Verif.Props.C28_headers_partial,
      ``Verif.Props.C28_wrong,
      ``Verif.Props.C28_exact,
      ``Verif.Props.C29_one_response_each,
      ``Verif.Props.C29_only_answers,
      ``Verif.Props.C29_units,
      ``Verif.Props.C30_error_in_place,
      ``Verif.Props.C30_error_ends,
      ``Verif.Props.C31_safe,
      ``Verif.Props.C31_safe_one,
      ``Verif.Props.C31_no_overrun,
      ``Verif.Props.C31_success_complete,
      ``Verif.Props.C31_truncated,
      ``Verif.Props.C32_fragmentation,
      ``Verif.Props.C33_mysql41,
      ``Verif.Props.C33_start,
      ``Verif.Props.C33_password_hidden,
      ``Verif.Props.C33_parsed,
      ``Verif.Props.C34_sha256,
      ``Verif.Props.C34_start,
      ``Verif.Props.C34_password_hidden,
      ``Verif.Props.C35_plain,
      ``Verif.Props.C36_success,
      ``Verif.Props.C36_at_most_two,
      ``Verif.Props.C36_no_panic,
      ``Verif.Props.C37_guarded,
      ``Verif.Props.C37_mysql41_hidden,
      ``Verif.Props.C37_sha256_hidden,
      ``Verif.Props.C38_partial,
      ``Verif.Props.C38_wrong,
      ``Verif.Props.C38_ignored,
      ``Verif.Props.C38_exact,
      ``Verif.Props.C39_partial,
      ``Verif.Props.C39_no_panic,
      ``Verif.Props.C39_wrong,
      ``Verif.Props.C39_exact,
      ``Verif.Props.C40_well_used,
      ``Verif.Props.C40_exclusive,
      ``Verif.Props.C40_state,
      ``Verif.Props.C41_bounded,
      ``Verif.Props.C42_failed,
      ``Verif.Props.C42_closed,
      ``Verif.Props.C43_places_partial,
      ``Verif.Props.C43_no_panic_partial,
      ``Verif.Props.C43_close_partial,
      ``Verif.Props.C43_wrong,
      ``Verif.Props.C43_panic_wrong,
      ``Verif.Props.C43_left,
      ``Verif.Props.C43_exact,
      ``Verif.Props.C44_partial,
      ``Verif.Props.C44_wrong,
      ``Verif.Props.C44_exact,
      ``Verif.Props.C45_partial,
      ``Verif.Props.C45_first_close_partial,
      ``Verif.Props.C45_wrong,
      ``Verif.Props.C45_send_wrong,
      ``Verif.Props.C45_cancelled_wrong,
      ``Verif.Props.C45_one_close,
      ``Verif.Props.C45_late_send,
      ``Verif.Props.C46_fifo,
      ``Verif.Props.C46_empty,
      ``Verif.Props.C47_decompose_exact,
      ``Verif.Props.C47_bound_tight,
      ``Verif.Props.C48_string_exact_partial,
      ``Verif.Props.C48_agrees_partial,
      ``Verif.Props.C48_wrong,
      ``Verif.Props.C48_scale_dropped,
      ``Verif.Props.C48_exact,
      ``Verif.Props.C49_mulAdd_exact,
      ``Verif.Props.C49_mulAdd_parts,
      ``Verif.Props.C50_commit_guarded,
      ``Verif.Props.C50_needs_block,
      ``Verif.Props.C51_partial,
      ``Verif.Props.C51_wrong,
      ``Verif.Props.C51_exact,
      ``Verif.Props.C51_prefixes_partial,
      ``Verif.Props.C52_in_operands,
      ``Verif.Props.C52_concat_aliases,
      ``Verif.Props.C53_names_injective,
      ``Verif.Props.C53_constants,
      ``Verif.Props.C53_binary,
      ``Verif.Props.C54_capability,
      ``Verif.Props.C55_plaintext_ignored,
      ``Verif.Props.C56_progress,
      ``Verif.Props.C56_bounded,
      ``Verif.Props.C57_send,
      ``Verif.Props.C57_reasons,
      ``Verif.Props.C57_close,
      ``Verif.Props.C57_told,
      ``Verif.Props.C58_open_bounded,
      ``Verif.Props.C59_schema,
      ``Verif.Props.C59_start,
      ``Verif.Props.C59_continue,
      ``Verif.Props.C59_capability,
      ``Verif.Props.C59_reset,
      ``Verif.Props.C60_end_to_end,
      ``Verif.Props.C61_own_id,
      ``Verif.Props.C61_needs_block,
      ``Verif.Props.C62_call,
      ``Verif.Props.C62_send,
      ``Verif.Props.C62_unique,
      ``Verif.Props.C63_error_exact,
      ``Verif.Props.C63_continue_exact,
      ``Verif.Props.C63_meta_accepted,
      ``Verif.Props.C63_says,
      ``Verif.Props.C63_says_all,
      ``Verif.Props.C63_says_continue,
      ``Verif.Props.C63_send,
      ``Verif.Props.C63_error,
      ``Verif.Props.C63_required,
      ``Verif.Props.C63_no_invention,
      ``Verif.Props.C63_rejects,
      ``Verif.Props.C63_groups,
      ``Verif.Props.C64_stream,
      ``Verif.Props.C64_own,
      ``Verif.Props.C64_planned,
      ``Verif.Props.C65_settings,
      ``Verif.Props.C65_first_error,
      ``Verif.Props.C65_address,
      ``Verif.Props.C65_messages,
      ``Verif.Props.C65_tls,
      ``Verif.Props.C66_partial,
      ``Verif.Props.C66_exact,
      ``Verif.Props.C66_hangs,
      ``Verif.Props.C66_small_partial,
      ``Verif.Props.C66_wrong,
      ``Verif.Props.C66_always_some,
      ``Verif.Props.C67_partial,
      ``Verif.Props.C67_prefix,
      ``Verif.Props.C67_wrong,
      ``Verif.Props.C68_partial,
      ``Verif.Props.C68_sequential_partial,
      ``Verif.Props.C68_exact,
      ``Verif.Props.C68_tables,
      ``Verif.Props.C68_wrong,
      ``Verif.Props.C68_other_wrong,
      ``Verif.Props.C68_needs_block,
      ``Verif.Props.C69_partial,
      ``Verif.Props.C69_not_early,
      ``Verif.Props.C69_hangs,
      ``Verif.Props.C69_wrong,
      ``Verif.Props.C69_late,
      ``Verif.Props.C69_did,
      ``Verif.Props.C69_order,
      ``Verif.Props.C69_one_exchange,
      ``Verif.Props.C70_same,
      ``Verif.Props.C70_partial,
      ``Verif.Props.C70_small_partial,
      ``Verif.Props.C70_read_partial,
      ``Verif.Props.C70_hostile,
      ``Verif.Props.C70_wrong,
      ``Verif.Props.C71_partial,
      ``Verif.Props.C71_states_partial,
      ``Verif.Props.C71_exact,
      ``Verif.Props.C71_same,
      ``Verif.Props.C71_decoded,
      ``Verif.Props.C71_wrong,
      ``Verif.Props.C72_partial,
      ``Verif.Props.C72_ignored,
      ``Verif.Props.C72_wrong,
      ``Verif.Props.C73_recover_partial,
      ``Verif.Props.C73_programs,
      ``Verif.Props.C73_retry,
      ``Verif.Props.C73_torn,
      ``Verif.Props.C73_header,
      ``Verif.Props.C73_dead,
      ``Verif.Props.C73_dangling,
      ``Verif.Props.C73_not_usable,
      ``Verif.Props.C73_not_whole,
      ``Verif.Props.C73_half,
      ``Verif.Props.C74_partial,
      ``Verif.Props.C74_exact,
      ``Verif.Props.C74_programs,
      ``Verif.Props.C74_wrong,
      ``Verif.Props.C74_wrong_default,
      ``Verif.Props.C74_nested,
      ``Verif.Props.C74_stuck,
      ``Verif.Props.C74_needs_block,
      ``Verif.Props.C75_partial,
      ``Verif.Props.C75_end_to_end,
      ``Verif.Props.C75_exact,
      ``Verif.Props.C75_nested,
      ``Verif.Props.C75_wrong,
      ``Verif.Props.C76_partial,
      ``Verif.Props.C76_own_partial,
      ``Verif.Props.C76_wire_partial,
      ``Verif.Props.C76_programs_partial,
      ``Verif.Props.C76_call,
      ``Verif.Props.C76_unpooled,
      ``Verif.Props.C76_wrong,
      ``Verif.Props.C77_no_injection,
      ``Verif.Props.C77_texts,
      ``Verif.Props.C78_codes,
      ``Verif.Props.C78_denied,
      ``Verif.Props.C79_race_free,
      ``Verif.Props.C79_order,
      ``Verif.Props.C79_sees,
      ``Verif.Props.C80_partial,
      ``Verif.Props.C80_shift,
      ``Verif.Props.C80_order,
      ``Verif.Props.C80_covers,
      ``Verif.Props.C80_wrong,
      ``Verif.Props.C80_order_wrong,
      ``Verif.Props.C81_partial,
      ``Verif.Props.C81_exact,
      ``Verif.Props.C81_wrong,
      ``Verif.Props.C82_send,
      ``Verif.Props.C82_unit,
      ``Verif.Props.C82_new,
      ``Verif.Props.C82_pool,
      ``Verif.Props.C83_partial,
      ``Verif.Props.C83_exact,
      ``Verif.Props.C83_wrong,
      ``Verif.Props.C84_cause,
      ``Verif.Props.C84_said,
      ``Verif.Props.C85_exact,
      ``Verif.Props.C85_partial,
      ``Verif.Props.C85_wrong,
      ``Verif.Props.C86_partial,
      ``Verif.Props.C86_exact,
      ``Verif.Props.C86_updateF,
      ``Verif.Props.C86_wrong,
      ``Verif.Props.C87_insert,
      ``Verif.Props.C87_insertRow,
      ``Verif.Props.C87_delete_partial,
      ``Verif.Props.C87_wrong,
      ``Verif.Props.C88_end_to_end,
      ``Verif.Props.C89_keys,
      ``Verif.Props.C89_child,
      ``Verif.Props.C89_needs_auto,
      ``Verif.Props.C89_needs_within,
      ``Verif.Props.C90_partial,
      ``Verif.Props.C90_exact,
      ``Verif.Props.C90_wrong,
      ``Verif.Props.C91_series,
      ``Verif.Props.C91_ends,
      ``Verif.Props.C91_needs_stop] do
    for a in ← liftCoreM (collectAxioms n) do
      unless [``propext, ``Classical.choice, ``Quot.sound].contains a do
        throwError "{n} depends on {a}"
