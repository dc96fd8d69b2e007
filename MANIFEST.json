{
 "claims": [
  {
   "property": "C01",
   "status": "proved",
   "theorems": [
    "Verif.Dag.C01_newDirectedGraph_exact"
   ],
   "note": ""
  },
  {
   "property": "C02",
   "status": "proved",
   "theorems": [
    "Verif.Dag.C02_digraph_refinement"
   ],
   "note": ""
  },
  {
   "property": "C03",
   "status": "proved",
   "theorems": [
    "Verif.Dag.C03_tsort_topological"
   ],
   "note": ""
  },
  {
   "property": "C04",
   "status": "proved",
   "theorems": [
    "Verif.Dag.C04_tsort_decides_acyclicity"
   ],
   "note": ""
  },
  {
   "property": "C05",
   "status": "partial",
   "theorems": [
    "Verif.Dag.C05_cycle_genuine_partial",
    "Verif.Dag.C05_cycle_or_unnamed",
    "Verif.Dag.C05_refuted"
   ],
   "note": "False of the code when a cycle goes through a node named \"\" (refuted): it may be reported as empty. Proved for all other graphs; C05_cycle_or_unnamed: for every graph the cycle is genuine, or empty and there is one through \"\"."
  },
  {
   "property": "C06",
   "status": "proved",
   "theorems": [
    "Verif.Dag.C06_tsort_deterministic",
    "Verif.Dag.C06_tsort_map_order"
   ],
   "note": ""
  },
  {
   "property": "C07",
   "status": "proved",
   "theorems": [
    "Verif.Dag.C07_newDependencyGraph_exact"
   ],
   "note": ""
  },
  {
   "property": "C08",
   "status": "proved",
   "theorems": [
    "Verif.Dag.C08_next_dependencies_reported"
   ],
   "note": ""
  },
  {
   "property": "C09",
   "status": "proved",
   "theorems": [
    "Verif.Dag.C09_next_once_hasPending_exact"
   ],
   "note": ""
  },
  {
   "property": "C10",
   "status": "proved",
   "theorems": [
    "Verif.Dag.C10_next_progress"
   ],
   "note": ""
  },
  {
   "property": "C11",
   "status": "partial",
   "theorems": [
    "Verif.Dag.C11_next_at_least_half_partial",
    "Verif.Dag.C11_refuted",
    "Verif.Dag.C11_exact"
   ],
   "note": "False of the code: Next skips the node after each one it unlinks (refuted). Proved: at least half of the startable tasks are returned; C11_exact: which ones are withheld."
  },
  {
   "property": "C12",
   "status": "partial",
   "theorems": [
    "Verif.Sched.C12_scheduler_dependencies_partial",
    "Verif.Sched.C12_refuted"
   ],
   "note": "False for a dependency on a task named \"\" (New reports \"\" as completed); proved for all other dependencies."
  },
  {
   "property": "C13",
   "status": "proved",
   "theorems": [
    "Verif.Sched.C13_handed_out_once_on_own_target"
   ],
   "note": ""
  },
  {
   "property": "C14",
   "status": "proved",
   "theorems": [
    "Verif.Sched.C14_concurrency_limit"
   ],
   "note": ""
  },
  {
   "property": "C15",
   "status": "proved",
   "theorems": [
    "Verif.Sched.C15_never_stalls"
   ],
   "note": ""
  },
  {
   "property": "C16",
   "status": "proved",
   "theorems": [
    "Verif.Sched.C16_errNoPendingTasks_exact",
    "Verif.Sched.C16_driving_hands_out_everything"
   ],
   "note": ""
  },
  {
   "property": "C17",
   "status": "proved",
   "theorems": [
    "Verif.Sched.C17_waits_only_for_capacity",
    "Verif.Sched.C17_fifo"
   ],
   "note": ""
  },
  {
   "property": "C18",
   "status": "partial",
   "theorems": [
    "Verif.Runner.C18_run_dependency_order_partial",
    "Verif.Runner.C18_refuted"
   ],
   "note": "False for a dependency on a task named \"\" (refuted: it is not waited for); proved for all others."
  },
  {
   "property": "C19",
   "status": "proved",
   "theorems": [
    "Verif.Runner.C19_run_at_most_once_one_per_target"
   ],
   "note": ""
  },
  {
   "property": "C20",
   "status": "partial",
   "theorems": [
    "Verif.Runner.C20_nil_means_all_succeeded_partial",
    "Verif.Runner.C20_refuted",
    "Verif.Runner.C20_invalid",
    "Verif.Runner.C20_exact"
   ],
   "note": "False for cyclic (or dangling) dependencies: the scheduler's error is dropped and Run returns nil (refuted). C20_exact: true of a runbook if and only if its dependencies are valid; C20_invalid: otherwise nothing is ever run."
  },
  {
   "property": "C21",
   "status": "partial",
   "theorems": [
    "Verif.Runner.C21_every_schedule_is_finite",
    "Verif.Runner.C21_no_deadlock_when_all_succeed_partial",
    "Verif.Runner.C21_refuted",
    "Verif.Runner.C21_no_tasks",
    "Verif.Runner.C21_exact"
   ],
   "note": "False for a runbook without tasks, which deadlocks (refuted). C21_exact: true of a runbook if and only if it has a task."
  },
  {
   "property": "C22",
   "status": "partial",
   "theorems": [
    "Verif.Runner.C22_no_deadlock_on_failure_partial",
    "Verif.Runner.C22_refuted",
    "Verif.Runner.C22_stranded",
    "Verif.Runner.C22_exact"
   ],
   "note": "False when a task fails on a target with limit 2 or more (refuted). Proved when failing targets have limit 1; C22_exact: Run has returned at rest if and only if no task handed to a failed target was left unstarted. C21_every_schedule_is_finite applies too."
  },
  {
   "property": "C23",
   "status": "partial",
   "theorems": [
    "Verif.Runner.C23_run_reports_failure",
    "Verif.Runner.C23_dependents_of_failed_never_run_partial",
    "Verif.Runner.C18_refuted"
   ],
   "note": "The last clause needs that the failed task is not named \"\" (C18_refuted)."
  },
  {
   "property": "C24",
   "status": "proved",
   "theorems": [
    "Verif.Runner.C24_channels_never_overflow",
    "Verif.Runner.C24_no_send_blocks"
   ],
   "note": ""
  },
  {
   "property": "C25",
   "status": "proved",
   "theorems": [
    "Verif.Runner.C25_clean_shutdown",
    "Verif.Runner.C25_stopped_after_last_handle"
   ],
   "note": ""
  },
  {
   "property": "C26",
   "status": "partial",
   "theorems": [
    "Verif.Runner.C26_start_failure_is_returned_partial",
    "Verif.Runner.C26_refuted",
    "Verif.Runner.C26_exact"
   ],
   "note": "The error is returned; tasks of already started targets may still be executed (refuted). C26_exact: these are exactly the tasks of the other targets that are handed out before any completion is reported."
  },
  {
   "property": "C27",
   "status": "proved",
   "theorems": [
    "Verif.Sh.C27_apply_lookup_last",
    "Verif.Sh.C27_apply_lookup_first"
   ],
   "note": ""
  },
  {
   "property": "C28",
   "status": "proved",
   "theorems": [
    "Verif.Sh.C28_apply_leaks_nothing",
    "Verif.Sh.C28_apply_keeps_order",
    "Verif.Sh.C28_apply_order_irrelevant"
   ],
   "note": ""
  },
  {
   "property": "C29",
   "status": "partial",
   "theorems": [
    "Verif.Sh.C29_apply_idempotent_partial",
    "Verif.Sh.C29_any_order_partial",
    "Verif.Sh.C29_refuted"
   ],
   "note": "False when a Set key is empty or contains '=' (refuted); proved for all legal names."
  },
  {
   "property": "C30",
   "status": "proved",
   "theorems": [
    "Verif.Sh.C30_command_environment",
    "Verif.Sh.C30_denied_stays_denied"
   ],
   "note": ""
  },
  {
   "property": "C31",
   "status": "proved",
   "theorems": [
    "Verif.Sh.C31_check_exact",
    "Verif.Sh.C31_checked_never_panics",
    "Verif.Sh.C31_check_error"
   ],
   "note": ""
  },
  {
   "property": "C32",
   "status": "proved",
   "theorems": [
    "Verif.Demo.C32_involutions",
    "Verif.Demo.C32_commute",
    "Verif.Demo.C32_rev_reverses",
    "Verif.Demo.C32_rot13_is_rot13",
    "Verif.Demo.C32_involution_iff_valid"
   ],
   "note": "Stated for valid UTF-8; C32_involution_iff_valid shows exactly the invalid strings are not restored."
  },
  {
   "property": "C33",
   "status": "partial",
   "theorems": [
    "Verif.Demo.C33_sleep_pause_partial",
    "Verif.Demo.C33_refuted",
    "Verif.Demo.C33_exact"
   ],
   "note": "False above 9223372036 seconds, where the int64 product wraps (refuted). C33_exact: true exactly up to there."
  },
  {
   "property": "C34",
   "status": "proved",
   "theorems": [
    "Verif.Book.C34_parse_sound",
    "Verif.Book.C34_reference_unique"
   ],
   "note": ""
  },
  {
   "property": "C35",
   "status": "partial",
   "theorems": [
    "Verif.Book.C35_parse_succeeds_iff",
    "Verif.Book.C35_parse_result",
    "Verif.Book.C35_parse_never_panics_partial",
    "Verif.Book.C35_refuted",
    "Verif.Book.C35_exact",
    "Verif.Book.C35_certain"
   ],
   "note": "A null target or task panics (refuted); everything else proved. C35_exact: it can panic if and only if a target is null, or all targets are acceptable and a task is null; C35_certain: when it does in every order of iteration."
  },
  {
   "property": "C36",
   "status": "proved",
   "theorems": [
    "Verif.Book.C36_parse_order_independent",
    "Verif.Book.C36_parse_failure_order_independent"
   ],
   "note": ""
  },
  {
   "property": "C37",
   "status": "proved",
   "theorems": [
    "Verif.Ddl.C37_quoteName_one_identifier",
    "Verif.Ddl.C37_quoteName_injective"
   ],
   "note": ""
  },
  {
   "property": "C38",
   "status": "partial",
   "theorems": [
    "Verif.Ddl.C38_index_names_confined_partial",
    "Verif.Ddl.C38_refuted",
    "Verif.Ddl.C38_table_names_confined",
    "Verif.Ddl.C38_trigger_names_confined"
   ],
   "note": "For an index that is not a primary key ToSQL emits no statement at all (refuted); proved otherwise."
  },
  {
   "property": "C39",
   "status": "partial",
   "theorems": [
    "Verif.Ddl.C39_function_body_partial",
    "Verif.Ddl.C39_refuted",
    "Verif.Ddl.C39_exact"
   ],
   "note": "False when the body contains $$ or ends in $ (refuted). C39_exact: the body survives if and only if it does neither."
  },
  {
   "property": "C40",
   "status": "partial",
   "theorems": [
    "Verif.Ddl.C40_trigger_events_partial",
    "Verif.Ddl.C40_refuted",
    "Verif.Ddl.C40_exact"
   ],
   "note": "Only UPDATE is ever written and ParseTrigger rejects every statement ToSQL writes because names are quoted (refuted for all triggers); the statement is right for triggers whose one event is UPDATE without columns, and no others (C40_exact)."
  },
  {
   "property": "C41",
   "status": "proved",
   "theorems": [
    "Verif.Ddl.C41_check_grammar"
   ],
   "note": ""
  },
  {
   "property": "C42",
   "status": "partial",
   "theorems": [
    "Verif.Ddl.C42_check_fields_partial",
    "Verif.Ddl.C42_check_flags",
    "Verif.Ddl.C42_refuted"
   ],
   "note": "The expression is proved; the flags are also set by text inside the expression that looks like a clause (refuted), C42_check_flags is the exact condition."
  },
  {
   "property": "C43",
   "status": "proved",
   "theorems": [
    "Verif.Ddl.C43_index_grammar"
   ],
   "note": ""
  },
  {
   "property": "C44",
   "status": "proved",
   "theorems": [
    "Verif.Ddl.C44_foreign_key_grammar"
   ],
   "note": ""
  },
  {
   "property": "C45",
   "status": "proved",
   "theorems": [
    "Verif.Ddl.C45_trigger_grammar"
   ],
   "note": ""
  },
  {
   "property": "C46",
   "status": "proved",
   "theorems": [
    "Verif.Ddl.C46_parsers_never_panic"
   ],
   "note": ""
  },
  {
   "property": "C47",
   "status": "partial",
   "theorems": [
    "Verif.Ddl.C47_foreign_key_round_trip_partial",
    "Verif.Ddl.C47_index_round_trip_partial",
    "Verif.Ddl.C47_trigger_round_trip_partial",
    "Verif.Ddl.C47_refuted",
    "Verif.Ddl.C47_foreign_key_exact",
    "Verif.Ddl.C47_index_exact",
    "Verif.Ddl.C47_trigger_exact"
   ],
   "note": "Seven kinds of catalog text are not read back (refuted). The exact theorems say for each kind of definition that it is read back if and only if it is none of these, and for foreign keys and triggers that it is otherwise refused, never read as another one."
  },
  {
   "property": "C48",
   "status": "partial",
   "theorems": [
    "Verif.Ddl.C48_spelling_irrelevant_partial",
    "Verif.Ddl.C48_refuted",
    "Verif.Ddl.C48_exact"
   ],
   "note": "False for a vertical tab between SET and NULL and for whitespace after a final DEFERRABLE (refuted); proved otherwise. C48_exact: a spelling is refused if and only if it ends in DEFERRABLE without a space; every other one gives the meaning, but for vertical tabs between the two words of an action, which are kept."
  },
  {
   "property": "C49",
   "status": "partial",
   "theorems": [
    "Verif.Ddl.C49_error_total",
    "Verif.Ddl.C49_error_shows_position_partial",
    "Verif.Ddl.C49_error_after_end",
    "Verif.Ddl.C49_refuted",
    "Verif.Ddl.C49_at_newline",
    "Verif.Ddl.C49_in_line",
    "Verif.Ddl.C49_exact"
   ],
   "note": "False when the position is a newline (refuted): C49_at_newline, the line after it is shown; and beyond a million columns, where there is no caret in place (C49_in_line). Proved for all other positions inside a line; C49_exact says exactly when."
  },
  {
   "property": "C50",
   "status": "proved",
   "theorems": [
    "Verif.Ddl.C50_set_stores_value",
    "Verif.Ddl.C50_set_rejects",
    "Verif.Ddl.C50_set_unknown",
    "Verif.Ddl.C50_attrs_known"
   ],
   "note": ""
  },
  {
   "property": "C51",
   "status": "partial",
   "theorems": [
    "Verif.Ddl.C51_list_parameters_partial",
    "Verif.Ddl.C51_refuted",
    "Verif.Ddl.C51_exact"
   ],
   "note": "False for booleans spelled on/off, which PostgreSQL stores as written, and for options the struct lacks (refuted); proved for known options with values Go parses. C51_exact: what is returned, and when the call fails, for any options."
  },
  {
   "property": "C52",
   "status": "proved",
   "theorems": [
    "Verif.Pg.C52_options_win"
   ],
   "note": ""
  },
  {
   "property": "C53",
   "status": "proved",
   "theorems": [
    "Verif.Pg.C53_tls_policy",
    "Verif.Pg.C53_transports"
   ],
   "note": "pgx's use of the three TLS fields is an assumption stated in ConnConfig.transports."
  },
  {
   "property": "C54",
   "status": "partial",
   "theorems": [
    "Verif.Pg.C54_stops_at_first_success_partial",
    "Verif.Pg.C54_all_attempts",
    "Verif.Pg.C54_refuted"
   ],
   "note": "False: the loop has no break, so all attempts are always made, every success is left open and the last attempt decides (refuted; C54_all_attempts is the exact behaviour). Proved when no attempt before the last permitted one succeeds."
  },
  {
   "property": "C55",
   "status": "partial",
   "theorems": [
    "Verif.Pg.C55_doubling_partial",
    "Verif.Pg.C55_delays",
    "Verif.Pg.C55_refuted"
   ],
   "note": "False: 2^retries is an exclusive or, the fourth delay is 0 (refuted; C55_delays is the exact sequence). Proved for at most two retries."
  },
  {
   "property": "C56",
   "status": "partial",
   "theorems": [
    "Verif.Pg.C56_listings_partial",
    "Verif.Pg.C56_sequences_partial",
    "Verif.Pg.C56_failure_truncates",
    "Verif.Pg.C56_refuted"
   ],
   "note": "False when the connection fails while rows are read: rows.Err is never called and the list is silently truncated (refuted). Proved otherwise."
  },
  {
   "property": "C57",
   "status": "proved",
   "theorems": [
    "Verif.Pg.C57_inspect_complete"
   ],
   "note": "A listing fails when the List function returns an error; see C56 for the failures they miss."
  },
  {
   "property": "C58",
   "status": "partial",
   "theorems": [
    "Verif.Pg.C58_sort_partial",
    "Verif.Pg.C58_sortChecks_no_effect",
    "Verif.Pg.C58_indexLess_same",
    "Verif.Pg.C58_refuted"
   ],
   "note": "False for SortChecks, which sorts a copy, and SortIndexes, whose comparison is not an order (refuted). Proved for SortColumns and that nothing is lost."
  },
  {
   "property": "C59",
   "status": "proved",
   "theorems": [
    "Verif.TaskSet.C59_exactly_once"
   ],
   "note": "Over all executions of a transition system with buffered and unbuffered channels; a task's execution is atomic up to its end and its outcome arbitrary."
  },
  {
   "property": "C60",
   "status": "partial",
   "theorems": [
    "Verif.TaskSet.C60_shuts_down_partial",
    "Verif.TaskSet.C60_refuted",
    "Verif.TaskSet.C60_exact",
    "Verif.TaskSet.C60_never_sure"
   ],
   "note": "False: a queue closed when no result is outstanding is never answered, whatever happens afterwards (refuted). Proved when the close is seen while a task is still out, and that this is exactly when it shuts down (C60_exact); so whenever a client closes the queue there is a schedule in which it waits forever (C60_never_sure)."
  },
  {
   "property": "C61",
   "status": "partial",
   "theorems": [
    "Verif.TaskSet.C61_concurrency_partial",
    "Verif.TaskSet.C61_refuted"
   ],
   "note": "False: all tasks of a batch run at once (refuted for every batch). Proved for clients that keep outstanding tasks within the limit."
  },
  {
   "property": "C62",
   "status": "proved",
   "theorems": [
    "Verif.TaskSet.C62_task_sets"
   ],
   "note": "From the decoded file on; gohcl.DecodeBody on the blocks' bodies is a parameter that sets tagged fields only (C113 is from the document on)."
  },
  {
   "property": "C69",
   "status": "partial",
   "theorems": [
    "Verif.TaskSet.C69_refuted",
    "Verif.TaskSet.C69_exact",
    "Verif.TaskSet.C69_demo"
   ],
   "note": "False: the outer block consumes after/provides/requires and the embedded base.Task is never decoded, so every loaded task has no dependencies (refuted for every task of every file). C69_exact: true of a task if and only if the file says nothing about them; C69_demo: testdata/demo.hcl is a file of which it is false."
  },
  {
   "property": "C63",
   "status": "partial",
   "theorems": [
    "Verif.Cmd.C63_list_partial",
    "Verif.Cmd.C63_refuted",
    "Verif.Cmd.C63_exact"
   ],
   "note": "False for ids or targets with line breaks and ids of more than a million bytes (refuted), and for no others (C63_exact); proved otherwise, with the column counted in characters for ids that are not ASCII."
  },
  {
   "property": "C64",
   "status": "partial",
   "theorems": [
    "Verif.Cmd.C64_auto_output_partial",
    "Verif.Cmd.C64_extension_exists_unique",
    "Verif.Cmd.C64_refuted",
    "Verif.Cmd.C64_exact"
   ],
   "note": "False for inputs named *.dot, which are emptied (refuted); proved otherwise. C64_exact: the output is another file than the input if and only if the extension is not .dot. Names stand for files: links are not modelled."
  },
  {
   "property": "C65",
   "status": "proved",
   "theorems": [
    "Verif.Cmd.C65_verbosity",
    "Verif.Cmd.C65_monotone"
   ],
   "note": "zap is modelled by its contract: a core writes entries of at least its level."
  },
  {
   "property": "C66",
   "status": "partial",
   "theorems": [
    "Verif.Cmd.C66_output_kept_partial",
    "Verif.Cmd.C66_refuted",
    "Verif.Cmd.C66_exact"
   ],
   "note": "False: the output file is truncated before the runbook is read, and a failed write leaves a fragment (refuted). Proved for failures to open the output, to connect and to inspect. C66_exact: what the file holds after each failure."
  },
  {
   "property": "C68",
   "status": "partial",
   "theorems": [
    "Verif.Pg.C68_search_path_partial",
    "Verif.Pg.C68_refuted"
   ],
   "note": "False for every setting of two or more schemas as PostgreSQL prints it, for its default and for the empty path (refuted); the partial theorem is the exact condition."
  },
  {
   "property": "C70",
   "status": "partial",
   "theorems": [
    "Verif.Cmd.C70_stdout_is_result_partial",
    "Verif.Cmd.C70_refuted",
    "Verif.Cmd.C70_exact"
   ],
   "note": "False from one more -v than -q on: logs go to standard output (refuted for every command). C70_exact: true if and only if no more -v than -q are given and the command logs nothing that is shown."
  },
  {
   "property": "C71",
   "status": "partial",
   "theorems": [
    "Verif.Cmd.C71_success_means_written_partial",
    "Verif.Cmd.C71_refuted",
    "Verif.Cmd.C71_exact"
   ],
   "note": "False for runbook dot, which ignores the result of the write (refuted); proved for eval and inspect. C71_exact: exactly when each command succeeds."
  },
  {
   "property": "C67",
   "status": "partial",
   "theorems": [
    "Verif.Sql.C67_function_partial",
    "Verif.Sql.C67_refuted",
    "Verif.Sql.C67_trigger",
    "Verif.Sql.C67_session_function_partial",
    "Verif.Sql.C67_session_trigger"
   ],
   "note": "False for functions with overloads: which one is described is not determined by the database (refuted). Proved for triggers, and for functions up to the choice of the overload."
  },
  {
   "property": "C72",
   "status": "partial",
   "theorems": [
    "Verif.Sql.C72_tables_partial",
    "Verif.Sql.C72_refuted"
   ],
   "note": "False: only tables found by the search path are listed (refuted). Proved for those."
  },
  {
   "property": "C73",
   "status": "proved",
   "theorems": [
    "Verif.Sql.C73_columns"
   ],
   "note": "About every database and every server whose answers are PostgreSQL's answers to the query text."
  },
  {
   "property": "C74",
   "status": "partial",
   "theorems": [
    "Verif.Sql.C74_sequences_partial",
    "Verif.Sql.C74_refuted"
   ],
   "note": "False: sequences that no column owns, or that the search path does not find, are left out (refuted). Proved for the others, for the current and the legacy query."
  },
  {
   "property": "C75",
   "status": "partial",
   "theorems": [
    "Verif.Sql.C75_functions_partial",
    "Verif.Sql.C75_refuted"
   ],
   "note": "False: only functions found by the search path are listed (refuted). Proved for those."
  },
  {
   "property": "C76",
   "status": "proved",
   "theorems": [
    "Verif.Sql.C76_triggers",
    "Verif.Sql.C76_describe"
   ],
   "note": ""
  },
  {
   "property": "C77",
   "status": "proved",
   "theorems": [
    "Verif.Sql.C77_checks",
    "Verif.Sql.C77_foreign_keys",
    "Verif.Sql.C77_indexes"
   ],
   "note": ""
  },
  {
   "property": "C78",
   "status": "proved",
   "theorems": [
    "Verif.Sql.C78_schemas"
   ],
   "note": ""
  },
  {
   "property": "C79",
   "status": "proved",
   "theorems": [
    "Verif.Sql.C79_storage"
   ],
   "note": "strconv.ParseFloat is a parameter. The known parameters are those the code handles , keyed by their hcl names (C51 says which ones it lacks)."
  },
  {
   "property": "C80",
   "status": "proved",
   "theorems": [
    "Verif.Sql.C80_inspect",
    "Verif.Sql.C80_session",
    "Verif.Sql.C80_never_skips"
   ],
   "note": "C80_session is about the statements as they are sent: the server is given texts and arguments only. About every database and every server whose answers are PostgreSQL's answers to the query texts; sort.Slice is any routine that meets its contract. That the search path limits what is found is C72, C74 and C75."
  },
  {
   "property": "C81",
   "status": "partial",
   "theorems": [
    "Verif.Hcl.C81_read_back",
    "Verif.Hcl.C81_partial",
    "Verif.Hcl.C81_refuted",
    "Verif.Hcl.C81_inspected_partial"
   ],
   "note": "False for texts that are not in Unicode normal form C, which the HCL library normalises (refuted for every such text). C81_read_back says exactly what is read; unchanged if all texts are normal. Here documents are trees; their text is C112."
  },
  {
   "property": "C82",
   "status": "proved",
   "theorems": [
    "Verif.Hcl.C82_strict"
   ],
   "note": "The form is stated over the struct tags copied from the source; conversion of values (cty convert) is a parameter."
  },
  {
   "property": "C83",
   "status": "proved",
   "theorems": [
    "Verif.Hcl.C83_kept",
    "Verif.Hcl.C83_stable"
   ],
   "note": "Null and the empty list are not distinguished."
  },
  {
   "property": "C84",
   "status": "proved",
   "theorems": [
    "Verif.Hcl.C84_written",
    "Verif.Hcl.C84_storage"
   ],
   "note": "Up to the printing of the document."
  },
  {
   "property": "C85",
   "status": "partial",
   "theorems": [
    "Verif.Run.C85_success_means_done_partial",
    "Verif.Run.C85_refuted",
    "Verif.Run.C85_invalid"
   ],
   "note": "From the decoded file on. False for cyclic (and dangling) dependencies, which are accepted: Run returns nil and nothing is run (refuted). Proved for valid dependencies, but for the order after a task named \"\". C85_invalid: with invalid ones nothing is ever run."
  },
  {
   "property": "C86",
   "status": "partial",
   "theorems": [
    "Verif.Run.C86_effects",
    "Verif.Run.C86_order_partial",
    "Verif.Run.C86_sequence",
    "Verif.Run.C86_all",
    "Verif.Run.C86_refuted"
   ],
   "note": "The order is not kept after a task named \"\" (refuted). Commands and SQL have arbitrary outcomes; an effect takes place when Handle returns."
  },
  {
   "property": "C87",
   "status": "partial",
   "theorems": [
    "Verif.Run.C87_failure_has_a_cause",
    "Verif.Run.C87_no_panic_partial",
    "Verif.Run.C87_rejected_not_run",
    "Verif.Run.C87_fail_never_succeeds_partial",
    "Verif.Run.C87_refuted_retries",
    "Verif.Run.C87_refuted_concurrency",
    "Verif.Run.C85_refuted"
   ],
   "note": "No panic unless a target or task is null (C35), a number of retries is negative or the channels are too large (both refuted). That a fail task prevents success needs valid dependencies (C85_refuted: nothing is run)."
  },
  {
   "property": "C88",
   "status": "partial",
   "theorems": [
    "Verif.Run.C88_every_run_is_finite",
    "Verif.Run.C88_comes_to_an_end",
    "Verif.Run.C88_run_returns_partial",
    "Verif.Run.C88_refuted_no_tasks",
    "Verif.Run.C88_refuted_failure",
    "Verif.Run.C88_no_tasks",
    "Verif.Run.C88_stranded",
    "Verif.Run.C88_exact"
   ],
   "note": "The bound holds always. False for files without tasks and for failures on targets with concurrency 2 or more (both refuted); proved otherwise. C88_exact: a file with tasks has returned at the end if and only if no task handed to a failed target was left unstarted."
  },
  {
   "property": "C89",
   "status": "proved",
   "theorems": [
    "Verif.Run.C89_output",
    "Verif.Run.C89_any_order",
    "Verif.Run.C89_message",
    "Verif.Run.C89_fail"
   ],
   "note": "Also for testdata/message.jsonnet and fail.jsonnet, under every schedule. Needs that no task is named \"\". Demo texts are UTF-8, as JSON strings are."
  },
  {
   "property": "C90",
   "status": "proved",
   "theorems": [
    "Verif.Run.C90_demo_runs"
   ],
   "note": "Provided the channels can be made (fewer than some 10^13 targets)."
  },
  {
   "property": "C91",
   "status": "proved",
   "theorems": [
    "Verif.Run.C91_connections"
   ],
   "note": "pgx's use of the three TLS fields is an assumption stated in ConnConfig.transports; the environment is what pgx.ParseEnvLibpq made of it."
  },
  {
   "property": "C92",
   "status": "partial",
   "theorems": [
    "Verif.Run.C92_closed_once",
    "Verif.Run.C92_closed_partial",
    "Verif.Run.C92_refuted",
    "Verif.Run.C92_exact"
   ],
   "note": "False with retries, when an attempt before the last succeeded, and when a target cannot be started (both refuted). Proved otherwise; never closed twice or without having been opened. C92_exact: if every target could be started, as many are closed as were opened if and only if no attempt before the last succeeded."
  },
  {
   "property": "C93",
   "status": "partial",
   "theorems": [
    "Verif.Json.C93_accepts_iff_partial",
    "Verif.Json.C93_reads_partial",
    "Verif.Json.C93_no_unknown_members",
    "Verif.Json.C93_refuted"
   ],
   "note": "From the JSON tree on. False for files in which a setting is given twice in different spellings: an unread config may contain anything (refuted). Proved for files in which nothing is written twice; unknown members of the file, its targets and tasks are rejected always."
  },
  {
   "property": "C94",
   "status": "proved",
   "theorems": [
    "Verif.Json.C94_success_means_done",
    "Verif.Json.C94_invalid_not_run"
   ],
   "note": "From the JSON tree on."
  },
  {
   "property": "C95",
   "status": "proved",
   "theorems": [
    "Verif.Main.C95_inspect",
    "Verif.Main.C95_failure",
    "Verif.Main.C95_connections"
   ],
   "note": "The text is that of C112; it is read by any reader that reads the syntax in Hcl/TextSpec.lean (the HCL library's, which reads more, is trusted to). The part about reading is for texts that are UTF-8. Texts are read back in Unicode normal form (C81). Assumes that no connection breaks between two rows (C56)."
  },
  {
   "property": "C96",
   "status": "partial",
   "theorems": [
    "Verif.Main.C96_exit_status_partial",
    "Verif.Main.C96_run",
    "Verif.Main.C96_usage",
    "Verif.Main.C96_refuted",
    "Verif.Main.C96_exact"
   ],
   "note": "False when writing to standard output fails: ping, version, runbook list and runbook dot do not look at the result (refuted). Proved as long as writing does not fail. C96_exact: inspect and runbook eval exit with 0 exactly if they would with every write succeeding and writing the result does succeed; the other commands exit as if every write succeeded."
  },
  {
   "property": "C97",
   "status": "proved",
   "theorems": [
    "Verif.TaskSet.Demo.C97_one_at_a_time",
    "Verif.TaskSet.Demo.C97_final"
   ],
   "note": "Goroutines take their steps between Lock, reading, writing and Unlock in any order. The writer does not fail; time is not modelled."
  },
  {
   "property": "C98",
   "status": "partial",
   "theorems": [
    "Verif.TaskSet.Demo.C98_start_partial",
    "Verif.TaskSet.Demo.C98_refuted",
    "Verif.TaskSet.Demo.C98_refuted_text",
    "Verif.TaskSet.Demo.C98_exact"
   ],
   "note": "False: a file with a negative max_concurrency is accepted and starting its target panics (refuted). Proved that it panics in no other case; C98_exact says when each outcome occurs."
  },
  {
   "property": "C99",
   "status": "partial",
   "theorems": [
    "Verif.TaskSet.Demo.C99_sleep_partial",
    "Verif.TaskSet.Demo.C99_refuted"
   ],
   "note": "False for every sleep task of every file: Seconds cannot be set and Ready is never called, so none pauses (refuted). Proved for tasks whose Ready has been called, up to 9223372036 seconds."
  },
  {
   "property": "C100",
   "status": "proved",
   "theorems": [
    "Verif.Cli.C100_command_lines",
    "Verif.Cli.C100_end_to_end",
    "Verif.Cli.C100_wrong"
   ],
   "note": "For command lines of the usual form (Spec.Line) and those that are up to some word (Spec.Wrong). Kingpin is modelled from knowledge of its source. Parsing of a port (strconv) and which files there are, are parameters. End to end for all commands but runbook run, as long as writing does not fail (C96)."
  },
  {
   "property": "C101",
   "status": "proved",
   "theorems": [
    "Verif.Dot.C101_draws_runbook",
    "Verif.Dot.C101_draws_file",
    "Verif.Dot.C101_command"
   ],
   "note": "The graph given to gographviz; the text it prints for a graph is not modelled, and what it does to names is a parameter that must keep the names of the runbook apart (Spec.Apart)."
  },
  {
   "property": "C102",
   "status": "partial",
   "theorems": [
    "Verif.Eval.C102_json_partial",
    "Verif.Eval.C102_colours_partial",
    "Verif.Eval.C102_fails",
    "Verif.Eval.C102_command",
    "Verif.Eval.C102_refuted"
   ],
   "note": "False for files with a quote, backslash or control character in a name: names are printed as they are, so that the text is not JSON or is JSON for another value (refuted). Proved for all other files, from the JSON value the file evaluates to. prettyjson and encoding/json are modelled from knowledge; numbers are a parameter with the law that what is printed is read as the same number (Sound)."
  },
  {
   "property": "C103",
   "status": "partial",
   "theorems": [
    "Verif.Eval.C103_colours_partial",
    "Verif.Eval.C103_refuted",
    "Verif.Eval.C103_exact"
   ],
   "note": "False when standard output is not a terminal: then the colour library prints no colours, whatever is asked for (refuted). Proved when it is one. C103_exact: exactly when colours are printed."
  },
  {
   "property": "C104",
   "status": "partial",
   "theorems": [
    "Verif.Eval.C104_same_partial",
    "Verif.Eval.C104_rejects_partial",
    "Verif.Eval.C104_refuted"
   ],
   "note": "False for runbooks with a quote, backslash or control character in a name (refuted: a target called \\\" makes the text no JSON). Proved for all others in which no setting is given twice and whose numbers are written as eval writes them (all integers jsonnet prints are)."
  },
  {
   "property": "C105",
   "status": "partial",
   "theorems": [
    "Verif.Runner.C105_no_waiting_partial",
    "Verif.Runner.C105_refuted",
    "Verif.Runner.C105_refuted_skipped"
   ],
   "note": "False if some target has a concurrency above 1: the one router waits for that target with a second task in its hand, and no task of any other target is started meanwhile (refuted). False also with concurrency 1 everywhere, for a task that the scheduler skips (C11; refuted). Proved with concurrency 1 everywhere for tasks that the scheduler has handed out."
  },
  {
   "property": "C106",
   "status": "partial",
   "theorems": [
    "Verif.Runner.C106_in_progress_partial",
    "Verif.Runner.C106_refuted"
   ],
   "note": "False for every runbook and every n above 1: a target has one goroutine, so that no two of its tasks are ever in progress at once (refuted for every reachable state of every runbook). Proved with concurrency 1 everywhere."
  },
  {
   "property": "C107",
   "status": "proved",
   "theorems": [
    "Verif.Json.C107_demo",
    "Verif.Json.C107_words",
    "Verif.Json.C107_scripts",
    "Verif.Json.C107_concurrent",
    "Verif.Json.C107_messages",
    "Verif.Run.C86_sequence",
    "Verif.Run.C86_all",
    "Verif.Run.C86_refuted"
   ],
   "note": "From the JSON tree each file evaluates to. What the commands and statements themselves do is outside; C107_demo and C107_messages are the only ones that can promise an end, as the others may fail, and a failed run may hang (C88). Runs that succeed exist (words_succeeds and the like)."
  },
  {
   "property": "C108",
   "status": "proved",
   "theorems": [
    "Verif.Run.C108_can_succeed"
   ],
   "note": "From every reachable state in which nothing has failed there is a continuation that returns nil, and a state in which nothing can happen and nothing has failed has returned nil. Properly set up: the libpq environment is well formed, sslmode is a known one, at least one attempt is made."
  },
  {
   "property": "C109",
   "status": "proved",
   "theorems": [
    "Verif.Run.C109_messages",
    "Verif.Run.exists_talk",
    "Verif.Json.C107_messages"
   ],
   "note": "On a refinement of the run in which logging is a step of its own between receiving a task and calling Handle. The order of the messages is for files without a task named \"\" (C12). Messages are logged at level Info, which pgutil shows only with -v (C65)."
  },
  {
   "property": "C110",
   "status": "proved",
   "theorems": [
    "Verif.Pg.C110_identifier",
    "Verif.Pg.C110_injective",
    "Verif.Pg.C110_legacy_query"
   ],
   "note": "For the lexical structure of SQL in Ddl/Lexer.lean. The server of C74 answers the sequence its text asks for."
  },
  {
   "property": "C111",
   "status": "partial",
   "theorems": [
    "Verif.Ddl.C111_table_partial",
    "Verif.Ddl.C111_function_partial",
    "Verif.Ddl.C111_key_partial",
    "Verif.Ddl.C111_trigger_partial",
    "Verif.Ddl.C111_refuted"
   ],
   "note": "False: schemas, owners, comments, foreign keys and names of checks are not written, so that everything is created in the first schema of the search path; function names are not quoted and are folded to lower case; a table with checks and no column gives no statement; of the events of a trigger only UPDATE is written; indexes other than primary keys give no statement (refuted). Proved for the rest; the body of a function is created with a line break in front. How SQL is read is in Ddl/CreateSpec.lean and Ddl/CreateSpec2.lean."
  },
  {
   "property": "C112",
   "status": "proved",
   "theorems": [
    "Verif.Hcl.C112_text",
    "Verif.Hcl.C112_document",
    "Verif.Hcl.C112_same_file",
    "Verif.Hcl.expected_text",
    "Verif.Hcl.docker_text",
    "Verif.Hcl.C112_not_utf8"
   ],
   "note": "The printing follows hclwrite; it is checked against both files of printed output in the repository, byte for byte (expected_text, docker_text). The reader (Hcl/TextSpec.lean) is for the part of HCL without expressions and templates; it reads all four schema files in the repository (texts_read). Texts that are not UTF-8 are outside the claim and are changed (C112_not_utf8). How numbers are printed and read is a parameter with the contract Numerals (int_numerals is one)."
  },
  {
   "property": "C113",
   "status": "proved",
   "theorems": [
    "Verif.TaskSet.C113_document",
    "Verif.TaskSet.demo_loads",
    "Verif.TaskSet.measurements_load"
   ],
   "note": "From the document on; the texts of the files in the repository are read by the reader of C112 (demo_loads, measurements_load). Conversions of values are the HCL library's and a parameter. That after, provides and requires are checked and then dropped is C69."
  },
  {
   "property": "C114",
   "status": "partial",
   "theorems": [
    "Verif.TaskSet.C114_refuted",
    "Verif.TaskSet.C114_prints_partial"
   ],
   "note": "False: pg and sh tasks of task sets print their SQL or arguments and report success (refuted for every task). Proved: exactly this, from the document on."
  },
  {
   "property": "C115",
   "status": "proved",
   "theorems": [
    "Verif.Run.C115_directory",
    "Verif.Run.C115_basedir",
    "Verif.Run.C115_same"
   ],
   "note": "For starting directories with an absolute path and file names whose last part is a name. filepath.Dir, Abs and Clean are modelled from Go's library; a path is followed in a tree without symbolic links."
  },
  {
   "property": "C116",
   "status": "partial",
   "theorems": [
    "Verif.Sh.C116_refuted",
    "Verif.Sh.C116_exact",
    "Verif.Sh.C116_names_partial",
    "Verif.Sh.C116_settings_partial"
   ],
   "note": "False: a bare name is looked for in pgutil's own PATH, not the one the settings give, and relative entries of PATH are searched from the directory pgutil was started in but run from that of the runbook. Proved: exactly which program is run, and that it is the named one when the settings leave PATH alone and its entries are absolute, or the name has a slash. os/exec is modelled from Go 1.11-1.14."
  },
  {
   "property": "C117",
   "status": "partial",
   "theorems": [
    "Verif.Pg.C117_refuted",
    "Verif.Pg.C117_values",
    "Verif.Pg.C117_unreadable",
    "Verif.Pg.C117_transports",
    "Verif.Pg.C117_sslmode_partial",
    "Verif.Pg.C117_safe",
    "Verif.Run.C117_runs"
   ],
   "note": "False of PGSSLMODE: with a password it is ignored, and with verify-ca or verify-full and a host given as an option the certificate is checked for PGHOST instead (refuted). Proved otherwise: all other variables, the exact transports in every case, that errors come before connecting, and that no connection is less safe than PGSSLMODE asks for. pgx.ParseEnvLibpq is modelled from knowledge of pgx 3.6.0, without the variables for certificate files, application name and timeout."
  },
  {
   "property": "C118",
   "status": "proved",
   "theorems": [
    "Verif.TaskSet.Demo.C118_rounds",
    "Verif.TaskSet.Demo.C118_round_ends",
    "Verif.TaskSet.Demo.C118_decrypt",
    "Verif.TaskSet.Demo.C118_demo_test",
    "Verif.TaskSet.Demo.test_tasks"
   ],
   "note": "On the transition system of C97; C118_demo_test is taskset_test.go's TestDemoTaskExecution, for the targets and tasks the file contains (test_tasks)."
  },
  {
   "property": "C119",
   "status": "partial",
   "theorems": [
    "Verif.Sql.C119_same_partial",
    "Verif.Sql.C119_exact_partial",
    "Verif.Main.C119_file_partial",
    "Verif.Sql.C119_refuted"
   ],
   "note": "False: overloaded functions are ordered by schema and name only, so two inspections may list them in two orders (refuted); the same holds for two foreign keys with the same columns that refer to tables of the same name. Proved: these are exactly the exceptions (C119_exact_partial), and without them the texts are the same byte for byte. Beyond the constraints of the catalogs it is assumed that constraints of a table have different names, an index is in the schema of its table and no relation has oid 0, all of which PostgreSQL enforces."
  },
  {
   "property": "C120",
   "status": "partial",
   "theorems": [
    "Verif.Fmt.C120_dependencies_partial",
    "Verif.Fmt.C120_one_reading",
    "Verif.Fmt.C120_command",
    "Verif.Fmt.C120_one_line",
    "Verif.Fmt.C120_refuted"
   ],
   "note": "False of cycles through a task named \"\": the message is \"circular dependency detected: []\" (refuted; C05). Proved for everything else. strconv.Quote and %q are modelled from Go 1.12; strconv.IsPrint is a parameter that prints no control characters. The runner of runbooks does not show these messages (C20)."
  },
  {
   "property": "C121",
   "status": "proved",
   "theorems": [
    "Verif.Runner.C121_tasks",
    "Verif.Runner.C121_success",
    "Verif.Runner.C121_targets",
    "Verif.Runner.exists_log"
   ],
   "note": "On the transition system of the runner with a step for each line; lines that name no task or target are left out, the messages of tasks are C109, and what reaches which log at which verbosity is C65. exists_log: every state of a run is met with a log. When a target cannot be started, tasks of targets already started may go on after Run has returned (C26), and their third lines are missing."
  },
  {
   "property": "C122",
   "status": "partial",
   "theorems": [
    "Verif.Ddl.C122_refuted",
    "Verif.Ddl.C122_one_place",
    "Verif.Ddl.C122_first_byte",
    "Verif.Ddl.C122_points_partial",
    "Verif.Ddl.C122_exact"
   ],
   "note": "False: the parsers give the number of the state of the generated machine where the position of the byte is expected. It is 0 after a refused byte, so the caret is always under the first byte of the text (C122_first_byte); if the text ends too early it is the number of the last state, so the message says so only of texts no longer than that (refuted). Proved: when the message is right nevertheless, exactly so for texts of one line. What the message does with a position is C49."
  },
  {
   "property": "C123",
   "status": "proved",
   "theorems": [
    "Verif.Run.C123_refused",
    "Verif.Run.C123_own_kind"
   ],
   "note": "What the tasks of its own kind do is C86."
  },
  {
   "property": "C124",
   "status": "partial",
   "theorems": [
    "Verif.Pg.Session.C124_exact",
    "Verif.Pg.Session.C124_inspect_partial",
    "Verif.Pg.Session.C124_refuted"
   ],
   "note": "False of DescribeTrigger, which logs the statement of ListTriggers (refuted for all arguments and answers). C124_exact: it holds of a series of calls exactly if DescribeTrigger is not among them. Lines about rows are left out of the model."
  },
  {
   "property": "C125",
   "status": "proved",
   "theorems": [
    "Verif.Pg.Session.C125_read_only",
    "Verif.Pg.Session.C125_inspect"
   ],
   "note": "By the tokens of the statements (Ddl/Lexer.lean); that the functions in the list called harmless only return a value is PostgreSQL's documentation."
  },
  {
   "property": "C126",
   "status": "proved",
   "theorems": [
    "Verif.Pg.Session.C126_asked"
   ],
   "note": "The answers may differ from statement to statement. A connection that fails between two rows of an answer is not noticed (C56)."
  },
  {
   "property": "C127",
   "status": "partial",
   "theorems": [
    "Verif.Sql.C127_refuted",
    "Verif.Pg.Session.C127_parts_partial",
    "Verif.Pg.Session.C127_still_partial"
   ],
   "note": "False: the statements are not in one transaction, so that a table that is dropped in the middle of an inspection is described without its columns (refuted). Proved: every part is what it was when it was asked for, and if nothing changes the description is that of C80."
  },
  {
   "property": "C128",
   "status": "partial",
   "theorems": [
    "Verif.Pg.Session.C128_exact",
    "Verif.Pg.Session.C128_failed_partial",
    "Verif.Pg.Session.C128_refuted"
   ],
   "note": "False of every statement: the number is logged if there is an error (err != nil, pg.go:92), never after a success (refuted). C128_exact: exactly when which number is logged."
  },
  {
   "property": "C129",
   "status": "proved",
   "theorems": [
    "Verif.Run.C129_run",
    "Verif.Run.C129_shown",
    "Verif.Run.C129_environment",
    "Verif.Run.C129_eval"
   ],
   "note": "Log lines written by the library pgx itself are not modelled. Whether the server accepts a password is an outcome of the world, the same for both."
  },
  {
   "property": "C130",
   "status": "proved",
   "theorems": [
    "Verif.Json.Twice.C130_twice",
    "Verif.Json.Twice.C130_reads"
   ],
   "note": "From the JSON tree on. C130_reads: if nothing is left that is written twice, the runbook is the one C93 says."
  },
  {
   "property": "C131",
   "status": "partial",
   "theorems": [
    "Verif.Pg.C131_refuted",
    "Verif.Pg.C131_exact",
    "Verif.Pg.C131_named_partial"
   ],
   "note": "False: ErrNoHostForTLS exists but is never returned. With a password and no host the attempt is made without a name, and so it is for a given host if PGSSLMODE asks for verification and PGHOST is empty (refuted). C131_exact: exactly when."
  },
  {
   "property": "C132",
   "status": "partial",
   "theorems": [
    "Verif.Main.C132_refuted",
    "Verif.Main.C132_debug_partial",
    "Verif.Main.C132_same",
    "Verif.Main.C132_inspect",
    "Verif.Main.C132_refused_line",
    "Verif.Main.C132_unopened"
   ],
   "note": "False if FILE is the output of the command, which empties it, or the runbook, which is read with the first messages already added (refuted). It holds of every other file (C132_debug_partial). C132_same: exactly what is left in a debug log that is the output. The default log is left out (C70), and so is runbook run."
  },
  {
   "property": "C133",
   "status": "proved",
   "theorems": [
    "Verif.Runner.C133_no_race",
    "Verif.Runner.C133_sent_once"
   ],
   "note": "Which memory an action reads and writes is part of the model (`Does`, whose actions are those of C18-C26: does_iff, watched_iff). Only program order, go statements and messages order events; C133_sent_once: no message is sent twice, so that a receive belongs to one send. Loggers and standard output, which are made for several goroutines, are left out."
  },
  {
   "property": "C134",
   "status": "partial",
   "theorems": [
    "Verif.Runner.C134_refuted",
    "Verif.Runner.C134_visible_partial"
   ],
   "note": "False of a dependency on a task named \"\" (C12). It holds of every other one."
  },
  {
   "property": "C135",
   "status": "proved",
   "theorems": [
    "Verif.TaskSet.Demo.C135_no_race",
    "Verif.TaskSet.Demo.C135_watched",
    "Verif.TaskSet.Demo.C135_numbers"
   ],
   "note": "Which memory a step reads and writes is part of the model (`Does`, whose steps are those of C97: C135_watched). Only program order, go statements and the mutex order events. C135_numbers: no goroutine is started twice, so that a number stands for one goroutine. Before Start returns the client has written the text and made the writer."
  },
  {
   "property": "C136",
   "status": "proved",
   "theorems": [
    "Verif.TaskSet.Sync.C136_visible",
    "Verif.TaskSet.Sync.C136_rounds",
    "Verif.TaskSet.Sync.C136_watched",
    "Verif.TaskSet.Sync.C136_numbers"
   ],
   "note": "Of any type of tasks; that they can be told apart (Nodup) loses nothing, since RunTasks does not look at them. The k-th message received from a channel is the k-th sent. The steps are those of C59 (C136_watched); no goroutine is started twice (C136_numbers)."
  },
  {
   "property": "C137",
   "status": "partial",
   "theorems": [
    "Verif.Main.C137_refuted",
    "Verif.Main.C137_exact",
    "Verif.Main.C137_killed_partial",
    "Verif.Main.C137_runs"
   ],
   "note": "False: the output file is emptied when it is opened, so that a program that is killed between that and the last byte leaves a beginning of the output, or nothing, and the old contents are lost (refuted). C137_exact: exactly what may be found. The other files are untouched at every point (C137_killed_partial). C137_runs: the steps lead to what main does in the end (C96). What the file system itself loses in a power failure is not modelled."
  },
  {
   "property": "C138",
   "status": "partial",
   "theorems": [
    "Verif.Runner.C138_refuted",
    "Verif.Runner.C138_killed_partial",
    "Verif.Runner.C138_resume_partial",
    "Verif.Runner.C138_ends"
   ],
   "note": "False of a dependency on a task named \"\" (C12). It holds of every other one. C138_ends: if something is left to do and nothing fails the second run comes to its end and returns nil."
  },
  {
   "property": "C139",
   "status": "partial",
   "theorems": [
    "Verif.Runner.C139_refuted",
    "Verif.Runner.C139_own_target",
    "Verif.Runner.C139_stops_partial"
   ],
   "note": "False of the other targets: tasks that have been handed out still begin (refuted). Proved: none begins on the target of the failed task; on every other at most as many as its concurrency says, and none that is after a task that had not succeeded when Run took note (but for a dependency on a task named \"\", C12)."
  },
  {
   "property": "C140",
   "status": "partial",
   "theorems": [
    "Verif.Run.C140_refuted",
    "Verif.Run.C140_follows_partial",
    "Verif.Run.C140_all_or_nothing"
   ],
   "note": "False of an arrow from a task named \"\" (C12). It holds of every other one. As in C101 the drawing is a graph, not its text, and what is written for different names must be different."
  },
  {
   "property": "C141",
   "status": "partial",
   "theorems": [
    "Verif.Runner.C141_refuted_hangs",
    "Verif.Runner.C141_refuted_panics",
    "Verif.Runner.C141_safe_partial",
    "Verif.Runner.C141_finite",
    "Verif.Runner.C141_succeeds_partial"
   ],
   "note": "False if twice the sum of the concurrencies does not fit into an int: the run panics, or gets channels that are too small and may hang forever although nothing fails. It holds if the sum fits, or if what is left after wrapping around is at least the number of tasks. That nothing goes wrong before it hangs holds for any capacity."
  },
  {
   "property": "C142",
   "status": "partial",
   "theorems": [
    "Verif.Runner.C142_refuted",
    "Verif.Runner.C142_one_after_the_other_partial",
    "Verif.Runner.C142_dependencies_first_partial",
    "Verif.Runner.C142_one_target",
    "Verif.Runner.C142_while_it_runs",
    "Verif.Runner.C142_nothing_afterwards"
   ],
   "note": "False of tasks of different targets neither of which depends on the other: what they write gets mixed (refuted). Proved if of any two tasks one has to wait for the other or both belong to one target. Of a task named \"\" see C12. Processes a command leaves in the background are not followed."
  },
  {
   "property": "C143",
   "status": "partial",
   "theorems": [
    "Verif.Run.C143_refuted",
    "Verif.Run.C143_listed_partial"
   ],
   "note": "False of files with circular dependencies or ones that do not exist: Run returns nil without having executed what is listed (C85). Proved for all others. How the listing is printed is C63."
  },
  {
   "property": "C144",
   "status": "partial",
   "theorems": [
    "Verif.Runner.C144_refuted",
    "Verif.Runner.C144_same_result_partial",
    "Verif.Runner.C144_which"
   ],
   "note": "False if two tasks fail neither of which waits for the other: the error of either may be returned (refuted). Proved if at most one of the tasks that are to fail waits for no other such task. C144_which says what is returned in all cases. That a run may not return at all is C22. Circular and dangling dependencies (C20) and a task named \"\" (C12) are excluded."
  },
  {
   "property": "C145",
   "status": "proved",
   "theorems": [
    "Verif.Sched.C145_determined",
    "Verif.Sched.C145_made"
   ],
   "note": "Of any calls of Next, also ones with tasks that were not handed out. In which order the targets are listed in an answer is Go's choice."
  },
  {
   "property": "C146",
   "status": "proved",
   "theorems": [
    "Verif.Runner.C146_same_order",
    "Verif.Runner.C146_success",
    "Verif.Runner.C146_same_run",
    "Verif.Runner.C146_needs_one_target"
   ],
   "note": "For one target, as stated; C146_needs_one_target shows that tasks of two targets begin in either order."
  },
  {
   "property": "C147",
   "status": "proved",
   "theorems": [
    "Verif.Run.C147_same_output",
    "Verif.Run.C147_same_calls"
   ],
   "note": "Unlike C89 this asks for no dependencies between the tasks."
  },
  {
   "property": "C148",
   "status": "proved",
   "theorems": [
    "Verif.Runner.C148_fifo",
    "Verif.Runner.C148_by_name"
   ],
   "note": "C148_fifo is about the history variable out of the runner's model, the pairs handed out by New and Next (C13)."
  },
  {
   "property": "C149",
   "status": "partial",
   "theorems": [
    "Verif.Runner.C149_own_order_partial",
    "Verif.Runner.C149_refuted"
   ],
   "note": "False: the second loop of DependencyGraph.Next passes over a startable task (C11), which is then released when any task ends, of whatever target (refuted with two targets and five tasks). Proved without dependencies; with one target it is C146."
  },
  {
   "property": "C150",
   "status": "proved",
   "theorems": [
    "Verif.Run.C150_lines",
    "Verif.Run.C150_same_lines"
   ],
   "note": "C148 with the output as a function of the trace. linesFrom (Verif/Run/Lines.lean) is the specification: the lines of tasks executed one after the other. The example beside it shows a file of two targets, its lines and that a successful run exists."
  },
  {
   "property": "C151",
   "status": "proved",
   "theorems": [
    "Verif.Runner.C151_same_order",
    "Verif.Runner.C151_in_order",
    "Verif.Runner.C151_success",
    "Verif.Run.C151_calls"
   ],
   "note": "Runs of the runner, and of files with their statements and commands. C149_refuted shows that without the condition two runs can differ."
  },
  {
   "property": "C152",
   "status": "partial",
   "theorems": [
    "Verif.Hcl.C152_value_partial",
    "Verif.Hcl.C152_block_partial",
    "Verif.Hcl.C152_object_partial",
    "Verif.Hcl.C152_added_partial",
    "Verif.Hcl.C152_refuted"
   ],
   "note": "False of the last sentence: one storage parameter more can move the `=` of all others (refuted). The rest is proved, of documents for single values and for the databases for objects."
  },
  {
   "property": "C153",
   "status": "partial",
   "theorems": [
    "Verif.Main.C153_together_partial",
    "Verif.Main.C153_files_partial",
    "Verif.Main.C153_refuted"
   ],
   "note": "False of commands with the same output file: it is opened without being locked or replaced, and may hold a mixture when both have succeeded (refuted). Proved of any number of commands none of which writes to a file another writes to or reads. The server is the same for all of them and does not change. Each has its own standard output. Names stand for files: links are not modelled."
  },
  {
   "property": "C154",
   "status": "partial",
   "theorems": [
    "Verif.TaskSet.C154_order_partial",
    "Verif.TaskSet.C154_refuted"
   ],
   "note": "False if a target or a task is described twice: the last block counts, silently (refuted). Proved for all files in which no name is given twice."
  },
  {
   "property": "C155",
   "status": "proved",
   "theorems": [
    "Verif.Hcl.C155_order",
    "Verif.Hcl.C155_same_kind"
   ],
   "note": "Up to the parsing of the text. That both are refused is all that is said of errors: which one is reported may differ."
  },
  {
   "property": "C156",
   "status": "proved",
   "theorems": [
    "Verif.Sched.C156_determined",
    "Verif.Sched.C156_made"
   ],
   "note": "C145 is the special case where only the listing order of the maps differs."
  },
  {
   "property": "C157",
   "status": "proved",
   "theorems": [
    "Verif.Sched.C157_renamed",
    "Verif.Sched.C157_made",
    "Verif.Sched.C157_unknown"
   ],
   "note": "C157_unknown shows that the restriction to completions of tasks of the runbook is needed: anything else counts as a task of the target whose name is empty. The runner reports tasks of the runbook only."
  },
  {
   "property": "C158",
   "status": "proved",
   "theorems": [
    "Verif.Sched.C158_higher_limits",
    "Verif.Sched.C158_exists"
   ],
   "note": "About the same order of completions. That the order of completions itself may change, as tasks run longer when more run at once, is outside of the model."
  },
  {
   "property": "C159",
   "status": "proved",
   "theorems": [
    "Verif.Dag.C159_within"
   ],
   "note": "C11_exact says when a task is withheld by one call; this bounds the number of such calls."
  },
  {
   "property": "C160",
   "status": "proved",
   "theorems": [
    "Verif.Runner.C160_same_runs",
    "Verif.Runner.C160_same_ends"
   ],
   "note": "C156 is the part of the scheduler."
  },
  {
   "property": "C161",
   "status": "proved",
   "theorems": [
    "Verif.Runner.C161_renamed_runs"
   ],
   "note": "The names of tasks do matter: they decide the order among tasks that could both be next (C148)."
  },
  {
   "property": "C162",
   "status": "proved",
   "theorems": [
    "Verif.Dag.C162_order",
    "Verif.Dag.C162_calls",
    "Verif.Dag.C162_cycle",
    "Verif.Dag.C162_names_matter"
   ],
   "note": "C162_names_matter shows that the order of the names is needed. The empty name is kept apart because the search uses it as a mark."
  },
  {
   "property": "C163",
   "status": "proved",
   "theorems": [
    "Verif.Sched.C163_renamed",
    "Verif.Sched.C163_made",
    "Verif.Sched.C163_order_matters"
   ],
   "note": "C163_order_matters shows that the order of the names is needed."
  },
  {
   "property": "C164",
   "status": "proved",
   "theorems": [
    "Verif.Runner.C164_renamed_runs"
   ],
   "note": "The renaming is given as a one-to-one map of all strings; every renaming of finitely many names is part of one."
  },
  {
   "property": "C165",
   "status": "proved",
   "theorems": [
    "Verif.Sched.C165_limits",
    "Verif.Sched.C165_low_limit",
    "Verif.Runner.C165_runs"
   ],
   "note": "The run-level theorem also shows that the larger or smaller channel buffers that come with other limits make no difference."
  },
  {
   "property": "C166",
   "status": "proved",
   "theorems": [
    "Verif.Runner.C166_accepted",
    "Verif.Runner.C166_waits",
    "Verif.Runner.C166_result",
    "Verif.Runner.C166_order_may_change"
   ],
   "note": "A task named \"\" is excluded in the theorems about runs, as in C18. That the order may change is shown by an example with four tasks."
  },
  {
   "property": "C167",
   "status": "proved",
   "theorems": [
    "Verif.TaskSet.C167_no_influence",
    "Verif.TaskSet.C167_all_seen"
   ],
   "note": "This is the full extent of what C61_refuted shows by an example: the setting bounds nothing. C167_all_seen says that the theorem leaves out no execution."
  },
  {
   "property": "C168",
   "status": "proved",
   "theorems": [
    "Verif.TaskSet.C168_any_order",
    "Verif.TaskSet.C168_results"
   ],
   "note": "An equivalence: the direction from executions to orders is safety (with C59), the other constructs an execution for each order. How to get an order by waiting is C118."
  },
  {
   "property": "C169",
   "status": "proved",
   "theorems": [
    "Verif.Sched.C169_idle_target",
    "Verif.Runner.C169_runs"
   ],
   "note": "A new target that fails to start makes the run fail (C26)."
  }
 ]
}