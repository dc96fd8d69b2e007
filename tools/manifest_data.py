D="Verif.Dag."; S="Verif.Sched."
c("C01","proved",[D+"C01_newDirectedGraph_exact"])
c("C02","proved",[D+"C02_digraph_refinement"])
c("C03","proved",[D+"C03_tsort_topological"])
c("C04","proved",[D+"C04_tsort_decides_acyclicity"])
c("C05","partial",[D+"C05_cycle_genuine_partial",D+"C05_cycle_or_unnamed",D+"C05_refuted"],"False of the code when a cycle goes through a node named \"\" (refuted): it may be reported as empty. Proved for all other graphs; C05_cycle_or_unnamed: for every graph the cycle is genuine, or empty and there is one through \"\".")
c("C06","proved",[D+"C06_tsort_deterministic",D+"C06_tsort_map_order"])
c("C07","proved",[D+"C07_newDependencyGraph_exact"])
c("C08","proved",[D+"C08_next_dependencies_reported"])
c("C09","proved",[D+"C09_next_once_hasPending_exact"])
c("C10","proved",[D+"C10_next_progress"])
c("C11","partial",[D+"C11_next_at_least_half_partial",D+"C11_refuted",D+"C11_exact"],"False of the code: Next skips the node after each one it unlinks (refuted). Proved: at least half of the startable tasks are returned; C11_exact: which ones are withheld.")
c("C12","partial",[S+"C12_scheduler_dependencies_partial",S+"C12_refuted"],"False for a dependency on a task named \"\" (New reports \"\" as completed); proved for all other dependencies.")
c("C13","proved",[S+"C13_handed_out_once_on_own_target"])
c("C14","proved",[S+"C14_concurrency_limit"])
c("C15","proved",[S+"C15_never_stalls"])
c("C16","proved",[S+"C16_errNoPendingTasks_exact",S+"C16_driving_hands_out_everything"])
c("C17","proved",[S+"C17_waits_only_for_capacity",S+"C17_fifo"])
R="Verif.Runner."
c("C18","partial",[R+"C18_run_dependency_order_partial",R+"C18_refuted"],"False for a dependency on a task named \"\" (refuted: it is not waited for); proved for all others.")
c("C19","proved",[R+"C19_run_at_most_once_one_per_target"])
c("C20","partial",[R+"C20_nil_means_all_succeeded_partial",R+"C20_refuted",R+"C20_invalid",R+"C20_exact"],"False for cyclic (or dangling) dependencies: the scheduler's error is dropped and Run returns nil (refuted). C20_exact: true of a runbook if and only if its dependencies are valid; C20_invalid: otherwise nothing is ever run.")
c("C21","partial",[R+"C21_every_schedule_is_finite",R+"C21_no_deadlock_when_all_succeed_partial",R+"C21_refuted",R+"C21_no_tasks",R+"C21_exact"],"False for a runbook without tasks, which deadlocks (refuted). C21_exact: true of a runbook if and only if it has a task.")
c("C22","partial",[R+"C22_no_deadlock_on_failure_partial",R+"C22_refuted",R+"C22_stranded",R+"C22_exact"],"False when a task fails on a target with limit 2 or more (refuted). Proved when failing targets have limit 1; C22_exact: Run has returned at rest if and only if no task handed to a failed target was left unstarted. C21_every_schedule_is_finite applies too.")
c("C23","partial",[R+"C23_run_reports_failure",R+"C23_dependents_of_failed_never_run_partial",R+"C18_refuted"],"The last clause needs that the failed task is not named \"\" (C18_refuted).")
c("C24","proved",[R+"C24_channels_never_overflow",R+"C24_no_send_blocks"])
c("C25","proved",[R+"C25_clean_shutdown",R+"C25_stopped_after_last_handle"])
c("C26","partial",[R+"C26_start_failure_is_returned_partial",R+"C26_refuted",R+"C26_exact"],"The error is returned; tasks of already started targets may still be executed (refuted). C26_exact: these are exactly the tasks of the other targets that are handed out before any completion is reported.")
H="Verif.Sh."; M_="Verif.Demo."; B="Verif.Book."
c("C27","proved",[H+"C27_apply_lookup_last",H+"C27_apply_lookup_first"])
c("C28","proved",[H+"C28_apply_leaks_nothing",H+"C28_apply_keeps_order",H+"C28_apply_order_irrelevant"])
c("C29","partial",[H+"C29_apply_idempotent_partial",H+"C29_any_order_partial",H+"C29_refuted"],"False when a Set key is empty or contains '=' (refuted); proved for all legal names.")
c("C30","proved",[H+"C30_command_environment",H+"C30_denied_stays_denied"])
c("C31","proved",[H+"C31_check_exact",H+"C31_checked_never_panics",H+"C31_check_error"])
c("C32","proved",[M_+"C32_involutions",M_+"C32_commute",M_+"C32_rev_reverses",M_+"C32_rot13_is_rot13",M_+"C32_involution_iff_valid"],"Stated for valid UTF-8; C32_involution_iff_valid shows exactly the invalid strings are not restored.")
c("C33","partial",[M_+"C33_sleep_pause_partial",M_+"C33_refuted",M_+"C33_exact"],"False above 9223372036 seconds, where the int64 product wraps (refuted). C33_exact: true exactly up to there.")
c("C34","proved",[B+"C34_parse_sound",B+"C34_reference_unique"])
c("C35","partial",[B+"C35_parse_succeeds_iff",B+"C35_parse_result",B+"C35_parse_never_panics_partial",B+"C35_refuted",B+"C35_exact",B+"C35_certain"],"A null target or task panics (refuted); everything else proved. C35_exact: it can panic if and only if a target is null, or all targets are acceptable and a task is null; C35_certain: when it does in every order of iteration.")
c("C36","proved",[B+"C36_parse_order_independent",B+"C36_parse_failure_order_independent"])
L="Verif.Ddl."
c("C37","proved",[L+"C37_quoteName_one_identifier",L+"C37_quoteName_injective"])
c("C38","partial",[L+"C38_index_names_confined_partial",L+"C38_refuted",L+"C38_table_names_confined",L+"C38_trigger_names_confined"],"For an index that is not a primary key ToSQL emits no statement at all (refuted); proved otherwise.")
c("C39","partial",[L+"C39_function_body_partial",L+"C39_refuted",L+"C39_exact"],"False when the body contains $$ or ends in $ (refuted). C39_exact: the body survives if and only if it does neither.")
c("C40","partial",[L+"C40_trigger_events_partial",L+"C40_refuted",L+"C40_exact"],"Only UPDATE is ever written and ParseTrigger rejects every statement ToSQL writes because names are quoted (refuted for all triggers); the statement is right for triggers whose one event is UPDATE without columns, and no others (C40_exact).")
c("C41","proved",[L+"C41_check_grammar"])
c("C42","partial",[L+"C42_check_fields_partial",L+"C42_check_flags",L+"C42_refuted"],"The expression is proved; the flags are also set by text inside the expression that looks like a clause (refuted), C42_check_flags is the exact condition.")
c("C43","proved",[L+"C43_index_grammar"])
c("C44","proved",[L+"C44_foreign_key_grammar"])
c("C45","proved",[L+"C45_trigger_grammar"])
c("C46","proved",[L+"C46_parsers_never_panic"])
c("C47","partial",[L+"C47_foreign_key_round_trip_partial",L+"C47_index_round_trip_partial",L+"C47_trigger_round_trip_partial",L+"C47_refuted",L+"C47_foreign_key_exact",L+"C47_index_exact",L+"C47_trigger_exact"],"Seven kinds of catalog text are not read back (refuted). The exact theorems say for each kind of definition that it is read back if and only if it is none of these, and for foreign keys and triggers that it is otherwise refused, never read as another one.")
c("C48","partial",[L+"C48_spelling_irrelevant_partial",L+"C48_refuted",L+"C48_exact"],"False for a vertical tab between SET and NULL and for whitespace after a final DEFERRABLE (refuted); proved otherwise. C48_exact: a spelling is refused if and only if it ends in DEFERRABLE without a space; every other one gives the meaning, but for vertical tabs between the two words of an action, which are kept.")
c("C49","partial",[L+"C49_error_total",L+"C49_error_shows_position_partial",L+"C49_error_after_end",L+"C49_refuted",L+"C49_at_newline",L+"C49_in_line",L+"C49_exact"],"False when the position is a newline (refuted): C49_at_newline, the line after it is shown; and beyond a million columns, where there is no caret in place (C49_in_line). Proved for all other positions inside a line; C49_exact says exactly when.")
c("C50","proved",[L+"C50_set_stores_value",L+"C50_set_rejects",L+"C50_set_unknown",L+"C50_attrs_known"])
c("C51","partial",[L+"C51_list_parameters_partial",L+"C51_refuted",L+"C51_exact"],"False for booleans spelled on/off, which PostgreSQL stores as written, and for options the struct lacks (refuted); proved for known options with values Go parses. C51_exact: what is returned, and when the call fails, for any options.")
P="Verif.Pg."
c("C52","proved",[P+"C52_options_win"])
c("C53","proved",[P+"C53_tls_policy",P+"C53_transports"],"pgx's use of the three TLS fields is an assumption stated in ConnConfig.transports.")
c("C54","partial",[P+"C54_stops_at_first_success_partial",P+"C54_all_attempts",P+"C54_refuted"],"False: the loop has no break, so all attempts are always made, every success is left open and the last attempt decides (refuted; C54_all_attempts is the exact behaviour). Proved when no attempt before the last permitted one succeeds.")
c("C55","partial",[P+"C55_doubling_partial",P+"C55_delays",P+"C55_refuted"],"False: 2^retries is an exclusive or, the fourth delay is 0 (refuted; C55_delays is the exact sequence). Proved for at most two retries.")
c("C56","partial",[P+"C56_listings_partial",P+"C56_sequences_partial",P+"C56_failure_truncates",P+"C56_refuted"],"False when the connection fails while rows are read: rows.Err is never called and the list is silently truncated (refuted). Proved otherwise.")
c("C57","proved",[P+"C57_inspect_complete"],"A listing fails when the List function returns an error; see C56 for the failures they miss.")
c("C58","partial",[P+"C58_sort_partial",P+"C58_sortChecks_no_effect",P+"C58_indexLess_same",P+"C58_refuted"],"False for SortChecks, which sorts a copy, and SortIndexes, whose comparison is not an order (refuted). Proved for SortColumns and that nothing is lost.")
T="Verif.TaskSet."
c("C59","proved",[T+"C59_exactly_once"],"Over all executions of a transition system with buffered and unbuffered channels; a task's execution is atomic up to its end and its outcome arbitrary.")
c("C60","partial",[T+"C60_shuts_down_partial",T+"C60_refuted",T+"C60_exact",T+"C60_never_sure"],"False: a queue closed when no result is outstanding is never answered, whatever happens afterwards (refuted). Proved when the close is seen while a task is still out, and that this is exactly when it shuts down (C60_exact); so whenever a client closes the queue there is a schedule in which it waits forever (C60_never_sure).")
c("C61","partial",[T+"C61_concurrency_partial",T+"C61_refuted"],"False: all tasks of a batch run at once (refuted for every batch). Proved for clients that keep outstanding tasks within the limit.")
c("C62","proved",[T+"C62_task_sets"],"From the decoded file on; gohcl.DecodeBody on the blocks' bodies is a parameter that sets tagged fields only (C113 is from the document on).")
c("C69","partial",[T+"C69_refuted",T+"C69_exact",T+"C69_demo"],"False: the outer block consumes after/provides/requires and the embedded base.Task is never decoded, so every loaded task has no dependencies (refuted for every task of every file). C69_exact: true of a task if and only if the file says nothing about them; C69_demo: testdata/demo.hcl is a file of which it is false.")
X="Verif.Cmd."
c("C63","partial",[X+"C63_list_partial",X+"C63_refuted",X+"C63_exact"],"False for ids or targets with line breaks and ids of more than a million bytes (refuted), and for no others (C63_exact); proved otherwise, with the column counted in characters for ids that are not ASCII.")
c("C64","partial",[X+"C64_auto_output_partial",X+"C64_extension_exists_unique",X+"C64_refuted",X+"C64_exact"],"False for inputs named *.dot, which are emptied (refuted); proved otherwise. C64_exact: the output is another file than the input if and only if the extension is not .dot. Names stand for files: links are not modelled.")
c("C65","proved",[X+"C65_verbosity",X+"C65_monotone"],"zap is modelled by its contract: a core writes entries of at least its level.")
c("C66","partial",[X+"C66_output_kept_partial",X+"C66_refuted",X+"C66_exact"],"False: the output file is truncated before the runbook is read, and a failed write leaves a fragment (refuted). Proved for failures to open the output, to connect and to inspect. C66_exact: what the file holds after each failure.")
c("C68","partial",[P+"C68_search_path_partial",P+"C68_refuted"],"False for every setting of two or more schemas as PostgreSQL prints it, for its default and for the empty path (refuted); the partial theorem is the exact condition.")
c("C70","partial",[X+"C70_stdout_is_result_partial",X+"C70_refuted",X+"C70_exact"],"False from one more -v than -q on: logs go to standard output (refuted for every command). C70_exact: true if and only if no more -v than -q are given and the command logs nothing that is shown.")
c("C71","partial",[X+"C71_success_means_written_partial",X+"C71_refuted",X+"C71_exact"],"False for runbook dot, which ignores the result of the write (refuted); proved for eval and inspect. C71_exact: exactly when each command succeeds.")
Q="Verif.Sql."
c("C67","partial",[Q+"C67_function_partial",Q+"C67_refuted",Q+"C67_trigger",Q+"C67_session_function_partial",Q+"C67_session_trigger"],"False for functions with overloads: which one is described is not determined by the database (refuted). Proved for triggers, and for functions up to the choice of the overload.")
c("C72","partial",[Q+"C72_tables_partial",Q+"C72_refuted"],"False: only tables found by the search path are listed (refuted). Proved for those.")
c("C73","proved",[Q+"C73_columns"],"About every database and every server whose answers are PostgreSQL's answers to the query text.")
c("C74","partial",[Q+"C74_sequences_partial",Q+"C74_refuted"],"False: sequences that no column owns, or that the search path does not find, are left out (refuted). Proved for the others, for the current and the legacy query.")
c("C75","partial",[Q+"C75_functions_partial",Q+"C75_refuted"],"False: only functions found by the search path are listed (refuted). Proved for those.")
c("C76","proved",[Q+"C76_triggers",Q+"C76_describe"],"")
c("C77","proved",[Q+"C77_checks",Q+"C77_foreign_keys",Q+"C77_indexes"],"")
c("C78","proved",[Q+"C78_schemas"],"")
c("C79","proved",[Q+"C79_storage"],"strconv.ParseFloat is a parameter. The known parameters are those the code handles , keyed by their hcl names (C51 says which ones it lacks).")
c("C80","proved",[Q+"C80_inspect",Q+"C80_session",Q+"C80_never_skips"],"C80_session is about the statements as they are sent: the server is given texts and arguments only. About every database and every server whose answers are PostgreSQL's answers to the query texts; sort.Slice is any routine that meets its contract. That the search path limits what is found is C72, C74 and C75.")
HC="Verif.Hcl."
c("C81","partial",[HC+"C81_read_back",HC+"C81_partial",HC+"C81_refuted",HC+"C81_inspected_partial"],"False for texts that are not in Unicode normal form C, which the HCL library normalises (refuted for every such text). C81_read_back says exactly what is read; unchanged if all texts are normal. Here documents are trees; their text is C112.")
c("C82","proved",[HC+"C82_strict"],"The form is stated over the struct tags copied from the source; conversion of values (cty convert) is a parameter.")
c("C83","proved",[HC+"C83_kept",HC+"C83_stable"],"Null and the empty list are not distinguished.")
c("C84","proved",[HC+"C84_written",HC+"C84_storage"],"Up to the printing of the document.")
U="Verif.Run."
c("C85","partial",[U+"C85_success_means_done_partial",U+"C85_refuted",U+"C85_invalid"],"From the decoded file on. False for cyclic (and dangling) dependencies, which are accepted: Run returns nil and nothing is run (refuted). Proved for valid dependencies, but for the order after a task named \"\". C85_invalid: with invalid ones nothing is ever run.")
c("C86","partial",[U+"C86_effects",U+"C86_order_partial",U+"C86_sequence",U+"C86_all",U+"C86_refuted"],"The order is not kept after a task named \"\" (refuted). Commands and SQL have arbitrary outcomes; an effect takes place when Handle returns.")
c("C87","partial",[U+"C87_failure_has_a_cause",U+"C87_no_panic_partial",U+"C87_rejected_not_run",U+"C87_fail_never_succeeds_partial",U+"C87_refuted_retries",U+"C87_refuted_concurrency",U+"C85_refuted"],"No panic unless a target or task is null (C35), a number of retries is negative or the channels are too large (both refuted). That a fail task prevents success needs valid dependencies (C85_refuted: nothing is run).")
c("C88","partial",[U+"C88_every_run_is_finite",U+"C88_comes_to_an_end",U+"C88_run_returns_partial",U+"C88_refuted_no_tasks",U+"C88_refuted_failure",U+"C88_no_tasks",U+"C88_stranded",U+"C88_exact"],"The bound holds always. False for files without tasks and for failures on targets with concurrency 2 or more (both refuted); proved otherwise. C88_exact: a file with tasks has returned at the end if and only if no task handed to a failed target was left unstarted.")
c("C89","proved",[U+"C89_output",U+"C89_any_order",U+"C89_message",U+"C89_fail"],"Also for testdata/message.jsonnet and fail.jsonnet, under every schedule. Needs that no task is named \"\". Demo texts are UTF-8, as JSON strings are.")
c("C90","proved",[U+"C90_demo_runs"],"Provided the channels can be made (fewer than some 10^13 targets).")
c("C91","proved",[U+"C91_connections"],"pgx's use of the three TLS fields is an assumption stated in ConnConfig.transports; the environment is what pgx.ParseEnvLibpq made of it.")
c("C92","partial",[U+"C92_closed_once",U+"C92_closed_partial",U+"C92_refuted",U+"C92_exact"],"False with retries, when an attempt before the last succeeded, and when a target cannot be started (both refuted). Proved otherwise; never closed twice or without having been opened. C92_exact: if every target could be started, as many are closed as were opened if and only if no attempt before the last succeeded.")
J="Verif.Json."
c("C93","partial",[J+"C93_accepts_iff_partial",J+"C93_reads_partial",J+"C93_no_unknown_members",J+"C93_refuted"],"From the JSON tree on. False for files in which a setting is given twice in different spellings: an unread config may contain anything (refuted). Proved for files in which nothing is written twice; unknown members of the file, its targets and tasks are rejected always.")
c("C94","proved",[J+"C94_success_means_done",J+"C94_invalid_not_run"],"From the JSON tree on.")
Z="Verif.Main."
c("C95","proved",[Z+"C95_inspect",Z+"C95_failure",Z+"C95_connections"],"The text is that of C112; it is read by any reader that reads the syntax in Hcl/TextSpec.lean (the HCL library's, which reads more, is trusted to). The part about reading is for texts that are UTF-8. Texts are read back in Unicode normal form (C81). Assumes that no connection breaks between two rows (C56).")
c("C96","partial",[Z+"C96_exit_status_partial",Z+"C96_run",Z+"C96_usage",Z+"C96_refuted",Z+"C96_exact"],"False when writing to standard output fails: ping, version, runbook list and runbook dot do not look at the result (refuted). Proved as long as writing does not fail. C96_exact: inspect and runbook eval exit with 0 exactly if they would with every write succeeding and writing the result does succeed; the other commands exit as if every write succeeded.")
D="Verif.TaskSet.Demo."
c("C97","proved",[D+"C97_one_at_a_time",D+"C97_final"],"Goroutines take their steps between Lock, reading, writing and Unlock in any order. The writer does not fail; time is not modelled.")
c("C98","partial",[D+"C98_start_partial",D+"C98_refuted",D+"C98_refuted_text",D+"C98_exact"],"False: a file with a negative max_concurrency is accepted and starting its target panics (refuted). Proved that it panics in no other case; C98_exact says when each outcome occurs.")
c("C99","partial",[D+"C99_sleep_partial",D+"C99_refuted"],"False for every sleep task of every file: Seconds cannot be set and Ready is never called, so none pauses (refuted). Proved for tasks whose Ready has been called, up to 9223372036 seconds.")
Y="Verif.Cli."
c("C100","proved",[Y+"C100_command_lines",Y+"C100_end_to_end",Y+"C100_wrong"],"For command lines of the usual form (Spec.Line) and those that are up to some word (Spec.Wrong). Kingpin is modelled from knowledge of its source. Parsing of a port (strconv) and which files there are, are parameters. End to end for all commands but runbook run, as long as writing does not fail (C96).")
O="Verif.Dot."
c("C101","proved",[O+"C101_draws_runbook",O+"C101_draws_file",O+"C101_command"],"The graph given to gographviz; the text it prints for a graph is not modelled, and what it does to names is a parameter that must keep the names of the runbook apart (Spec.Apart).")
V="Verif.Eval."
c("C102","partial",[V+"C102_json_partial",V+"C102_colours_partial",V+"C102_fails",V+"C102_command",V+"C102_refuted"],"False for files with a quote, backslash or control character in a name: names are printed as they are, so that the text is not JSON or is JSON for another value (refuted). Proved for all other files, from the JSON value the file evaluates to. prettyjson and encoding/json are modelled from knowledge; numbers are a parameter with the law that what is printed is read as the same number (Sound).")
c("C103","partial",[V+"C103_colours_partial",V+"C103_refuted",V+"C103_exact"],"False when standard output is not a terminal: then the colour library prints no colours, whatever is asked for (refuted). Proved when it is one. C103_exact: exactly when colours are printed.")
c("C104","partial",[V+"C104_same_partial",V+"C104_rejects_partial",V+"C104_refuted"],"False for runbooks with a quote, backslash or control character in a name (refuted: a target called \\\" makes the text no JSON). Proved for all others in which no setting is given twice and whose numbers are written as eval writes them (all integers jsonnet prints are).")
c("C105","partial",[R+"C105_no_waiting_partial",R+"C105_refuted",R+"C105_refuted_skipped"],"False if some target has a concurrency above 1: the one router waits for that target with a second task in its hand, and no task of any other target is started meanwhile (refuted). False also with concurrency 1 everywhere, for a task that the scheduler skips (C11; refuted). Proved with concurrency 1 everywhere for tasks that the scheduler has handed out.")
c("C106","partial",[R+"C106_in_progress_partial",R+"C106_refuted"],"False for every runbook and every n above 1: a target has one goroutine, so that no two of its tasks are ever in progress at once (refuted for every reachable state of every runbook). Proved with concurrency 1 everywhere.")
c("C107","proved",[J+"C107_demo",J+"C107_words",J+"C107_scripts",J+"C107_concurrent",J+"C107_messages",U+"C86_sequence",U+"C86_all",U+"C86_refuted"],"From the JSON tree each file evaluates to. What the commands and statements themselves do is outside; C107_demo and C107_messages are the only ones that can promise an end, as the others may fail, and a failed run may hang (C88). Runs that succeed exist (words_succeeds and the like).")
c("C108","proved",[U+"C108_can_succeed"],"From every reachable state in which nothing has failed there is a continuation that returns nil, and a state in which nothing can happen and nothing has failed has returned nil. Properly set up: the libpq environment is well formed, sslmode is a known one, at least one attempt is made.")
c("C109","proved",[U+"C109_messages",U+"exists_talk",J+"C107_messages"],"On a refinement of the run in which logging is a step of its own between receiving a task and calling Handle. The order of the messages is for files without a task named \"\" (C12). Messages are logged at level Info, which pgutil shows only with -v (C65).")
c("C110","proved",["Verif.Pg.C110_identifier","Verif.Pg.C110_injective","Verif.Pg.C110_legacy_query"],"For the lexical structure of SQL in Ddl/Lexer.lean. The server of C74 answers the sequence its text asks for.")
c("C111","partial",[L+"C111_table_partial",L+"C111_function_partial",L+"C111_key_partial",L+"C111_trigger_partial",L+"C111_refuted"],"False: schemas, owners, comments, foreign keys and names of checks are not written, so that everything is created in the first schema of the search path; function names are not quoted and are folded to lower case; a table with checks and no column gives no statement; of the events of a trigger only UPDATE is written; indexes other than primary keys give no statement (refuted). Proved for the rest; the body of a function is created with a line break in front. How SQL is read is in Ddl/CreateSpec.lean and Ddl/CreateSpec2.lean.")
c("C112","proved",[HC+"C112_text",HC+"C112_document",HC+"C112_same_file",HC+"expected_text",HC+"docker_text",HC+"C112_not_utf8"],"The printing follows hclwrite; it is checked against both files of printed output in the repository, byte for byte (expected_text, docker_text). The reader (Hcl/TextSpec.lean) is for the part of HCL without expressions and templates; it reads all four schema files in the repository (texts_read). Texts that are not UTF-8 are outside the claim and are changed (C112_not_utf8). How numbers are printed and read is a parameter with the contract Numerals (int_numerals is one).")
c("C113","proved",[T+"C113_document",T+"demo_loads",T+"measurements_load"],"From the document on; the texts of the files in the repository are read by the reader of C112 (demo_loads, measurements_load). Conversions of values are the HCL library's and a parameter. That after, provides and requires are checked and then dropped is C69.")
c("C114","partial",[T+"C114_refuted",T+"C114_prints_partial"],"False: pg and sh tasks of task sets print their SQL or arguments and report success (refuted for every task). Proved: exactly this, from the document on.")
c("C115","proved",[U+"C115_directory",U+"C115_basedir",U+"C115_same"],"For starting directories with an absolute path and file names whose last part is a name. filepath.Dir, Abs and Clean are modelled from Go's library; a path is followed in a tree without symbolic links.")
c("C116","partial",[H+"C116_refuted",H+"C116_exact",H+"C116_names_partial",H+"C116_settings_partial"],"False: a bare name is looked for in pgutil's own PATH, not the one the settings give, and relative entries of PATH are searched from the directory pgutil was started in but run from that of the runbook. Proved: exactly which program is run, and that it is the named one when the settings leave PATH alone and its entries are absolute, or the name has a slash. os/exec is modelled from Go 1.11-1.14.")
c("C117","partial",[P+"C117_refuted",P+"C117_values",P+"C117_unreadable",P+"C117_transports",P+"C117_sslmode_partial",P+"C117_safe",U+"C117_runs"],"False of PGSSLMODE: with a password it is ignored, and with verify-ca or verify-full and a host given as an option the certificate is checked for PGHOST instead (refuted). Proved otherwise: all other variables, the exact transports in every case, that errors come before connecting, and that no connection is less safe than PGSSLMODE asks for. pgx.ParseEnvLibpq is modelled from knowledge of pgx 3.6.0, without the variables for certificate files, application name and timeout.")
c("C118","proved",[D+"C118_rounds",D+"C118_round_ends",D+"C118_decrypt",D+"C118_demo_test",D+"test_tasks"],"On the transition system of C97; C118_demo_test is taskset_test.go's TestDemoTaskExecution, for the targets and tasks the file contains (test_tasks).")
c("C119","partial",[Q+"C119_same_partial",Q+"C119_exact_partial",Z+"C119_file_partial",Q+"C119_refuted"],"False: overloaded functions are ordered by schema and name only, so two inspections may list them in two orders (refuted); the same holds for two foreign keys with the same columns that refer to tables of the same name. Proved: these are exactly the exceptions (C119_exact_partial), and without them the texts are the same byte for byte. Beyond the constraints of the catalogs it is assumed that constraints of a table have different names, an index is in the schema of its table and no relation has oid 0, all of which PostgreSQL enforces.")
FM="Verif.Fmt."
c("C120","partial",[FM+"C120_dependencies_partial",FM+"C120_one_reading",FM+"C120_command",FM+"C120_one_line",FM+"C120_refuted"],"False of cycles through a task named \"\": the message is \"circular dependency detected: []\" (refuted; C05). Proved for everything else. strconv.Quote and %q are modelled from Go 1.12; strconv.IsPrint is a parameter that prints no control characters. The runner of runbooks does not show these messages (C20).")
c("C121","proved",[R+"C121_tasks",R+"C121_success",R+"C121_targets",R+"exists_log"],"On the transition system of the runner with a step for each line; lines that name no task or target are left out, the messages of tasks are C109, and what reaches which log at which verbosity is C65. exists_log: every state of a run is met with a log. When a target cannot be started, tasks of targets already started may go on after Run has returned (C26), and their third lines are missing.")
c("C122","partial",[L+"C122_refuted",L+"C122_one_place",L+"C122_first_byte",L+"C122_points_partial",L+"C122_exact"],"False: the parsers give the number of the state of the generated machine where the position of the byte is expected. It is 0 after a refused byte, so the caret is always under the first byte of the text (C122_first_byte); if the text ends too early it is the number of the last state, so the message says so only of texts no longer than that (refuted). Proved: when the message is right nevertheless, exactly so for texts of one line. What the message does with a position is C49.")
c("C123","proved",[U+"C123_refused",U+"C123_own_kind"],"What the tasks of its own kind do is C86.")
SE="Verif.Pg.Session."
c("C124","partial",[SE+"C124_exact",SE+"C124_inspect_partial",SE+"C124_refuted"],"False of DescribeTrigger, which logs the statement of ListTriggers (refuted for all arguments and answers). C124_exact: it holds of a series of calls exactly if DescribeTrigger is not among them. Lines about rows are left out of the model.")
c("C125","proved",[SE+"C125_read_only",SE+"C125_inspect"],"By the tokens of the statements (Ddl/Lexer.lean); that the functions in the list called harmless only return a value is PostgreSQL's documentation.")
c("C126","proved",[SE+"C126_asked"],"The answers may differ from statement to statement. A connection that fails between two rows of an answer is not noticed (C56).")
c("C127","partial",[Q+"C127_refuted",SE+"C127_parts_partial",SE+"C127_still_partial"],"False: the statements are not in one transaction, so that a table that is dropped in the middle of an inspection is described without its columns (refuted). Proved: every part is what it was when it was asked for, and if nothing changes the description is that of C80.")
c("C128","partial",[SE+"C128_exact",SE+"C128_failed_partial",SE+"C128_refuted"],"False of every statement: the number is logged if there is an error (err != nil, pg.go:92), never after a success (refuted). C128_exact: exactly when which number is logged.")

c("C129","proved",["Verif.Run.C129_run","Verif.Run.C129_shown","Verif.Run.C129_environment","Verif.Run.C129_eval"],"Log lines written by the library pgx itself are not modelled. Whether the server accepts a password is an outcome of the world, the same for both.")
c("C130","proved",["Verif.Json.Twice.C130_twice","Verif.Json.Twice.C130_reads"],"From the JSON tree on. C130_reads: if nothing is left that is written twice, the runbook is the one C93 says.")
c("C131","partial",[P+"C131_refuted",P+"C131_exact",P+"C131_named_partial"],"False: ErrNoHostForTLS exists but is never returned. With a password and no host the attempt is made without a name, and so it is for a given host if PGSSLMODE asks for verification and PGHOST is empty (refuted). C131_exact: exactly when.")
c("C132","partial",[Z+"C132_refuted",Z+"C132_debug_partial",Z+"C132_same",Z+"C132_inspect",Z+"C132_refused_line",Z+"C132_unopened"],"False if FILE is the output of the command, which empties it, or the runbook, which is read with the first messages already added (refuted). It holds of every other file (C132_debug_partial). C132_same: exactly what is left in a debug log that is the output. The default log is left out (C70), and so is runbook run.")
c("C133","proved",["Verif.Runner.C133_no_race","Verif.Runner.C133_sent_once"],"Which memory an action reads and writes is part of the model (`Does`, whose actions are those of C18-C26: does_iff, watched_iff). Only program order, go statements and messages order events; C133_sent_once: no message is sent twice, so that a receive belongs to one send. Loggers and standard output, which are made for several goroutines, are left out.")
c("C134","partial",["Verif.Runner.C134_refuted","Verif.Runner.C134_visible_partial"],"False of a dependency on a task named \"\" (C12). It holds of every other one.")
c("C135","proved",[D+"C135_no_race",D+"C135_watched",D+"C135_numbers"],"Which memory a step reads and writes is part of the model (`Does`, whose steps are those of C97: C135_watched). Only program order, go statements and the mutex order events. C135_numbers: no goroutine is started twice, so that a number stands for one goroutine. Before Start returns the client has written the text and made the writer.")
SY="Verif.TaskSet.Sync."
c("C136","proved",[SY+"C136_visible",SY+"C136_rounds",SY+"C136_watched",SY+"C136_numbers"],"Of any type of tasks; that they can be told apart (Nodup) loses nothing, since RunTasks does not look at them. The k-th message received from a channel is the k-th sent. The steps are those of C59 (C136_watched); no goroutine is started twice (C136_numbers).")
c("C137","partial",[Z+"C137_refuted",Z+"C137_exact",Z+"C137_killed_partial",Z+"C137_runs"],"False: the output file is emptied when it is opened, so that a program that is killed between that and the last byte leaves a beginning of the output, or nothing, and the old contents are lost (refuted). C137_exact: exactly what may be found. The other files are untouched at every point (C137_killed_partial). C137_runs: the steps lead to what main does in the end (C96). What the file system itself loses in a power failure is not modelled.")
c("C138","partial",[R+"C138_refuted",R+"C138_killed_partial",R+"C138_resume_partial",R+"C138_ends"],"False of a dependency on a task named \"\" (C12). It holds of every other one. C138_ends: if something is left to do and nothing fails the second run comes to its end and returns nil.")
c("C139","partial",[R+"C139_refuted",R+"C139_own_target",R+"C139_stops_partial"],"False of the other targets: tasks that have been handed out still begin (refuted). Proved: none begins on the target of the failed task; on every other at most as many as its concurrency says, and none that is after a task that had not succeeded when Run took note (but for a dependency on a task named \"\", C12).")
c("C140","partial",[U+"C140_refuted",U+"C140_follows_partial",U+"C140_all_or_nothing"],"False of an arrow from a task named \"\" (C12). It holds of every other one. As in C101 the drawing is a graph, not its text, and what is written for different names must be different.")
c("C141","partial",[R+"C141_refuted_hangs",R+"C141_refuted_panics",R+"C141_safe_partial",R+"C141_finite",R+"C141_succeeds_partial"],"False if twice the sum of the concurrencies does not fit into an int: the run panics, or gets channels that are too small and may hang forever although nothing fails. It holds if the sum fits, or if what is left after wrapping around is at least the number of tasks. That nothing goes wrong before it hangs holds for any capacity.")
c("C142","partial",[R+"C142_refuted",R+"C142_one_after_the_other_partial",R+"C142_dependencies_first_partial",R+"C142_one_target",R+"C142_while_it_runs",R+"C142_nothing_afterwards"],"False of tasks of different targets neither of which depends on the other: what they write gets mixed (refuted). Proved if of any two tasks one has to wait for the other or both belong to one target. Of a task named \"\" see C12. Processes a command leaves in the background are not followed.")
c("C143","partial",[U+"C143_refuted",U+"C143_listed_partial"],"False of files with circular dependencies or ones that do not exist: Run returns nil without having executed what is listed (C85). Proved for all others. How the listing is printed is C63.")
c("C144","partial",[R+"C144_refuted",R+"C144_same_result_partial",R+"C144_which"],"False if two tasks fail neither of which waits for the other: the error of either may be returned (refuted). Proved if at most one of the tasks that are to fail waits for no other such task. C144_which says what is returned in all cases. That a run may not return at all is C22. Circular and dangling dependencies (C20) and a task named \"\" (C12) are excluded.")
c("C145","proved",["Verif.Sched.C145_determined","Verif.Sched.C145_made"],"Of any calls of Next, also ones with tasks that were not handed out. In which order the targets are listed in an answer is Go's choice.")
c("C146","proved",[R+"C146_same_order",R+"C146_success",R+"C146_same_run",R+"C146_needs_one_target"],"For one target, as stated; C146_needs_one_target shows that tasks of two targets begin in either order.")
c("C147","proved",[U+"C147_same_output",U+"C147_same_calls"],"Unlike C89 this asks for no dependencies between the tasks.")
c("C148","proved",[R+"C148_fifo",R+"C148_by_name"],"C148_fifo is about the history variable out of the runner's model, the pairs handed out by New and Next (C13).")
c("C149","partial",[R+"C149_own_order_partial",R+"C149_refuted"],"False: the second loop of DependencyGraph.Next passes over a startable task (C11), which is then released when any task ends, of whatever target (refuted with two targets and five tasks). Proved without dependencies; with one target it is C146.")
c("C150","proved",[U+"C150_lines",U+"C150_same_lines"],"C148 with the output as a function of the trace. linesFrom (Verif/Run/Lines.lean) is the specification: the lines of tasks executed one after the other. The example beside it shows a file of two targets, its lines and that a successful run exists.")
c("C151","proved",[R+"C151_same_order",R+"C151_in_order",R+"C151_success",U+"C151_calls"],"Runs of the runner, and of files with their statements and commands. C149_refuted shows that without the condition two runs can differ.")
c("C152","partial",[HC+"C152_value_partial",HC+"C152_block_partial",HC+"C152_object_partial",HC+"C152_added_partial",HC+"C152_refuted"],"False of the last sentence: one storage parameter more can move the `=` of all others (refuted). The rest is proved, of documents for single values and for the databases for objects.")
c("C153","partial",[Z+"C153_together_partial",Z+"C153_files_partial",Z+"C153_refuted"],"False of commands with the same output file: it is opened without being locked or replaced, and may hold a mixture when both have succeeded (refuted). Proved of any number of commands none of which writes to a file another writes to or reads. The server is the same for all of them and does not change. Each has its own standard output. Names stand for files: links are not modelled.")
c("C154","partial",[T+"C154_order_partial",T+"C154_refuted"],"False if a target or a task is described twice: the last block counts, silently (refuted). Proved for all files in which no name is given twice.")
c("C155","proved",["Verif.Hcl.C155_order", "Verif.Hcl.C155_same_kind"],"Up to the parsing of the text. That both are refused is all that is said of errors: which one is reported may differ.")
c("C156","proved",["Verif.Sched.C156_determined", "Verif.Sched.C156_made"],"C145 is the special case where only the listing order of the maps differs.")
c("C157","proved",["Verif.Sched.C157_renamed", "Verif.Sched.C157_made", "Verif.Sched.C157_unknown"],"C157_unknown shows that the restriction to completions of tasks of the runbook is needed: anything else counts as a task of the target whose name is empty. The runner reports tasks of the runbook only.")
c("C158","proved",["Verif.Sched.C158_higher_limits", "Verif.Sched.C158_exists"],"About the same order of completions. That the order of completions itself may change, as tasks run longer when more run at once, is outside of the model.")
c("C159","proved",["Verif.Dag.C159_within"],"C11_exact says when a task is withheld by one call; this bounds the number of such calls.")
c("C160","proved",["Verif.Runner.C160_same_runs", "Verif.Runner.C160_same_ends"],"C156 is the part of the scheduler.")
c("C161","proved",["Verif.Runner.C161_renamed_runs"],"The names of tasks do matter: they decide the order among tasks that could both be next (C148).")
c("C162","proved",["Verif.Dag.C162_order", "Verif.Dag.C162_calls", "Verif.Dag.C162_cycle", "Verif.Dag.C162_names_matter"],"C162_names_matter shows that the order of the names is needed. The empty name is kept apart because the search uses it as a mark.")
c("C163","proved",["Verif.Sched.C163_renamed", "Verif.Sched.C163_made", "Verif.Sched.C163_order_matters"],"C163_order_matters shows that the order of the names is needed.")
c("C164","proved",["Verif.Runner.C164_renamed_runs"],"The renaming is given as a one-to-one map of all strings; every renaming of finitely many names is part of one.")
c("C165","proved",["Verif.Sched.C165_limits", "Verif.Sched.C165_low_limit", "Verif.Runner.C165_runs"],"The run-level theorem also shows that the larger or smaller channel buffers that come with other limits make no difference.")
c("C166","proved",["Verif.Runner.C166_accepted", "Verif.Runner.C166_waits", "Verif.Runner.C166_result", "Verif.Runner.C166_order_may_change"],"A task named \"\" is excluded in the theorems about runs, as in C18. That the order may change is shown by an example with four tasks.")
c("C167","proved",["Verif.TaskSet.C167_no_influence", "Verif.TaskSet.C167_all_seen"],"This is the full extent of what C61_refuted shows by an example: the setting bounds nothing. C167_all_seen says that the theorem leaves out no execution.")
c("C168","proved",["Verif.TaskSet.C168_any_order","Verif.TaskSet.C168_results"],"An equivalence: the direction from executions to orders is safety (with C59), the other constructs an execution for each order. How to get an order by waiting is C118.")
c("C169","proved",["Verif.Sched.C169_idle_target", "Verif.Runner.C169_runs"],"A new target that fails to start makes the run fail (C26).")
