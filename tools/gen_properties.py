#!/usr/bin/env python3
"""Writes /verif/properties.jsonl (source of truth for the property list)."""
import json, os
P = []
def add(title, statement, quantifier, why, anchors):
    P.append(dict(id="C%02d" % (len(P)+1), title=title, statement=statement,
                  quantifier=quantifier, why_tests_cant=why, anchors=anchors))
D="internal/dag/"; S="internal/runbook/scheduler/scheduler.go"; R="internal/runbook/runner.go"
# ---- dag -------------------------------------------------------------
add("Graph construction accepts exactly the closed inputs",
 "dag.NewDirectedGraph returns a graph iff every listed edge names a listed node; the graph then has exactly the given nodes and, per node, exactly the given edge targets. Otherwise it returns an InvalidEdgeError whose Node lists Edge and whose Edge is not a node.",
 "every map from node to edge list, every map iteration order",
 "the set of inputs and iteration orders is unbounded; a test fixes one map",
 [D+"directed.go:NewDirectedGraph", D+"errors.go:InvalidEdgeError"])
add("DirectedGraph behaves like a mathematical digraph",
 "After any sequence of AddEdge, AddEdges, RemoveEdge and RemoveNode calls, HasNode and OutDegree answer as for the mathematical directed graph obtained by the same operations, and no edge ever points at a node that HasNode denies.",
 "every initial graph and every finite operation sequence",
 "operation histories are unbounded",
 [D+"directed.go:AddEdge,AddEdges,HasNode,RemoveEdge,RemoveNode,OutDegree", D+"nodeset.go"])
add("TSort returns a topological order",
 "When dag.TSort reports no cycle, its result lists every node of the graph exactly once and lists the target of every edge before the source.",
 "every directed graph",
 "graphs are unbounded; tests pin four examples",
 [D+"tsort.go:TSort,visit"])
add("TSort decides acyclicity and always terminates",
 "dag.TSort terminates on every directed graph; it reports a cycle iff the graph contains a directed cycle (self loops included) and returns an order iff it does not.",
 "every directed graph",
 "termination and completeness of a recursive search cannot be sampled",
 [D+"tsort.go:TSort,visit"])
add("A reported cycle is a real cycle",
 "The slice TSort reports (CircularDependencyError.Cycle) is non-empty and lists pairwise distinct nodes, each node being an edge target of the next one and the last being an edge target of the first.",
 "every cyclic directed graph",
 "depends on where in an arbitrary graph the DFS closes the loop",
 [D+"tsort.go:visit", D+"errors.go:CircularDependencyError"])
add("TSort is deterministic",
 "TSort's outputs depend only on the graph's node set and edge sets, not on Go's randomised map iteration order.",
 "every graph and every pair of iteration orders of all its maps",
 "Go randomises iteration order; a test observes a few orders",
 [D+"tsort.go:TSort"])
add("NewDependencyGraph accepts exactly closed acyclic inputs",
 "dag.NewDependencyGraph succeeds iff every dependency names a listed task and the dependencies are acyclic; a dangling dependency yields InvalidEdgeError and otherwise a cycle yields CircularDependencyError.",
 "every map from task to dependency list",
 "unbounded inputs",
 [D+"dependency.go:NewDependencyGraph"])
add("Next never releases a task early",
 "Whatever sequence of completions is reported, DependencyGraph.Next returns a task only if each of its dependencies has been reported by this or an earlier Next call.",
 "every closed acyclic graph, every call history (any strings, repetitions allowed)",
 "call histories are unbounded",
 [D+"dependency.go:Next"])
add("Next releases each task at most once; HasPending is exact",
 "Over any history of Next calls no task is returned twice, only tasks of the graph are returned, and HasPending is false exactly when every task has been returned.",
 "every closed acyclic graph, every call history",
 "call histories are unbounded",
 [D+"dependency.go:Next,HasPending"])
add("Next makes progress",
 "If some unreleased task has all its dependencies reported, the Next call returns at least one task; in particular if every released task has been reported and some task is unreleased, Next returns at least one task.",
 "every closed acyclic graph, every call history",
 "a stall would need one particular graph and history",
 [D+"dependency.go:Next"])
add("Next releases every startable task",
 "Next returns every unreleased task whose dependencies have all been reported.",
 "every closed acyclic graph, every call history",
 "needs two adjacent startable tasks behind a blocked one in an internal list; the existing tests never build it",
 [D+"dependency.go:Next"])
# ---- scheduler -------------------------------------------------------
add("Scheduler respects dependencies",
 "scheduler.New/Next hand out a task only after every task in its After list has been reported completed via Next.",
 "every targets/tasks map, every call history",
 "unbounded graphs and histories",
 [S+":New,Next"])
add("Scheduler hands out each task at most once, on its own target",
 "Over New and any sequence of Next calls each task id is handed out at most once and only under the key of the task's Target.",
 "every targets/tasks map, every call history",
 "unbounded histories",
 [S+":New,Next,buildReady,fillPending"])
add("Scheduler never exceeds a target's concurrency limit",
 "If Next is called once per handed-out task, then at all times the number of handed-out and not yet completed tasks of each target is at most its ConcurrencyLimit.",
 "every targets/tasks map with limits >= 0, every interleaving of completions",
 "unbounded interleavings",
 [S+":buildReady,Next"])
add("Scheduler never stalls",
 "If all targets have limit >= 1 and every task's target exists, then whenever some task has not been handed out, at least one handed-out task is still uncompleted (so a further Next call will come).",
 "every valid runbook, every interleaving of completions",
 "a stall would need one particular graph, capacities and completion order",
 [S+":New,Next"])
add("ErrNoPendingTasks exactly when everything was handed out",
 "Next returns ErrNoPendingTasks iff every task had already been handed out; consequently driving the scheduler until ErrNoPendingTasks hands out every task.",
 "every valid runbook, every interleaving of completions",
 "unbounded interleavings",
 [S+":Next,noPendingTasks"])
add("A task waits in the scheduler only for capacity",
 "After New and after each Next, if a released task of some target is still queued, that target has exactly ConcurrencyLimit tasks handed out and uncompleted; queued tasks of a target are handed out first-in first-out.",
 "every valid runbook, every interleaving of completions",
 "unbounded interleavings",
 [S+":buildReady,fillPending"])
# ---- runner ----------------------------------------------------------
add("Run executes tasks in dependency order under every schedule",
 "In every interleaving of the runner's goroutines, a target's Handle is invoked for a task only after Handle has returned nil for every task in its After list.",
 "every runbook, every goroutine interleaving, every outcome of Start and Handle",
 "the scheduler of the Go runtime decides; tests see a handful of interleavings",
 [R+":run,startScheduler,startTargets,startTargetGoroutine"])
add("Run executes each task at most once and one per target at a time",
 "In every interleaving Handle is invoked at most once per task, only on the task's own target, and never while another Handle of the same target is in progress (hence never above ConcurrencyLimit).",
 "every runbook, interleaving and outcome",
 "interleavings", [R+":startTargetGoroutine,startTargets"])
add("Run returning nil means every task succeeded",
 "If runbook.Run returns nil then Handle was invoked exactly once for every task of the runbook and returned nil each time.",
 "every runbook, interleaving and outcome",
 "interleavings; also requires considering invalid dependency graphs", [R+":run,startScheduler", "internal/runbook/runbook.go:Run"])
add("Run terminates when no task fails",
 "If no Start or Handle fails, then every schedule is finite and ends with Run having returned nil: the goroutines and channels never deadlock.",
 "every parsed runbook, every interleaving",
 "deadlock freedom quantifies over all schedules", [R+":run,startScheduler,startTargets,startTargetGoroutine"])
add("Run terminates when a task fails",
 "If some Handle fails, every schedule is still finite and ends with Run having returned an error.",
 "every parsed runbook, every interleaving, every set of failing tasks",
 "deadlock freedom quantifies over all schedules and failure points", [R+":run,startTargetGoroutine,startTargets"])
add("Run reports failure faithfully",
 "Run's returned error is an error returned by some Handle or Start; if any Handle whose end is observed returned an error, Run does not return nil; a task whose dependency failed is never executed.",
 "every runbook, interleaving and outcome",
 "interleavings", [R+":run"])
add("Runner channels never overflow",
 "In every reachable state the ready, ended and done channels hold at most (sum of concurrency limits) messages, half of their capacity, so no send on them ever blocks.",
 "every parsed runbook, every interleaving and outcome",
 "interleavings", [R+":newRunner"])
add("Clean shutdown",
 "When Run returns after all targets started, every started target has been stopped exactly once, after its last Handle returned, and no task is in progress or will be started.",
 "every runbook, interleaving and outcome",
 "interleavings", [R+":run,startTargetGoroutine"])
add("A target that fails to start prevents execution",
 "If some target's Start fails, Run returns that error and no task is executed.",
 "every runbook, every map order of targets, every interleaving",
 "interleavings and map order", [R+":startTargets,run"])
# ---- sh --------------------------------------------------------------
E="internal/runbook/sh/env.go"
add("Env.Apply has getenv semantics",
 "For every variable k, looking k up in Env.Apply(environ) gives Set[k] when k is set, otherwise the lookup in environ when k passes the filter (member of Allow when Allow is non-empty, else non-member of Deny), otherwise nothing.",
 "every Env (with Set keys non-empty and free of '='), every environ",
 "unbounded environments and filters", [E+":Apply"])
add("Env.Apply leaks nothing and keeps order",
 "Every entry of Apply(environ) is either a Set entry or an unchanged entry of environ whose key passes the filter and is not Set; surviving entries keep their relative order and each Set key contributes at least one entry.",
 "every Env and environ, every map iteration order",
 "unbounded inputs", [E+":Apply"])
add("Env.Apply is idempotent",
 "Applying an Env twice gives the same environment as applying it once.",
 "every Env and environ", "unbounded inputs", [E+":Apply"])
add("Task-level Env cannot resurrect target-level denied variables",
 "The environment of an executed command is task.Env.Apply(target.Env.Apply(os.Environ())): a variable filtered out by the target is present only if the task (or target) sets it explicitly.",
 "every pair of Envs and every environ", "unbounded inputs", [E+":Apply","internal/runbook/sh/exec.go:exec","internal/runbook/sh/sh.go:Start"])
add("Command validation is exact",
 "Exec.Check accepts iff Args is non-empty and Args[0] contains no '/' or begins with '/', './' or '../'; an accepted Exec never indexes out of range when executed.",
 "every Args", "unbounded strings", ["internal/runbook/sh/exec.go:Check,validateArg0,exec"])
# ---- demo ------------------------------------------------------------
add("Demo rot13 and rev are commuting involutions",
 "On every target string, running rev twice or rot13 twice restores the string, and rev and rot13 in either order give the same result (which is what makes the example runbooks order independent).",
 "every valid UTF-8 target string (a runbook is JSON, so its strings are valid UTF-8)", "all strings", ["internal/runbook/demo/tasks.go:munge","internal/taskset/demo/rev.go","internal/taskset/demo/rot13.go"])
add("Sleep sleeps at least a second",
 "After Check, executing a demo sleep task pauses for max(1, Seconds) seconds.",
 "every int64 Seconds", "the whole int64 range", ["internal/runbook/demo/tasks.go:Sleep"])
# ---- runbook parser --------------------------------------------------
PR="internal/runbook/parser/parser.go"
add("Parsed runbooks are referentially sound",
 "If Parse succeeds, every task's Target is the id of a parsed target (the text before the first '/' of the source), its config was created and checked by that target, and every target's ConcurrencyLimit is >= 1.",
 "every decoded runbook, every map iteration order", "unbounded inputs", [PR+":loadTargets,loadTasks"])
add("Parse fails cleanly",
 "Parse either returns an error and no runbook or a runbook with exactly the source's target and task ids; it fails iff some target class is unknown, some config or Analyze/Check is rejected, or some task's target or class is unknown. It never panics.",
 "every decoded runbook", "unbounded inputs", [PR+":Parse,loadTargets,loadTasks"])
add("Parse does not depend on map order",
 "Success of Parse and the resulting runbook do not depend on the iteration order of the decoded maps.",
 "every decoded runbook and pair of orders", "Go randomises map order", [PR+":loadTargets,loadTasks"])
# ---- ddl -------------------------------------------------------------
add("quoteName produces exactly one SQL identifier",
 "For every name s, a SQL lexer reading quoteName(s) followed by any text not starting with a double quote yields the identifier s and leaves exactly that text; distinct names have distinct quotations.",
 "every byte string", "injection safety is a for-all-strings claim", ["internal/ddl/util.go:quoteName"])
add("Generated table/index/trigger SQL confines names",
 "In the SQL from Table.ToSQL, Index.ToSQL and Trigger.ToSQL each table, column, index and trigger name occupies exactly one quoted-identifier token at its grammatical place, whatever bytes it contains.",
 "every Table, Index, Trigger", "injection safety", ["internal/ddl/table.go:ToSQL","internal/ddl/index.go:ToSQL","internal/ddl/trigger.go:ToSQL"])
add("Function bodies survive dollar quoting",
 "The body a SQL lexer reads back from Function.ToSQL's dollar-quoted string is newline + Definition.",
 "every Function", "all strings", ["internal/ddl/function.go:ToSQL"])
add("Trigger.ToSQL preserves the trigger's events",
 "The CREATE TRIGGER statement produced by Trigger.ToSQL mentions exactly the events (INSERT, UPDATE, DELETE, TRUNCATE) of the trigger, and parsing it back with ParseTrigger yields the trigger.",
 "every Trigger", "all field combinations", ["internal/ddl/trigger.go:ToSQL","internal/ddl/trigger_parser.go:ParseTrigger"])
add("ParseCheck accepts exactly its grammar",
 "ParseCheck(data) succeeds iff data is: spaces, CHECK (any case), spaces, '(', any bytes, ')', optionally a deferrability clause, spaces, as in check_parser.rl; it terminates and never panics.",
 "every byte string", "infinitely many strings", ["internal/ddl/check_parser.go:ParseCheck","internal/ddl/check_parser.rl"])
add("ParseCheck extracts the expression and flags",
 "On success Expression is the whitespace-trimmed text between the opening parenthesis and the last ')' of the input, and Deferrable/InitiallyDeferred reflect the trailing clause.",
 "every byte string", "infinitely many strings", ["internal/ddl/check_parser.go:ParseCheck","internal/ddl/check.go"])
add("ParseIndex accepts exactly its grammar and extracts its fields",
 "ParseIndex(data) succeeds iff data matches the CREATE INDEX grammar of index_parser.rl, and then Name, Table, Unique, Using, Keys (columns, expressions, operator classes in order) and Where are the corresponding pieces of the text.",
 "every byte string", "infinitely many strings", ["internal/ddl/index_parser.go:ParseIndex","internal/ddl/index_parser.rl","internal/ddl/index.go"])
add("ParseForeignKey accepts exactly its grammar and extracts its fields",
 "ParseForeignKey(data) succeeds iff data matches the FOREIGN KEY grammar of foreign_key_parser.rl, and then every field of the result is the corresponding piece of the text (normalised).",
 "every byte string", "infinitely many strings", ["internal/ddl/foreign_key_parser.go:ParseForeignKey","internal/ddl/foreign_key_parser.rl","internal/ddl/foreign_key.go"])
add("ParseTrigger accepts exactly its grammar and extracts its fields",
 "ParseTrigger(data) succeeds iff data matches the CREATE TRIGGER grammar of trigger_parser.rl, and then every field of the result is the corresponding piece of the text.",
 "every byte string", "infinitely many strings", ["internal/ddl/trigger_parser.go:ParseTrigger","internal/ddl/trigger_parser.rl","internal/ddl/trigger.go"])
add("Parsers never panic",
 "ParseCheck, ParseIndex, ParseForeignKey and ParseTrigger return normally on every input: no slice or index is out of range (in particular an operator class is only recorded when a key exists, and the check marks are ordered).",
 "every byte string", "infinitely many strings", ["internal/ddl/index.go:setOpClass","internal/ddl/check_parser.go"])
add("Definitions round-trip through the parsers",
 "Rendering any foreign key, index or trigger description (plain identifiers) the way PostgreSQL's catalog functions do and parsing the text gives back the description.",
 "every description with plain identifiers", "unbounded lists and names", ["internal/ddl/foreign_key_parser.go","internal/ddl/index_parser.go","internal/ddl/trigger_parser.go"])
add("Keywords are case-insensitive, spacing is free",
 "Changing the letter case of keywords or the amount/kind of whitespace between tokens does not change what ParseForeignKey returns.",
 "every foreign key text, every re-spelling", "unbounded", ["internal/ddl/foreign_key_parser.go"])
add("parseError.Error is total and points at the error",
 "Formatting a parse error terminates, never slices out of range, and shows the line containing the offending position with a caret under that position.",
 "every state number and data string", "unbounded", ["internal/ddl/parser_utils.go:Error"])
add("TableStorageParameters.Set updates exactly the named parameter",
 "Set(key, value) with a known key and a well-formed value stores exactly that value in the field for key and leaves all other fields unchanged, and fails on ill-formed values; unknown keys change nothing.",
 "every key and value", "all strings", ["internal/ddl/table_storage_parameters.go:Set"])
add("Storage parameters PostgreSQL accepts are inspectable",
 "ListTableStorageParameters succeeds for every reloptions array PostgreSQL can hold, and returns each option's value.",
 "every reloptions array", "all values PostgreSQL accepts", ["internal/pg/table_storage_parameters.go","internal/ddl/table_storage_parameters.go"])
# ---- pg --------------------------------------------------------------
G="internal/pg/pg.go"
add("Explicit connection options win over the environment",
 "Each of host, port, user, password and database used to connect is the explicit option when given and the libpq environment value otherwise.",
 "every Options and environment", "all combinations", [G+":New,firstOfString,firstOfUint16"])
add("TLS policy",
 "A password without explicit sslmode forces verify-full; require and verify-full never permit a plaintext connection; verify-full verifies the host name; an unknown sslmode is an error and no connection is attempted.",
 "every Options and environment", "all combinations", [G+":New,applySSLMode"])
add("Connect retries stop at the first success",
 "pg.New makes connection attempts until the first success, at most ConnectRetries+1; it succeeds iff some attempt succeeds and leaves exactly one open connection.",
 "every retry count and every pattern of attempt outcomes", "all outcome patterns", [G+":New"])
add("Retry delays",
 "The delay before each retry is positive and doubles from one retry to the next.",
 "every retry count", "all retry counts", [G+":New"])
add("Catalog listings are complete or fail",
 "Each List* function returns either an error or exactly one description per row the server sent for the query, in order; a connection failure while reading rows is reported.",
 "every row stream and failure point", "all failure points", ["internal/pg/check.go","internal/pg/columns.go","internal/pg/foreign_key.go","internal/pg/functions.go","internal/pg/index.go","internal/pg/schemas.go","internal/pg/sequence.go","internal/pg/tables.go","internal/pg/triggers.go"])
add("InspectDatabase is all-or-nothing and complete",
 "InspectDatabase returns an error iff one of its listings fails, and otherwise a database holding every listed schema, function, sequence and table, each table with its own columns, checks, foreign keys and storage parameters, and all indexes and triggers in table order.",
 "every catalog content and failure point", "all catalogs", ["internal/pg/inspect.go:InspectDatabase,inspectTables,inspectTable"])
add("Sort options sort",
 "With SortColumns each table's columns are ordered by name, with SortChecks each table's checks are ordered by expression, with SortIndexes all indexes are ordered by schema, table, name; nothing is lost or duplicated.",
 "every catalog content", "all catalogs", ["internal/pg/inspect.go:inspectTables,inspectTable"])
# ---- taskset ---------------------------------------------------------
B="internal/taskset/base/base.go"
add("RunTasks delivers exactly one result per task",
 "For every sequence of batches and every interleaving, each submitted task is run exactly once, at most one result per submission reaches the results channel, and no result is invented.",
 "every batch sequence and interleaving", "interleavings", [B+":RunTasks"])
add("RunTasks shuts down",
 "After the queue is closed and all results have been received, the results channel is closed and the relay goroutine ends.",
 "every batch sequence and interleaving", "interleavings", [B+":RunTasks"])
add("RunTasks respects maxConcurrency",
 "At most maxConcurrency tasks run at the same time.",
 "every batch sequence and interleaving", "interleavings", [B+":RunTasks"])
add("Task sets load soundly",
 "taskset Parse succeeds only if every target type and every task's target exist and then maps each task id to the last definition with that id, created by the named target (or the type's default target); Dependencies lists After (prefixed task:) then Require in order.",
 "every decoded task set", "unbounded inputs", ["internal/taskset/parser/parser.go:loadDefaultTargets,loadExplicitTargets,loadTasks", B+":Dependencies"])
# ---- commands --------------------------------------------------------
add("runbook list prints every task once, sorted and aligned",
 "pgutil runbook list prints the header and then exactly one line per task, in ascending byte order of task id, with the target column at the same offset on every line (ASCII ids).",
 "every runbook", "unbounded", ["internal/commands/runbook_list.go:Run","internal/runbook/runbook.go:List"])
add("runbook dot -O never destroys its input",
 "With -O the output file is the input name with its extension replaced by .dot and differs from the input file.",
 "every file name", "all file names", ["internal/commands/runbook_dot.go:Run"])
add("Verbosity selects log levels monotonically",
 "With v verbose and q quiet flags a message of a level is shown iff 1+v-q reaches the level's threshold (error always, warn 1, info 2, debug 3); with a debug log every message is also written there.",
 "every v, q and message level", "all combinations", ["internal/cli/cli.go:Parse","internal/logger/logger.go:New"])
add("Failed commands leave the output file alone",
 "If runbook dot, runbook eval or inspect fails, a pre-existing --output file keeps its contents.",
 "every command, file system and failure", "all failures", ["internal/commands/runbook_dot.go:Run","internal/commands/runbook_eval.go:Run","internal/commands/inspect.go:Run"])
add("Describe functions find what exists and report what does not",
 "DescribeFunction describes the function of that schema and name and DescribeTrigger the trigger of that table and name; each says not found iff the database has none; the result is determined by the database.",
 "every database content, every schema, table and name", "all databases", ["internal/pg/functions.go:DescribeFunction","internal/pg/triggers.go:DescribeTrigger"])
add("The search path setting is read as a list of schema names",
 "ListParameters reports as SearchPath exactly the schema names of the server's search_path setting, in order.",
 "every search_path setting", "all strings", ["internal/pg/parameters.go:ListParameters"])
add("Task sets keep the dependencies written in the file",
 "Every task of a task set loaded from a file reports as Dependencies the tasks in its after attribute (prefixed task:) and then the resources in its requires attribute.",
 "every task set file", "unbounded inputs", ["internal/taskset/parser/parser.go:loadTasks", B+":Task,Dependencies"])
add("Standard output holds the result and nothing else",
 "At every verbosity, what a command writes to standard output is its result, without log messages, so that it can be piped or redirected.",
 "every command, verbosity and debug log", "all combinations", ["internal/cli/cli.go:Parse","internal/logger/logger.go:New"])
add("Commands report success only if the result was written",
 "If runbook dot, runbook eval or inspect succeeds, the whole result has been written to standard output or to the output file.",
 "every command, file system and write failure", "all failures", ["internal/runbook/runbook.go:Dot,Eval","internal/ddl/ddl.go:Write","internal/commands/inspect.go:Run"])
# ---- listings against the database ------------------------------------
add("ListTables lists every table",
 "Unless the query fails, ListTables returns each ordinary or partitioned table outside the system schemas exactly once, with its schema, name, owner and comment, ordered by schema and name.",
 "every database content and search path", "all databases", ["internal/pg/tables.go:ListTables"])
add("ListColumns lists every column",
 "Unless the query fails, ListColumns returns each column of the table that has not been dropped exactly once, in the order of the table, with its type, nullability, default and comment.",
 "every database content and table", "all databases", ["internal/pg/columns.go:ListColumns"])
add("ListSequences lists every sequence",
 "Unless a query fails, ListSequences returns, on servers of every version, each sequence outside the system schemas exactly once, with its parameters and the column that owns it, ordered by schema and name.",
 "every database content, search path and server version", "all databases", ["internal/pg/sequence.go:ListSequences"])
add("ListFunctions lists every function",
 "Unless the query fails, ListFunctions returns each function outside the system schemas exactly once, with its owner, comment, language, result type and body, ordered by schema and name.",
 "every database content and search path", "all databases", ["internal/pg/functions.go:ListFunctions"])
add("ListTriggers lists every user trigger and agrees with DescribeTrigger",
 "Unless the query fails or a definition is not understood, ListTriggers returns each trigger of the table that is not internal exactly once, ordered by name, and DescribeTrigger of each listed name returns the same description.",
 "every database content and table", "all databases", ["internal/pg/triggers.go:ListTriggers,DescribeTrigger"])
add("Constraint and index listings are exact",
 "Unless the query fails or a definition is not understood, ListChecks, ListForeignKeys and ListIndexes return each check constraint, foreign key and index of the table exactly once: checks ordered by name, foreign keys by referenced table and columns, indexes with primary keys first, then unique ones, then by name.",
 "every database content and table", "all databases", ["internal/pg/check.go:ListChecks","internal/pg/foreign_key.go:ListForeignKeys","internal/pg/index.go:ListIndexes"])
add("ListSchemas lists every user schema",
 "Unless the query fails, ListSchemas returns each schema outside the system's exactly once, with its owner and comment, ordered by name.",
 "every database content", "all databases", ["internal/pg/schemas.go:ListSchemas"])
add("Storage parameters are those of the table",
 "Unless the query fails or a value is not understood, ListTableStorageParameters returns each known storage parameter set on the table with the value its text denotes, and leaves every other unset.",
 "every database content and table", "all databases", ["internal/pg/table_storage_parameters.go:ListTableStorageParameters","internal/ddl/table_storage_parameters.go:Set"])
add("Inspection describes the database",
 "Over a connection that does not break off, InspectDatabase either returns a description of the database or an error. The description holds each user schema, each table and function the search path finds and each such sequence that a column owns exactly once; every table has exactly its own columns, checks, foreign keys and storage parameters, and the indexes and non-internal triggers are exactly those of these tables, also when sorting was asked for. It fails only if reading a setting or a query fails or a definition or option value is not understood, and in the latter case it always fails.",
 "every database content, search path, server answer and sort option", "all databases", ["internal/pg/inspect.go:InspectDatabase"])
# ---- schema files ------------------------------------------------------
add("A written schema file is read back as the same database",
 "ParseBytes of what Database.Write produced returns a database equal to the one written.",
 "every database description", "all databases", ["internal/ddl/ddl.go:Write,ParseBytes","internal/ddl/database.go","internal/ddl/table.go"])
add("Schema files are read strictly",
 "ParseBytes succeeds exactly on documents in which every attribute and every block is one the structs declare and has a value of the declared type, attributes occur once, mandatory attributes are present, blocks carry as many labels as declared and single blocks occur at most once, at every depth. So no misspelt or misplaced setting is ever ignored.",
 "every document", "unbounded documents", ["internal/ddl/ddl.go:ParseBytes","internal/ddl/database.go","internal/ddl/table.go","internal/ddl/index.go","internal/ddl/trigger.go"])
add("Rewriting a schema file loses nothing",
 "If a document can be read then the document written from the result has the same blocks in the same order with the same labels (in Unicode normal form), every attribute that was given with the same value converted to the type of its field, and zero values for the others; and reading and writing that once more changes nothing.",
 "every document", "unbounded documents", ["internal/ddl/ddl.go:ParseBytes,Write"])
add("Written schema files have the documented form",
 "Database.Write writes one block per object, in the order parameters, schemas, functions, sequences, tables, indexes, triggers, with the object's identity as labels and each of its properties under its own name; storage parameters under PostgreSQL's names, unset ones not at all.",
 "every database description", "all databases", ["internal/ddl/ddl.go:Write","internal/ddl/database.go","internal/ddl/table_storage_parameters.go"])
# ---- runbook files, run ------------------------------------------------
add("A successful run has done everything the file says",
 "If runbook.Run returns nil, every task written in the file was handled exactly once, on the target it is written for, without an error, and every task it is written to come after had been handled without an error before it was started.",
 "every runbook file, schedule and outcome of commands, SQL and connections", "all files and interleavings", ["internal/runbook/runbook.go:Run","internal/runbook/runner.go","internal/runbook/parser/parser.go:Parse"])
add("Tasks do what their config says, once",
 "Every task that was handled has sent exactly its SQL over its target's connection, or has run exactly its command with its arguments in the directory of the runbook file and in the process environment filtered and extended by target and task, once; demo tasks have done neither. A task whose effect failed is reported as failed and only then. Whatever is done in the name of a task is done after everything done in the name of the tasks it comes after, all of which succeeded.",
 "every runbook file, schedule, environment and outcome", "all files and interleavings", ["internal/runbook/runbook.go:Run","internal/runbook/pg/exec.go","internal/runbook/sh/exec.go","internal/runbook/sh/env.go"])
add("A failed run has a reason in the file or in the world",
 "If runbook.Run returns an error once the file was accepted, a database could not be connected to, or a command or SQL statement of one of its tasks failed, or one of its tasks is a fail task, and the error names it. A file with a fail task never runs successfully. A file that is not accepted is not executed at all, and the program does not panic.",
 "every runbook file, schedule and outcome", "all files and interleavings", ["internal/runbook/runbook.go:Run","internal/runbook/runner.go","internal/runbook/demo/tasks.go:Fail"])
add("Running a file comes to an end",
 "Every execution of runbook.Run on a file makes at most 10 steps per task, 3 per target and 9 more, and when no goroutine can make a step Run has returned.",
 "every runbook file, schedule and outcome", "unbounded schedules", ["internal/runbook/runbook.go:Run","internal/runbook/runner.go"])
add("The output of a scripted runbook does not depend on the schedule",
 "In a runbook of demo targets whose dependencies name its tasks without a cycle and order all echo tasks among each other and every rev and rot13 task relative to each echo task of its target (tasks after a fail task aside): at every moment of every run, standard output holds the lines of the echo tasks that have ended, which are the first ones of that order; each line is the target's text reversed and rotated once for each rev and rot13 task of the target that the echo task comes after. After a successful run it holds all lines.",
 "every such runbook, schedule and moment", "all interleavings", ["internal/runbook/runbook.go:Run","internal/runbook/demo/tasks.go","internal/runbook/demo/demo.go:Handle"])
add("Runbooks of demo tasks succeed unless told to fail",
 "Every run of a runbook of demo targets with at least one task, whose dependencies name its tasks without a cycle, ends with runbook.Run returning: nil if the file has no fail task, otherwise the error of one of its fail tasks.",
 "every such runbook and schedule", "all interleavings", ["internal/runbook/runbook.go:Run","internal/runbook/demo/tasks.go","internal/runbook/runner.go"])
add("A run makes the connections the file asks for and no others",
 "In every run of a runbook every attempt to connect to a server is made for a pg target of the file, with the host, port, user, password and database written for it and those of the environment where nothing is written, over the transports its sslmode permits (verify-full if none is written and there is a password); for each target at most connect_retries + 1 times. SQL is sent only for a target whose last attempt to connect succeeded.",
 "every runbook file, environment, schedule and outcome", "all files and interleavings", ["internal/runbook/pg/pg.go:Start,Handle","internal/pg/pg.go:New","internal/runbook/runner.go"])
add("A run closes the connections it opens",
 "When runbook.Run has returned, every connection to a server that was opened has been closed, once; nothing is closed that was not opened.",
 "every runbook file, schedule and outcome", "all files and interleavings", ["internal/runbook/pg/pg.go:Start,Stop","internal/pg/pg.go:New,Close","internal/runbook/runner.go"])
add("A runbook file is read strictly and as it is written",
 "Let a file evaluate to a JSON value. It is accepted exactly if every member of every object in it is a setting (in any spelling with upper and lower case letters) with a value of the right kind, every target is of a known class, and every task is for a target of the file and of a class that target offers, with an acceptable config; otherwise it is rejected. The runbook read has exactly the targets and tasks listed, each with the settings written and the documented defaults where nothing is written.",
 "every JSON value a file may evaluate to", "all documents, spellings and combinations of settings", ["internal/runbook/parser/parser.go:Parse,loadTargets,loadTasks","internal/runbook/pg/pg.go:Target","internal/runbook/sh/sh.go:Target","internal/runbook/sh/env.go:Env","internal/runbook/demo/tasks.go:Sleep"])
add("What a file says is what a successful run has done",
 "For a file whose dependencies name tasks of the file without a cycle (and that has no setting written twice): if runbook.Run returns nil then every task the file lists was handled exactly once, on the target written for it, and successfully; in its name exactly that was done, once, which its config and that of its target say; and every task in its \"after\", but for one named \"\", had ended successfully, with all its effects, before it was started. A file that is not valid is not run: no target is started.",
 "every such JSON value, environment, schedule and outcome", "all documents and interleavings", ["internal/runbook/runbook.go:Run","internal/runbook/parser/parser.go","internal/runbook/runner.go"])
# ---- the program -------------------------------------------------------
add("What pgutil inspect leaves describes the database",
 "When pgutil inspect exits with status 0 it has connected once, to the server its flags and the environment name, and closed the connection; the output file (standard output if none is named) holds the text of a schema file, complete and with nothing else in it, and no other file has changed; ParseBytes reads that text as a description of the database: every schema, visible function, owned sequence, visible table with its columns, checks, foreign keys and storage parameters, every index and every trigger, once, as the catalogs have it. When it does not, the status is 1, for one of: no connection, a failed query, a definition or option that is not understood, a file that cannot be opened, a write that fails; and only in the last case is a file changed, and no other than the output file.",
 "every database, flags, environment and outcome of connection, queries and writes", "all databases and failures", ["main.go:main","internal/commands/inspect.go:Run","internal/pg/pg.go:New","internal/pg/inspect.go:InspectDatabase","internal/ddl/ddl.go:Write,ParseBytes"])
add("The exit status tells whether the command has done its job",
 "pgutil exits with status 0 only if the command did what it was asked for: ping has reached the server and printed its version; inspect, runbook dot, runbook eval and runbook list have written their whole result; version has printed the version and, with --long, every module; runbook run has carried out every task of the file. Otherwise it exits with status 1 and the last thing it printed is the error.",
 "every command, its arguments, file system, server and schedule", "all inputs and failures", ["main.go:main","internal/cli/cli.go:Parse","internal/commands"])
# ---- demo targets of task sets ------------------------------------------
add("The tasks of a demo target of a task set take effect one at a time",
 "Whatever batches are submitted to a started demo target, and however its goroutines are scheduled: at every moment its text and its output are those of executing the tasks that have ended, and perhaps some that have not, one after the other, in an order to whose end later tasks are added. It always comes to rest; then every task has been answered once, with an error exactly if it is a fail task or not a demo task, and the text has been reversed and rotated once for each rev and rot13 task submitted.",
 "every text, sequence of batches, maxConcurrency and schedule", "all interleavings", ["internal/taskset/demo/demo.go:Start","internal/taskset/demo/echo.go:exec","internal/taskset/demo/rev.go:exec","internal/taskset/demo/rot13.go:exec","internal/taskset/base/base.go:RunTasks"])
add("Every target of a task set that was accepted can be started",
 "If a task set file is accepted then starting any of its targets returns the two channels.",
 "every file and target", "all numbers", ["internal/taskset/demo/demo.go:Start","internal/taskset/base/base.go:RunTasks","internal/taskset/parser/parser.go:Parse"])
add("A sleep task of a task set pauses",
 "A sleep task in an accepted task set file pauses for the number of seconds it is given, and for at least one second.",
 "every file and sleep task", "all files and numbers", ["internal/taskset/demo/sleep.go:exec,Ready","internal/taskset/parser/parser.go:Parse"])
add("Command lines mean what they say",
"A command line made of the name of a command and its options - each written --name value, --name=value, -x value, -xvalue, --name or -x, letters joined or not, in any order, those of every command also before the name; run may be left out after runbook - runs that command with exactly the settings written and the defaults for the others (color auto), at verbosity 1 plus the number of -v minus the number of -q. If a value is not acceptable (an unknown sslmode, splines or color, a port that is no 16 bit number, a run book that is not there), a setting is given twice or the run book is missing, it is a usage error: status 1, the message, and nothing else happens. So it is if there is no command or an unknown one, if an option is not one of the command (or, before the name, not one of every command), or if a word follows that the command has no use for, whatever comes after it.",
"every command, every list of its options and every way to write them, every file system",
"The options, their order and the ways to write them are unbounded in number; tests cover a few lines.",
["internal/cli/cli.go: Parse, addCommand, addSubCommand","internal/cli/register.go: RegisterCommands","internal/cli/ping.go: registerPing","internal/cli/inspect.go: registerInspect","internal/cli/runbook.go: registerRunbook","internal/cli/version.go: registerVersion","main.go: main"])

add("The drawing of a runbook shows the runbook",
"runbook dot draws a directed graph with one box per target of the runbook, labelled with the target's id, one node per task, inside the box of the task's target and nowhere else, and one arrow into a task from each task listed in its \"after\", as often as it is listed; nothing else is drawn, whatever order the maps are iterated in. The splines setting appears if and only if one was given.",
"every runbook file, splines setting and order of iteration of the maps",
"Runbooks and iteration orders are unbounded in number; tests look at a few.",
["internal/runbook/runbook.go: Dot","internal/commands/runbook_dot.go: Run"])

add("What runbook eval prints is JSON that shows the file",
"What runbook eval prints for a runbook file (without colours) is one JSON text (RFC 8259) in UTF-8; it denotes one value, the value of the file: the same strings, constants, lists and members, each number as the same 64 bit floating point number, the members of each object in order of their names, the one given last if a name is given twice. Evaluating what was printed prints the same again. With colours the same text is printed, with colour sequences put in. Nothing is printed exactly if a number cannot be represented.",
"every JSON value a file evaluates to, with or without colours",
"Documents are unbounded in size, depth and characters; tests look at a few.",
["internal/runbook/runbook.go: Eval","internal/commands/runbook_eval.go: Run"])
add("The color setting decides whether runbook eval prints colours",
"With --color true (or auto, if the output is a terminal) runbook eval prints in colours; otherwise what it prints has no escape sequences.",
"every file, color setting and kind of standard output",
"All combinations of documents and terminals; the unit tests never run with a terminal.",
["internal/commands/runbook_eval.go: Run","internal/runbook/runbook.go: Eval"])
add("What runbook eval prints is the same runbook",
"If a file is a runbook, what runbook eval prints for it (without colours) is a runbook with the same targets and the same tasks under the same ids: the same settings, the same dependencies in the same order, and the same variables to set. If a file is no runbook, neither is what eval prints for it.",
"every runbook file",
"Files are unbounded in size; tests look at a few.",
["internal/runbook/runbook.go: Eval","internal/runbook/parser/parser.go: Parse"])

add("A busy target does not hold up the others",
"As long as nothing has failed, a task of a runbook whose dependencies have all ended, and whose target has nothing to do, is started without any other task having to end first, whatever the tasks of other targets are doing and however long they take.",
"every runbook and every moment of every run",
"All interleavings of the goroutines; a test sees one and cannot see that a task could not have been started.",
["internal/runbook/runner.go: startTargets, startScheduler, run","internal/runbook/scheduler/scheduler.go: Next"])
add("A target works on as many tasks at once as its concurrency says",
"If a target has concurrency n, then n of its tasks can be in progress at the same time: as long as nothing has failed and fewer are, another one of its tasks that could be started is started without any task having to end first.",
"every runbook and every moment of every run",
"All interleavings of the goroutines.",
["internal/runbook/runner.go: startTargets","internal/runbook/scheduler/scheduler.go: New, Next","internal/runbook/types/types.go: Target"])

add("The examples that come with pgutil do what they show, in every run",
"Every run of examples/demo.jsonnet ends without an error and has then printed the three decrypted messages, each once and whole, in some order. examples/words.jsonnet sends an INSERT only after init.sql and the first listing, both with success; a run that succeeds has done everything in it once, in the order its labels suggest. examples/scripts.jsonnet runs its script at most once, in its directory, with FOO=42 and BAR=baz and otherwise pgutil's own environment. A run of examples/concurrent.jsonnet that succeeds has run all of its twenty commands once, each after those it is to come after. Every run of examples/messages.jsonnet ends without an error and has then logged its three messages, in order.",
"every run of each of the files: every schedule, order of iteration of the maps, environment and outcome of the commands and statements",
"All interleavings of up to nine targets and twenty tasks; no test runs the examples.",
["examples/demo.jsonnet","examples/words.jsonnet","examples/init.sql","examples/scripts.jsonnet","examples/concurrent.jsonnet","examples/messages.jsonnet","internal/runbook/runbook.go: Run"])

add("Nothing but a failing task or connection keeps a run from succeeding",
"Run a file with tasks, none of which is a fail task, and with connections that are properly set up. As long as nothing has failed, whatever has happened so far, the run can go on to success: if from then on every connection is accepted and every statement and command succeeds, it returns without an error, and it never gets stuck before that.",
"every runbook file and every reachable moment of every run in which nothing has failed",
"All interleavings of the goroutines, from every reachable state; a test sees a few complete runs.",
["internal/runbook/runner.go: Run, startTargets, startScheduler, run","internal/runbook/runbook.go: Run"])
add("The message of a task appears when the task begins, once, and in order",
"Only messages written in the file are logged, at most once for each task. A task that has ended, or has sent its statement or run its command, has had its message logged before. The message of a task is logged only when everything it comes after, directly or not, has ended with success, so the messages never appear against the order of the dependencies. A run that returned without an error has logged exactly the messages in the file.",
"every runbook file and every moment of every run",
"All interleavings of the goroutines; no test looks at the log.",
["internal/runbook/runner.go: startTargets, run","internal/runbook/types/types.go: Task","internal/runbook/parser/parser.go: Parse"])
add("Names are written into queries unharmed",
"Identifier makes of any list of names a text that SQL reads as exactly these names with dots between them, whatever quotes, dots or other bytes they contain, and different lists give different texts. The query that is sent to servers before version 10 for the values of a sequence asks for that sequence and for nothing else.",
"every list of names, every text that follows, every schema and sequence name",
"Names are arbitrary byte strings; a test has a few of them.",
["internal/pg/util.go: Identifier","internal/pg/sequence.go: listSequencesLegacy"])
add("The SQL of a description creates what it describes",
"Running the SQL of a table creates a table in its schema with its name, its columns in their order, each with its name, type, default and whether it may be NULL, its checks and its foreign keys. Running the SQL of a function creates a function in its schema with its name, what it returns, its language and its body. Running the SQL of an index creates that index on its columns in their order, and a primary key if it is one. Running the SQL of a trigger creates a trigger on its table, for its events and at its time, that executes its function.",
"every description of a table, function, index or trigger whose types, defaults and expressions are SQL",
"Names, types and bodies are arbitrary; whether the text means what was meant depends on how SQL reads it, which the tests do not ask.",
["internal/ddl/table.go: Table.ToSQL","internal/ddl/function.go: Function.ToSQL","internal/ddl/index.go: Index.ToSQL","internal/ddl/trigger.go: Trigger.ToSQL"])
add("The text of a schema file says what the database is",
"The file that is written for a database is a text in HCL syntax from which exactly the document of the database can be read again, whatever quotes, backslashes, template signs or unprintable characters its names, comments and definitions contain, and so the database itself, with every text in Unicode normal form. Two databases with the same file are the same. For the database of the test the file is testdata/expected.hcl, byte for byte.",
"every database description whose texts are UTF-8 and whose numbers are int64",
"Texts are arbitrary; the test writes one database, in which nothing but a newline has to be escaped.",
["internal/ddl/ddl.go: ParseBytes, ParseFile, Database.Write","internal/ddl/testdata/expected.hcl","testdata/expected.hcl"])

add("A task set file means what is written in it",
"A task set file is accepted exactly if it consists of target and task blocks with a type and a name each, of registered types, whose attributes are the ones of the type (a demo target: string and, optionally, max_concurrency; a pg task: sql; a sh task: args; every task, optionally: target, after, provides, requires), each at most once and with a value of the right type, and every task's target exists. The targets and tasks are then the ones described, with the values in the file; of several blocks with the same name the last one counts. Reading never panics.",
"every document and every set of registered target types",
"Documents are arbitrary; the tests read three files.",
["internal/taskset/parser/parser.go: Parser.Parse, taskSet, target, task","internal/taskset/demo/demo.go: Target","internal/taskset/pg/pg.go: Task","internal/taskset/sh/sh.go: Task","internal/taskset/testdata/demo.hcl","internal/taskset/testdata/measurements.hcl"])
add("A task of a task set that is reported as successful has been carried out",
"When a pg or sh target of a task set reports a task as successful, its statement has been sent to the database or its command has been run.",
"every task set and every task in it",
"Every file and task; the test checks only that no error is reported.",
["internal/taskset/pg/pg.go: Task.exec, Target.Start","internal/taskset/sh/sh.go: Task.exec, Target.Start"])

add("Commands are run in the directory of the runbook",
"Every command of a shell task is run in the directory of the runbook file, whatever the path by which the file was named (relative, with . or .. or doubled slashes) and whatever directory pgutil was started in. Two ways of naming the same file give the same directory.",
"every path, every starting directory, every runbook file and every moment of every run",
"Paths are arbitrary texts; the tests name files in one way from one directory.",
["internal/runbook/runbook.go: newParser, Run, Eval, List, Dot","internal/runbook/sh/sh.go: TargetFactory.NewTarget","internal/runbook/sh/exec.go: exec"])
add("A shell task runs the program it names",
"A command with a slash in its name is the program at that path, seen from the directory of the runbook. Any other command is the first program of this name in the directories of PATH, as the settings of the target and the task leave it, seen from the directory of the runbook. If there is no such program the task fails.",
"every command, every environment and settings, every starting directory and every arrangement of files",
"Which files exist and what PATH contains is arbitrary; the tests run echo.",
["internal/runbook/sh/exec.go: exec, Check","internal/runbook/sh/env.go: Env.Apply","internal/runbook/sh/sh.go: Target.Start"])

add("The PG* variables are obeyed",
"Host, port, user, password and database that are not given as options or in the runbook are those of PGHOST, PGPORT, PGUSER, PGPASSWORD and PGDATABASE. Without an sslmode option, the connection is made as PGSSLMODE says (disable, allow, prefer, require, verify-ca, verify-full; prefer if it is not set), for the host connected to. A PGPORT that is not a port or a PGSSLMODE that is not a mode is an error before anything is connected to.",
"every environment, every set of options, every outcome of the attempts, every runbook file and every moment of every run",
"Environments and options are arbitrary and interact; the tests connect with one environment.",
["internal/pg/pg.go: New, applySSLMode","internal/runbook/pg/pg.go: Target.Start","docker-compose.yml"])

add("Waiting for the results of a task set's tasks puts them in order",
"A client of a demo target that submits tasks in rounds, and receives the results of a round before it submits the next, sees the rounds take effect one after the other: every echo prints the text with all tasks of the earlier rounds done, each once, and the text in the end is that after all of them. No round keeps the client waiting for ever. The three messages of testdata/demo.hcl, sent this way, are printed decrypted.",
"every text, concurrency limit, sequence of rounds and batches, and every schedule of the goroutines",
"All interleavings of the goroutines of each round; the test sees one per run.",
["internal/taskset/demo/demo.go: Target.Start","internal/taskset/demo/echo.go: Echo.exec","internal/taskset/demo/rev.go: Rev.exec","internal/taskset/demo/rot13.go: Rot13.exec","internal/taskset/base/base.go: RunTasks","internal/taskset/taskset_test.go: TestDemoTaskExecution"])

add("Inspecting a database again gives the same file",
"Two runs of inspect with the same sorting flags that succeed, over connections to servers that hold the same database, in sessions with the same search path and time zone, leave the same text, byte for byte; although a server may return rows that ORDER BY does not tell apart in any order, and the options of a table in any order. So a file under version control changes only when the database does.",
"every database, every pair of answers servers may give about it, every combination of sorting flags",
"The order of tied rows is the server's choice and changes with its storage; tests inspect once or twice on one server that happens to choose the same.",
["internal/pg/inspect.go: Inspect","internal/pg/functions.go: listFunctions, ListFunctions","internal/pg/foreign_key.go: listForeignKeys, ListForeignKeys","internal/pg/index.go: ListIndexes","internal/pg/table_storage_parameters.go: ListTableStorageParameters","internal/commands/inspect.go: Inspect"])

add("Messages about names say which names",
"The error with which a set of dependencies is refused says what is wrong with it: its message names either a task and a dependency of it that does not exist, or the tasks of a cycle in order. The message about an illegal command names the command. Whatever bytes the names consist of, the message can be read in one way only, and it is one line without control characters.",
"every set of tasks and dependencies, every command, every name (any bytes)",
"Names are arbitrary bytes; the tests use foo, bar and baz.",
["internal/dag/errors.go: CircularDependencyError.Error, InvalidEdgeError.Error","internal/dag/dependency.go: NewDependencyGraph","internal/runbook/sh/exec.go: validateArg0"])

add("The debug log of a run tells what has been run",
"The lines of the log about a task are, in this order and each at most once: that the scheduler finds it ready, that it is passed on to its target, and whether it ended with an error. No task is carried out before the first two are logged, and what the third says is what happened. When a run is over, unless a target could not be started, every task that was started has its third line, and the error the run ends with is that of the first task the log says ended with one; when a run succeeds, every task has its three lines. The lines about a target say that it is being started and then that it was started, the latter exactly if it was.",
"every set of targets and tasks, every outcome of tasks and starts, every schedule of the goroutines and every moment of the run",
"Lines of several goroutines interleave differently in every run; the tests do not look at the log.",
["internal/runbook/runner.go: run, startScheduler, startTargets","internal/logger/logger.go: New"])

add("A definition that cannot be read is reported with the place",
"When a definition PostgreSQL prints of a check, an index, a foreign key or a trigger cannot be read, the message of the error shows the line and the column of the first byte with which the text ceases to be the beginning of a definition that can be read; or it says that the text ends too early, if it does.",
"every text (any bytes) given to one of the four parsers",
"The place may be anywhere in texts of any length; the tests parse valid definitions only, and try the message on positions of their own.",
["internal/ddl/parser_utils.go: parseError.Error","internal/ddl/check_parser.go: ParseCheck","internal/ddl/index_parser.go: ParseIndex","internal/ddl/foreign_key_parser.go: ParseForeignKey","internal/ddl/trigger_parser.go: ParseTrigger"])

add("A target does its own kind of tasks only",
"In a runbook that is accepted every task is of the kind of its target: SQL for a database, a command for a shell, a demo task for a demo target. A target that is handed a task of another kind (the Handle methods take any) returns an error and does nothing: it prints nothing, sends no statement, runs no command and keeps its settings.",
"every runbook, every target and task of any kinds and settings, every state of the target",
"Kinds and settings combine freely; the tests never hand a task to a target of another kind.",
["internal/runbook/pg/pg.go: Target.Handle, Target.NewTaskConfig","internal/runbook/sh/sh.go: Target.Handle, Target.NewTaskConfig","internal/runbook/demo/demo.go: Target.Handle, Target.NewTaskConfig","internal/runbook/parser/parser.go: Parse"])

add("The debug log tells what is sent to the server",
"Whatever is called over a connection, the debug log tells every statement that is sent, right before it is sent: the line has the text of the statement, and the last line of level info has the values of its arguments. A statement that the log says is being executed is the next one that is sent.",
"every series of calls over a connection, all arguments, all answers of the server",
"Which statements are sent depends on the answers to earlier ones; the tests do not look at the log.",
["internal/pg/pg.go: Exec","internal/pg/inspect.go: InspectDatabase","internal/pg/triggers.go: ListTriggers, DescribeTrigger","internal/pg/functions.go: ListFunctions, DescribeFunction","internal/pg/sequence.go: ListSequences, listSequencesLegacy","internal/pg/parameters.go: ListParameters","internal/pg/version.go: ServerVersion"])

add("Inspecting changes nothing",
"Listing, describing and inspecting send single statements that only read: SHOW, or SELECT without INTO, WITH or a locking clause that calls no functions but those that return a value; whatever the names in the database and in the arguments are made of. Statements that may change the database are sent only by Exec, unchanged, once for each call and in the order of the calls.",
"every series of calls over a connection, all arguments, all answers of the server (any names)",
"One statement is made from names found in the database, which may contain any bytes; the tests inspect one friendly database.",
["internal/pg/pg.go: Exec","internal/pg/inspect.go: InspectDatabase","internal/pg/sequence.go: listSequencesLegacy","internal/pg/util.go: Identifier","internal/pg/tables.go: listTables"])

add("Inspecting asks once and stops at the first failure",
"InspectDatabase asks the server for each part of the database once and in a fixed order: settings, schemas, functions, sequences, tables, and then table by table its columns, checks, foreign keys, options, indexes and triggers. It stops at the first answer that is an error or cannot be used, sends nothing after it and returns its error. If it succeeds, no answer was an error.",
"every series of answers of the server, also of one whose database changes between statements",
"The server may fail at any statement, and the number of statements depends on the database.",
["internal/pg/inspect.go: InspectDatabase, inspectTables, inspectTable","internal/pg/sequence.go: ListSequences, listSequencesLegacy","internal/pg/parameters.go: ListParameters"])

add("An inspection describes the database as it was at one moment",
"What InspectDatabase returns while other sessions change the database describes the database as it was at some moment during the inspection.",
"every history of the database during the inspection",
"The change may come between any two of the statements; the tests inspect a database nobody else uses.",
["internal/pg/inspect.go: InspectDatabase, inspectTables, inspectTable","internal/pg/tables.go: ListTables","internal/pg/columns.go: ListColumns"])

add("The debug log tells how many rows a statement affected",
"When Exec has executed a statement successfully, the debug log tells the number of rows it affected.",
"every statement, every answer of the server",
"Any number, and answers that carry both a number and an error; the tests do not look at the log.",
["internal/pg/pg.go: Exec"])

add("A password shows nowhere but in runbook eval",
"If two runbook files differ only in passwords of targets (none of them empty), runbook list and runbook dot print the same for both or refuse both for the same reason; and whatever a run of the one prints, logs, runs, sends and returns, a run of the other can print, log, run, send and return: the password is used for the connections and for nothing else. What ping and inspect print and write does not depend on PGPASSWORD beyond whether the server accepts it. runbook eval, which shows the file, shows the password.",
"every two files that differ in passwords only, every schedule and outcome of connections, commands and statements; every two environments","non-interference is about pairs of all executions",
["internal/runbook/pg/pg.go: Target, Start","internal/pg/pg.go: New","internal/runbook/parser/parser.go: Parse","internal/runbook/runbook.go: Run, List, Dot, Eval","internal/commands/ping.go","internal/commands/inspect.go"])

add("A setting that is written twice counts once",
"If an accepted runbook file gives a setting twice (in two spellings of its name), the file is the same runbook without the first of the two, if the setting is a string, a number or a config, or a list whose last version has no null in it; two sections, environment filters or sets of variables count as one that has the members of both, in which what is named again replaces what was there; a null for a string, number or filter counts for nothing.",
"every accepted file, every place in it, every number of repetitions",
"Any setting at any depth may be repeated any number of times, and removing one repetition must leave every other one as it was.",
["internal/runbook/parser/parser.go: Parse, runbook","internal/runbook/sh/env.go: Env","internal/runbook/pg/pg.go: Target"])

add("A server is not verified without a name",
"pgutil never tries to connect with the certificate of the server verified but no host name to verify it for; it reports that the host is missing instead.",
"every environment, every set of options, every outcome of the attempts",
"The host, the password and the mode come from two places each, and any combination of them may be missing.",
["internal/pg/pg.go: New","internal/pg/errors.go: ErrNoHostForTLS"])

add("A debug log is added to and changes nothing else",
"With --debug FILE, what was in FILE stays and everything the command logs is added to it, in order; output, exit status and all other files are as without --debug.",
"every command, every set of files, every series of messages",
"What the file held and which other files the command reads and writes is arbitrary.",
["internal/cli/register.go: RegisterCommands","internal/cli/cli.go: Parse","internal/logger/logger.go: New","internal/commands/inspect.go: Run","internal/commands/runbook_dot.go: Run","internal/commands/runbook_eval.go: Run"])
add("A run has no data races",
"While a runbook is run, of any two accesses of different goroutines to the same memory (the runner and its tasks, the scheduler, the channels by target, settings and state of a target, messages) one of which writes, one happens before the other in the sense of the Go memory model.",
"every set of targets and tasks, every schedule, every outcome of starts and tasks, at every moment",
"The race detector sees the schedules that happen in a test, and there are unboundedly many.",
["internal/runbook/runner.go: run, startScheduler, startTargets, startTargetGoroutine","internal/runbook/scheduler/scheduler.go: New, Next","internal/runbook/pg/pg.go: Start, Handle, Stop","internal/runbook/sh/sh.go: Start, Handle, Stop","internal/runbook/demo/demo.go: Start, Handle, Stop"])
add("A task sees what its dependencies have done",
"When a task of a runbook begins, every task it is after has ended without an error, and that happens before the beginning in the sense of the Go memory model, so that whatever it did is visible.",
"every set of targets and tasks, every schedule, every outcome of starts and tasks",
"An order of events in a test's one schedule does not tell whether it is enforced by synchronisation.",
["internal/runbook/runner.go: run, startScheduler, startTargets, startTargetGoroutine","internal/runbook/scheduler/scheduler.go: Next"])
add("The tasks of a demo target have no data races",
"While tasks that were submitted to a demo target of a task set are executed, of any two accesses of different goroutines to the text of the target or to its output, one of which writes, one happens before the other in the sense of the Go memory model.",
"every text and limit, all batches of tasks of all kinds, every schedule, at every moment",
"The race detector sees the schedules that happen in a test, and there are unboundedly many.",
["internal/taskset/base/base.go: RunTasks","internal/taskset/demo/demo.go: Start","internal/taskset/demo/echo.go: exec","internal/taskset/demo/rev.go: exec","internal/taskset/demo/rot13.go: exec"])
add("Whoever gets the result of a task sees what the task has done",
"Tasks are submitted to a target of a task set. What was done before a task was submitted happens before the task begins, and that the task has ended happens before its result is got, in the sense of the Go memory model, so that a task submitted after the result of another was got sees what the other has done.",
"every limit, all batches of tasks, every schedule and outcome",
"An order of events in a test's one schedule does not tell whether it is enforced by synchronisation.",
["internal/taskset/base/base.go: RunTasks","internal/taskset/demo/demo.go: Start","internal/taskset/pg/pg.go: Start","internal/taskset/sh/sh.go: Start"])
add("A command that is killed leaves its output file as it was or complete",
"Whenever pgutil is killed while it executes inspect, runbook dot or runbook eval (or any other command but runbook run), every file is as it was, but for the output file, which is as it was or holds the complete output; nothing that was printed before is lost.",
"all flags, files, databases and outcomes of connections and writes, every point at which the program is killed, between any two bytes written",
"A test does not kill the program between two writes, and there is a point for every byte of every output.",
["main.go: main","internal/commands/inspect.go: Run","internal/commands/runbook_dot.go: Run","internal/commands/runbook_eval.go: Run","internal/ddl/ddl.go: Write","internal/runbook/runbook.go: Dot, Eval"])
add("A run that was killed can be resumed",
"A run of a valid runbook is killed at any moment. Then on every target at most one task has begun and not ended, and all a task that has begun depends on, directly or through others, has succeeded. If the tasks that have succeeded are taken out of the runbook and the rest is run, no task that has succeeded is done again, no task begins before all it is after have succeeded in one of the two runs, and if the second run returns nil every task of the runbook has succeeded exactly once.",
"every set of targets and tasks, every schedule and outcome of both runs, every moment at which the first is killed",
"A test kills one run at one moment of one schedule.",
["internal/runbook/runner.go: run, startScheduler, startTargets, startTargetGoroutine","internal/runbook/scheduler/scheduler.go: New, Next"])
add("A failure stops a run",
"After a task has failed no further task of its target begins. Once runbook.Run has taken note of the failure (or a target could not be started), no task begins at all.",
"every set of targets and tasks, every schedule and outcome, every moment after the failure",
"Which tasks begin after a failure depends on the schedule, and there are unboundedly many.",
["internal/runbook/runner.go: run, startScheduler, startTargets, startTargetGoroutine","internal/runbook/scheduler/scheduler.go: New, Next"])
add("A run follows the drawing",
"If runbook dot draws a file and runbook.Run runs it: every task that begins is a node of the drawing, in the box of the target on which it is executed, and begins only after all the tasks from which an arrow goes to it have ended without an error. If the arrows go from node to node and never in a circle and Run returns nil, every node of the drawing has been carried out; otherwise no task begins.",
"every file that is accepted, every drawing of it, every schedule and outcome, at every moment",
"A test compares one drawing with one run.",
["internal/runbook/runbook.go: Dot, Run","internal/runbook/runner.go: run","internal/runbook/scheduler/scheduler.go: New, Next"])
add("However much concurrency a file asks for, it is run",
"Whatever the concurrency of the targets of a file that Parse accepts, runbook.Run begins to run it, keeps to its dependencies, and, if nothing fails, returns nil after all tasks have ended.",
"every set of positive concurrencies, every set of tasks, every schedule",
"The channels are made with a capacity computed in an int. It wraps around for concurrencies no test uses, and what a channel that is too small does depends on the schedule.",
["internal/runbook/runner.go: newRunner, run","internal/runbook/pg/pg.go: ConcurrencyLimit","internal/runbook/sh/sh.go: ConcurrencyLimit"])
add("What tasks write does not get mixed up",
"What a task of runbook.Run writes to standard output while it is executed appears there in one piece: standard output is what the tasks have written, one after the other, in an order that follows the dependencies. After Run has returned nothing more is written.",
"every runbook, every schedule, every way in which the tasks write their output piece by piece, at every moment",
"Tests run tasks that write one line each; that pieces of longer output mix depends on timing.",
["internal/runbook/runner.go: startTargetGoroutine","internal/runbook/runbook.go: newParser","internal/runbook/sh/exec.go: exec","internal/runbook/demo/tasks.go: munge"])
add("The listing tells what a run executes, and where",
"runbook.List and runbook.Run agree on a file: every task Run begins is in the listing, with the target on which it is executed, and begins once; if Run returns nil, every task of the listing has ended without an error on its target.",
"every file that is accepted, every schedule and outcome, at every moment",
"A test compares one listing with one run.",
["internal/runbook/runbook.go: List, Run","internal/commands/runbook_list.go: Run"])
add("What Run returns does not depend on the schedule",
"If it is fixed which tasks of a runbook succeed and which fail, and all targets can be started, then all runs that return, return the same: nil if no task is to fail, otherwise the error of the task that fails.",
"every runbook, every choice of outcomes, every two schedules",
"A test sees one schedule of one runbook.",
["internal/runbook/runner.go: run, startScheduler, startTargets"])
add("The scheduler's answers are determined by the completions",
"Two schedulers that scheduler.New makes of the same targets and tasks and that are told of the same completions, by the same calls of Next in the same order, hand out for every target the same tasks in the same order, call by call, and return ErrNoPendingTasks at the same call. Whether New succeeds does not depend on the order in which the maps are iterated either.",
"all targets and tasks, all orders in which Go's maps may be iterated, all sequences of calls",
"Go iterates over maps in random order; a test sees a few of the orders.",
["internal/runbook/scheduler/scheduler.go: New, Next, buildReady, fillPending","internal/dag/dependency.go: NewDependencyGraph, Next","internal/dag/tsort.go: TSort"])
add("The tasks of a runbook with one target are executed in the same order in every run",
"If all tasks of a runbook belong to one target, runbook.Run begins them in the same order in every run: of two runs, each looked at at any moment, one has begun the first few of the tasks the other has begun. If it is fixed which tasks fail and all targets can be started, two runs that return, return the same and have executed the same tasks.",
"every runbook whose tasks are of one target, every two schedules, all orders in which Go's maps may be iterated, all outcomes, at every moment",
"A test sees a few schedules of one runbook.",
["internal/runbook/runner.go: run, startScheduler, startTargets","internal/runbook/scheduler/scheduler.go: New, Next","internal/dag/tsort.go: TSort"])
add("A runbook with one demo target prints the same in every run",
"If all targets of a file are demo targets and all tasks belong to one of them, runbook.Run prints the same in every run that returns, and returns the same; at any moment before, it has printed a beginning of that. This holds even if the dependencies do not put the tasks in order. If the target is of another class, of two runs one has sent the first few of the statements, or run the first few of the commands, of the other, and all of them if both return nil.",
"every such file, every two schedules, all orders in which Go's maps may be iterated, any surroundings, at every moment",
"A test sees a few schedules of one file.",
["internal/runbook/runbook.go: Run","internal/runbook/runner.go: run","internal/runbook/demo/tasks.go: munge","internal/runbook/scheduler/scheduler.go: New, Next"])
add("Without dependencies a target begins its tasks in the order of their names",
"Every target begins tasks in the order in which the scheduler has handed them out. If no task of a runbook waits for another, then at every moment of every run the tasks a target has begun are the first of its tasks by name, in the order of their names, and if Run returns nil they are all of its tasks, however many targets there are.",
"every runbook (for the second part, without dependencies), every target, every schedule, all orders in which Go's maps may be iterated, all outcomes, at every moment",
"A test sees a few schedules of one runbook.",
["internal/runbook/runner.go: run, startScheduler, startTargets","internal/runbook/scheduler/scheduler.go: New, Next, buildReady, fillPending","internal/dag/tsort.go: TSort","internal/dag/dependency.go: Next"])
add("Targets whose tasks do not wait for each other do not influence each other",
"If no task waits for a task of another target, every target begins its tasks in the same order in every run: of two runs, each looked at at any moment, one has begun the first few of the tasks of the target the other has begun.",
"every runbook in which tasks wait for tasks of their own target only, every target, every two schedules, all orders in which Go's maps may be iterated, all outcomes, at every moment",
"A test sees a few schedules of one runbook; the two orders differ only if a task of another target ends first.",
["internal/dag/dependency.go: Next","internal/runbook/scheduler/scheduler.go: Next","internal/runbook/runner.go: run"])
add("Demo targets whose tasks do not wait print the same lines in every run",
"If all targets of a file are demo targets and no task waits for another, what runbook.Run prints consists, at every moment, of lines each printed by a target; what a target has printed is a beginning of the lines it prints if its tasks are executed one after the other in the order of their names, and all of them if Run returns nil. Two runs that return nil print the same lines, those of a target in the same order; only how the targets' lines are interleaved may differ.",
"every such file, every two schedules, all orders in which Go's maps may be iterated, any surroundings, at every moment",
"A test sees a few schedules of one file.",
["internal/runbook/runbook.go: Run","internal/runbook/runner.go: run, startTargets","internal/runbook/demo/tasks.go: munge","internal/runbook/scheduler/scheduler.go: New, Next"])
add("A target whose tasks are put in order by their dependencies executes the same in every run",
"If of any two tasks of a target one comes after the other, directly or through other tasks of whatever targets, the target begins its tasks in this order in every run: of two runs, each looked at at any moment, one has begun the first few of the tasks of the target the other has begun; two runs that return nil have begun the same. The limits of concurrency do not matter. For a file (in which no task is named \"\") the same is true of the statements the target's tasks send and the commands they run.",
"every runbook, every target whose tasks are in order, every two schedules, all limits of concurrency, all orders in which Go's maps may be iterated, all outcomes, at every moment",
"A test sees a few schedules of one runbook.",
["internal/runbook/runbook.go: Run","internal/runbook/runner.go: run, startScheduler, startTargets","internal/runbook/scheduler/scheduler.go: New, Next","internal/runbook/pg/pg.go: Handle","internal/runbook/sh/sh.go: Handle"])
add("A schema file changes where the database did",
"Take two databases and the schema files written for them. If one value of one object differs, the files differ in one line. If one object differs, or one column, check or foreign key of a table, they differ in the lines of its block only. If one database has a schema, function, sequence, table, index or trigger more than the other, its file has the lines of that object more, perhaps after an empty line, and all others are the same. If an object has a property more, its file has one line more.",
"every two such databases, whatever the names and texts in them contain",
"Tests compare a few files; that texts with line breaks stay on one line, and that nothing around a change moves, has to hold for all.",
["internal/ddl/ddl.go: Write","internal/ddl/database.go: Database","internal/ddl/table_storage_parameters.go"])
add("Commands that run at the same time do not disturb each other",
"If several pgutil commands (other than runbook run) run at the same time, each prints, writes to its output file and returns what it could have done alone, and when they have ended every output file holds the result of a command.",
"any number of commands, every interleaving of what they do, at every moment, whatever the files contain",
"A test would have to hit one of the interleavings in which two commands meet.",
["main.go: main","internal/commands/runbook_eval.go: Run","internal/commands/runbook_dot.go: Run","internal/commands/inspect.go: Run","internal/commands/runbook_list.go: Run"])
add("The order in which a task set file is written does not matter",
"If the blocks of a task set file, and the attributes inside of each, are put in another order, Parse accepts the file if and only if it accepted it before, and returns the same targets and tasks.",
"every task set file, every reordering, any registered target types",
"A test compares a few orders of one file.",
["internal/taskset/parser/parser.go: Parse, loadExplicitTargets, loadTasks"])
add("The order in which a schema file is written matters among objects of the same kind only",
"If attributes, or blocks of different types, of a schema file are put in another order, inside of any block, ddl.ParseBytes and ddl.ParseFile accept the file if and only if they accepted it before, and return the same database. The order of blocks of the same type is that of the objects returned.",
"every schema file, every such reordering, at any depth",
"A test compares a few orders of one file.",
["internal/ddl/ddl.go: ParseBytes, ParseFile", "internal/ddl/database.go: Database", "internal/ddl/table.go: Table"])
add("The order in which the dependencies of a task are written does not matter, nor that one is written twice",
"If two runbooks have the same targets and limits, the same tasks for the same targets, and every task of the one comes after the same tasks as in the other, then a scheduler is made from the one if and only if it is made from the other; and two schedulers that are then told of the same completions, in the same order, have handed out the same tasks of every target in the same order, and answer the next call alike, whatever the order in which the dependencies are listed and however often each is.",
"every two such sets of tasks, every history of completions, every listing order of the maps",
"A test has one list of dependencies; the claim is about every rearrangement of every list, and every history after it.",
["internal/runbook/scheduler/scheduler.go: New, Next", "internal/dag/tsort.go: TSort", "internal/dag/dependency.go: NewDependencyGraph, Next"])
add("The names of targets do not matter",
"If the targets of a runbook are given other names, no two the same, then a scheduler is made from the one runbook if and only if it is made from the other; and two schedulers that are told that the same tasks of the runbook have ended, in the same order, hand out for every target the same tasks in the same order as for the target of the old name, and answer every further call alike.",
"every runbook, every renaming without collisions, every history of completions of its tasks, every listing order of the maps",
"A test has a few names; the claim ranges over all names, the empty one included, and all histories.",
["internal/runbook/scheduler/scheduler.go: New, Next", "internal/dag/dependency.go: Next"])
add("A higher limit delays nothing",
"If the limits of some targets of a runbook are raised, and a scheduler for it is told of the same completions, in the same order, as one with the old limits that is driven as the runner does it, then at every moment it has handed out for every target at least the same tasks, in the same order.",
"every runbook, all limits that are at least as high, every history of completions of tasks handed out",
"Anomalies of scheduling, where more capacity makes something later, show for particular graphs and orders of completion only; a test has a few.",
["internal/runbook/scheduler/scheduler.go: New, Next", "internal/dag/dependency.go: Next"])
add("A task that can be started is not withheld for ever",
"Once all dependencies of a task have been reported to DependencyGraph.Next, the task is returned by one of the next calls: at the latest when Next has been called again once, and as often as there are tasks before it in the order of TSort, whatever is reported by these calls.",
"every accepted graph, every task, every history of calls before and after",
"Next withholds some tasks that could be started (C11); how long depends on the history, of which there are infinitely many.",
["internal/dag/dependency.go: NewDependencyGraph, Next", "internal/dag/tsort.go: TSort"])
add("Runbooks that say the same have the same runs",
"If two runbooks have the same targets and limits, the same tasks for the same targets, and every task of the one comes after the same tasks as in the other, in whatever order, and however often, these are written, then whatever a run of the one may do (start targets, execute tasks, with whatever outcome, stop, and return an error or none) a run of the other may do in the same order; and a run of the one may come to rest having done something if and only if one of the other may.",
"every two such runbooks, every schedule, every outcome of every task, every listing order of maps",
"A test compares a few runs; the claim is about the sets of all runs.",
["internal/runbook/runner.go: Run, startTargets, startScheduler, run", "internal/runbook/scheduler/scheduler.go: New, Next"])
add("The names of targets do not matter to a run",
"If the targets of a runbook are given other names, no two the same, then a run of the one may start targets, execute tasks with some outcomes, stop targets and return something, in some order, if and only if a run of the other may do the same with the other names.",
"every runbook, every renaming, every schedule, every outcome of every task",
"A test has a few names and a few schedules; the claim is about the sets of all runs, for all names, the empty one included.",
["internal/runbook/runner.go: Run, startTargets, startScheduler, run", "internal/runbook/scheduler/scheduler.go: New, Next"])
add("The names of the nodes of a graph matter only through their order",
"When the nodes of a graph are renamed so that their names keep their alphabetical order and an empty name stays the only empty one, TSort returns the same order, or the same cycle, in the new names; NewDependencyGraph accepts the graph if and as it accepted the other, or reports the same cycle in the new names; and every history of Next calls is answered by the same tasks in the new names, however the nodes and their edges are listed.",
"every graph, every such renaming, every listing of the renamed graph, every history of Next calls",
"It compares the runs of two graphs, for all graphs, all renamings and all histories.",
["internal/dag/tsort.go: TSort, visit", "internal/dag/dependency.go: NewDependencyGraph, Next", "internal/dag/directed.go: NewDirectedGraph"])
add("The names of tasks matter to the scheduler only through their order",
"When the tasks of a runbook are renamed so that their names keep their alphabetical order and an empty name stays the only empty one, a scheduler can be made if it could be made before; and told of the same completions in the same order it hands out, for every target, the same tasks in the same order under their new names, and answers that nothing is pending at the same calls.",
"every runbook, every such renaming, every listing of the renamed runbook, every history of reported completions",
"It compares the histories of two schedulers, for all runbooks, all renamings and all completions.",
["internal/runbook/scheduler/scheduler.go: New, Next", "internal/dag/dependency.go: NewDependencyGraph, Next"])
add("The names of tasks matter to a run only through their order",
"When the tasks of a runbook are renamed so that their names keep their alphabetical order and an empty name stays the only empty one, a run of the one may do something (start and stop targets, begin and end tasks with these outcomes, in this order) and return something if and only if a run of the other may do and return the same under the new names.",
"every runbook, every such renaming, every listing of the renamed runbook, every schedule and every outcome of starting targets and executing tasks",
"It compares all interleavings of two runs.",
["internal/runbook/runner.go: run, startScheduler, startTargets, startTargetGoroutine", "internal/runbook/scheduler/scheduler.go: New, Next"])
add("A limit that is not reached has no effect",
"When the concurrency limit of a target is at least the number of tasks the target has, then any other limit that is also at least that number gives the same: the scheduler hands out the same tasks in the same order for the same reports, and a run may do and return something with the one limit if and only if it may with the other. A limit below that number does have an effect.",
"every runbook, every such change of the limits of any of its targets, every history of calls, every schedule and every outcome of starting targets and executing tasks",
"It compares all histories and interleavings under two configurations.",
["internal/runbook/scheduler/scheduler.go: New, Next", "internal/runbook/runner.go: run, startScheduler, startTargets, startTargetGoroutine"])
add("A dependency that follows from others requires nothing new",
"When two runbooks have the same tasks and targets and a task waits for another, directly or through others, in the one if and only if it does in the other (so that for instance one of them spells out a dependency that follows from others), then the scheduler accepts both or neither; a run of either begins a task only after all that the task waits for in the other has succeeded; and, if it is fixed which tasks fail, either both return nil or neither does, and the error returned is that of a task that fails and waits for none that does. The order in which a target gets the tasks that it can begin may change.",
"every two such runbooks, every schedule of both runs and every outcome of the tasks",
"It compares all interleavings of two runs, for dependency graphs of every size.",
["internal/dag/dependency.go: NewDependencyGraph", "internal/dag/tsort.go: TSort", "internal/runbook/scheduler/scheduler.go: New, Next", "internal/runbook/runner.go: run, startScheduler, startTargetGoroutine"])
add("maxConcurrency has no influence on which executions of a task set's tasks are possible",
"Whatever can be seen of the tasks that are sent to RunTasks (which begin, which end and with what outcome, in which order) with one maxConcurrency can be seen with any other; the results the client has got or could get at that point are the same, and so are the tasks being executed. The setting only decides how many batches and results can wait in the channels, so how long the client is held up.",
"every two values that are not negative, every sequence of batches, every interleaving and every outcome of the tasks",
"It compares the sets of all interleavings for all values of the setting.",
["internal/taskset/base/base.go: RunTasks"])
add("The tasks that are sent to RunTasks begin and end in any order",
"What can be seen of the tasks a client has sent to RunTasks is exactly this: each begins no more often than it was sent and ends no more often than it has begun, with any outcome. Every such order is possible, whatever dependencies the tasks have and whatever maxConcurrency is, even if all are sent in one batch. When all have begun, the client may have got the outcomes of any of those that have ended, in any order, and nothing else. A client that wants an order has to wait for results.",
"every list of tasks, every order of beginnings and ends, every outcome and every maxConcurrency that is not negative",
"It says for every order whether some interleaving produces it.",
["internal/taskset/base/base.go: RunTasks"])
add("A target without tasks is started and stopped, and that is all",
"When a target that no task has is added to a runbook, the scheduler hands out the same tasks in the same order for the same reports as before. Leaving aside the starting and stopping of the new target, a run may do and return exactly what it could before, unless the new target fails to start.",
"every runbook, every such target, every history of calls, every schedule and every outcome of starting targets and executing tasks",
"It compares all histories and interleavings of two runs.",
["internal/runbook/scheduler/scheduler.go: New, Next", "internal/runbook/runner.go: newRunner, run, startScheduler, startTargets, startTargetGoroutine"])
out=os.path.join(os.path.dirname(os.path.abspath(__file__)),"..","properties.jsonl")
with open(out,"w") as f:
    for p in P: f.write(json.dumps(p)+"\n")
print(len(P))
