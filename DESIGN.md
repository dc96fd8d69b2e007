# pgutil in Lean 4: design

Source: /repo (Go), read as text. Model and theorems: `lean/Verif/`.
Property list: `properties.jsonl` (generated by `tools/gen_properties.py`).
Property -> theorem map: `MANIFEST.json`. Mutation log: `seeded/LOG.jsonl`
(`theorems_failed`: the declarations at which the build stopped; `property_theorems_lost`: the property theorems that depend on
them. Entries with a note on placeholders were built on past each failure, in a scratch copy only and only for the modules
about the claim; what they list fails by its own proof, but is not all that fails in a full build. Some repeat an earlier edit.)

## Trusted base

* Lean 4.33.0's kernel. No axioms of our own, no `sorry`, no `native_decide`/`bv_decide`.
  Theorems depend on at most `propext`, `Classical.choice`, `Quot.sound`
  (`#print axioms` for every property theorem is listed at the end of this file).
* The hand translation Go -> Lean. Each definition cites file and lines. The Ragel tables are
  translated by `tools/ragel2lean.py` from the generated `*_parser.go` (the script is trusted for
  the transcription, not for any proof).
* The Go language semantics assumed: maps iterate in an arbitrary order, `append`/slices as lists,
  strings as byte lists, channels/goroutines as interleaved atomic steps.

## Conventions

* Strings are `Str = List UInt8` (Go byte strings); `sort.Strings` = bytewise lexicographic sort.
* A Go map is an association list with distinct keys; the list order stands for *one* iteration
  order, and theorems quantify over every list, so over every order. Order independence is proved
  as invariance under permutation.
* Go errors are constructors of a sum type; a panic is a value (`none` / `.panic`), never hidden by
  a default.
* Goroutine code is a labelled transition relation `Step` over explicit state; theorems are about
  every reachable state (`Reach`), i.e. every interleaving.
* Each area has three kinds of files: `Model` (translation with citations), lemma files, and
  `Props` (property theorems, stated against a small `Spec` that does not mention the model's
  helpers). Non-vacuity examples are beside the theorems.
* A property that is false of the code is refuted by a theorem with a concrete witness
  (`..._refuted`), and what does hold is a theorem with suffix `_partial`.

## Plan per property

| id | modelled | how proved |
|----|----------|-----------|
| C01, C02 | dag/directed.go, nodeset.go as maps of sets | fold invariant; refinement to (node set, edge relation) over all op sequences |
| C03, C04 | tsort.go DFS with fuel | DFS invariant by induction on fuel; fuel sufficiency; acyclicity as irreflexivity of the transitive closure |
| C05 | tsort.go cycle slice | path invariant of the DFS stack; refuted for a node named "", which is the only exception |
| C06 | tsort.go sorting | permutation invariance: sorted list of a permutation is equal |
| C07 | dependency.go constructor | from C01, C04 |
| C08-C10 | dependency.go Next | invariants by induction over the call history |
| C11 | dependency.go Next two loops | refuted with a 3-task graph; exact characterisation of what is skipped |
| C12-C17 | scheduler.go | invariants by induction over histories (arbitrary for safety, one Next per handed-out task for capacity/liveness) |
| C18-C26 | runner.go as a transition system | inductive invariants; deadlock freedom by case analysis; termination by a decreasing measure; refutations by explicit executions |
| C27-C30 | sh/env.go | induction on environ |
| C31 | sh/exec.go Check | characterisation of prefix tests |
| C32, C33 | demo/tasks.go, UTF-8 rune decoding | involution laws; int64 arithmetic |
| C34-C36 | parser/parser.go over decoded maps; target classes abstract | fold characterisation; the JSON/Jsonnet decoders are parameters |
| C37-C40 | ddl ToSQL functions; a small SQL lexer as specification | lexer run over the output |
| C41-C48 | Ragel tables; grammar as regular expression with events | certificate checker (verified), `decide +kernel` on the finite table, lifted to all strings |
| C49 | parser_utils.go Error | totality; caret refuted |
| C50, C51 | TableStorageParameters | case analysis on keys; refutation for `on`/`off` |
| C52-C55 | pg.go New | decision logic; retry loop induction |
| C56-C58 | pg List*, inspect.go over an abstract catalog/row stream | induction on rows; refutations |
| C59-C61 | taskset/base RunTasks as transition system | inductive invariant; refutations |
| C97-C99 | taskset/demo: the goroutine of each task with the mutex, in steps, on top of RunTasks | inductive invariant with the order of effects; C98, C99 refuted |
| C62 | taskset/parser | fold characterisation |
| C63-C66, C70, C71 | commands/*, cli, logger | sort lemma, padding arithmetic, path functions, file-system state |
| C67, C72-C79 | the catalog queries of internal/pg over a database | the query text is parsed into an AST by `tools/sql2lean.py`-copied text plus `*_text` theorems; semantics of the AST; each query solved once and for all; refutations on a concrete database |
| C80 | `InspectDatabase` over a database | composition of C72-C79 with C57; parts belong to one table, so concatenation enumerates; permutations keep enumerations. `C80_session` starts from the texts and arguments that go over the connection (Pg/Session.lean) and a server that is given nothing else |
| C81-C84 | ddl.go with gohcl over the struct tags (`tools/tags2lean.py`); documents as trees | law per kind of field (label, attribute, block, blocks), composed over the fields of each struct; acceptance as a predicate over the tags in the source; the test data (`tools/hcl2lean.py`) as examples |
| C112 | `Verif/Hcl/Text.lean`: the text that hclwrite prints for a document; a reader of HCL syntax as specification | the reader's automaton over each printed piece, then recursive descent over the words, by mutual induction over documents; what is written of a struct has names and UTF-8 texts, field by field; the files in the repository by computation |
| C113 | `Verif/TaskSet/Doc.lean`: gohcl on the blocks of a task set, and C62's loader with it | decoding of flat bodies characterised once for every struct; what a `remain` field is left; C62; the files in the repository by computation |
| C114 | `Verif/TaskSet/Print.lean`: `exec` of pg and sh tasks | refuted; what is printed, by C113 |
| C115 | `Verif/Path`: filepath.Clean, Dir, Join, Abs, Base; `newParser`'s directory | Clean's loop keeps an encoding of the elements kept (invariant over the path); a path's place is a fold over its parts; C86's invariant for the commands of a run |
| C116 | `Verif/Sh/Program.lean`: exec.Command, LookPath and the directory of the child | exact by cases on the name; refuted; agreement with the specification under the condition on PATH, by C27 |
| C117 | `Verif/Pg/Env.lean`: ParseEnvLibpq on the environment; `Verif/Run/Variables.lean` | decision logic composed with C52, C53 and C91; refuted |
| C118 | `Verif/TaskSet/Rounds.lean`: a client in rounds, on the system of C97 | induction over rounds; when all is received nothing is under way |
| C119 | `Verif/Sql/SameSpec.lean`, `Same.lean`, `SameProps.lean`, `Swap.lean`, `SameExact.lean`, `Verif/Main/Same.lean`: two servers with one database, on the model of C73-C95 | false as stated; two sortings agree up to ties, ties are traced to what the catalogs allow; conversely a server may exchange tied rows |
| C120 | `Verif/Fmt/Model.lean` (`%q`), `Spec.lean` (Go's string literals), `Props.lean` | false of tasks named ""; reading back what is quoted, by induction over the bytes; one reading because literals end where they end |
| C121 | `Verif/Runner/Log.lean` (steps of the runner with its log lines), `LogProps.lean` | invariant by induction over the steps: the lines about a task are as far as the task is; refines C18-C26's system, which it never holds up (`exists_log`, `LReach.live`) |
| C122 | `Verif/Ddl/PointSpec.lean` (where a text stops making sense, by what the parser accepts), `Live.lean`, `Certs/Live.lean`, `PointProps.lean` | from every state of each machine a final state is reached: a certificate (a byte and a rank per state, found by `tools/gen_live.py`) that the kernel checks over the whole table; induction on the rank and on the text |
| C123 | `Verif/Run/Kinds.lean` (kinds and settings of targets, in the same file), on `Run/Model.lean`, `Book/Model.lean`, `Json/Model.lean` | case analysis on both kinds for the refusal; for runbooks, what parsing fixes about each task (`Run/Lemmas.lean`) with the JSON decoder of C93 |
| C124 | `Verif/Pg/Session.lean` (the functions of package pg as programs that log and send statements), `SessionSpec.lean`, `SessionProps.lean` | false of `DescribeTrigger`; otherwise every trace is made of blocks (a line and the statement it tells), by composition of the programs and induction over the tables, the sequences and the calls |
| C125 | `Verif/Pg/Session.lean`, `SessionSpec.lean` (reading only, by tokens), `ReadOnlyProps.lean` | the fixed texts by evaluation in the kernel, the one that contains names by C110; which statements each program can send by composition and induction |
| C126 | `Verif/Pg/Session.lean`, `SessionSpec.lean` (`refused`, `plan`), `AskedProps.lean` | a program is strict if it ends with the error of the first refused answer: by composition and induction; the plan from the successful run |
| C127 | `Verif/Pg/MomentProps.lean`, `Verif/Sql/MomentProps.lean` | false: a table dropped between two statements; otherwise the answers of the different moments are put together to one catalog, which is possible because no statement is sent twice (`plan_nodup`), and the model of `Inspect.lean` is shown to agree (`result_inspect`) |
| C128 | `Verif/Pg/Session.lean` (`exec`), `AskedProps.lean` | false of every statement; exactly when, by evaluation of `Exec` and reading the digits back |
| C129 | two JSON documents that differ in passwords (Json/SecretSpec.lean), decoded, parsed, listed, drawn and run (Json/Secret.lean, Run/Secret.lean) | simulation: related documents are decoded to related runbooks, related worlds make related steps; `runbook eval` prints the password by computation |
| C130 | one-step removals of members that do not count (Json/TwiceSpec.lean), on the decoder of C93 | decoding any object is folding, field by field, the values given to the field (Json/Twice.lean); each removal leaves the fold as it is; lifted through entries, sections and configs to the runbook |
| C131 | transports of the attempts of New (C53) on the environment of C117 | case analysis on mode, password and host, composed with C52, C53 and C117; refuted |
| C132 | `Verif/Main/Debug.lean`: the debug log opened for appending around the commands of C96 | two worlds that differ in one file go through every command alike; refuted |
| C133 | `Verif/Runner/Race.lean`: the actions of the runner with the memory they read and write, the goroutines they start and the messages they pass on; happens-before of the Go memory model as specification | invariant by induction over the actions: who has touched what, and before what that happened; that a message is written once comes from the counts of C19 |
| C134 | the events of C133, with the beginnings and ends of tasks among them | invariant by induction over the actions: how far the end of a task has been made known (reported, received, passed on to the scheduler, in what it sends); refuted for "" |
| C135 | `Verif/TaskSet/Race.lean`: the steps of C97 with the operations on the text, the writer and the mutex; happens-before of the Go memory model as specification | invariant by induction over the steps: every access happens before all that follows, or before an unlock, or is of the one goroutine that holds the mutex |
| C136 | `Verif/TaskSet/Sync.lean`: the steps of C59 with the goroutines they start and the messages they pass on; happens-before of the Go memory model as specification | invariant by induction over the steps: where the submission of a task or its end has been made known (in the queue, in hand, by the goroutine, in the results), message by message |
| C137 | `Verif/Main/Crash.lean`: the commands of C96 step by step, byte by byte | invariant by induction over the steps: what is in the output file and what is still to be written is what will be there in the end; the steps lead to what `main` does; refuted |
| C138 | `Verif/Runner/Model.lean`: two runs, the second of what the first has left | from C18-C21 of both runs; the rest of a valid runbook is valid |
| C139 | `Verif/Runner/Model.lean` | once `done` is closed no completion is added; what begins is in flight (C14) and depends on what was completed (C12); refuted |
| C140 | `Verif/Dot/Model.lean` and `Verif/Run/Model.lean`: one file drawn and run | arrows are dependencies (C101), a drawing without circles is a valid runbook; C18-C20 of the run; refuted |
| C141 | `Verif/Runner/Room.lean`: the steps of the runner with channels of any capacity, and hand-over without room; the capacity in an `int` of 64 bits | every run with small channels is one of `Model.lean`; the channels never hold more than all tasks; refuted by a circle of waiting goroutines |
| C142 | `Verif/Runner/Output.lean`: the runner, where a task that is executed may write at any time | when a task writes it has begun and not ended (counts of C19); C18 and C19 order the rest; refuted for tasks that run at the same time |
| C143 | `Verif/Cmd/List.lean` and `Verif/Run/Model.lean`: one file listed and run | the map of the listing and C19, C20 of the run; refuted by C85's file |
| C144 | `Verif/Runner/Model.lean`, two runs with the same outcomes of tasks | a task that has failed has begun, so what it waits for has ended without an error (C18); C20, C23; refuted by two runs of one runbook |
| C145 | `Verif/Sched/Model.lean`, two schedulers made from permuted maps | the sorted order does not depend on the map order (C06); which tasks are ready depends on the completions alone; per target the queue, the count and the answer stay the same, by induction over the calls |
| C146 | `Verif/Runner/Model.lean`, two runs | with one target everything stays in the order of the channels: what has begun, is held, ready or still to be sent is what was handed out, and the scheduler is told of the tasks in that order; then C145; an example shows that it fails with two targets |
| C147 | `Verif/Run/Model.lean`, two runs | C146, C36, and what is printed is a function of the tasks that have ended, in order |
| C148 | `Verif/Runner/Model.lean` | what has begun, is held, ready or still to be sent for a target is, in order, what was handed out for it; without edges TSort sorts and the first `Next` releases everything, so the scheduler's queues are sorted |
| C149 | `Verif/Runner/Model.lean`, two runs | refuted by two runs of five tasks; without dependencies from C148 |
| C150 | `Verif/Run`, demo targets | the lines as a function of the trace, per target of the tasks ended, which are the first by name (C148) |
| C151 | `Verif/Runner/Model.lean` and `Verif/Run`, two runs | what a target has begun is closed under coming after and in order (C18, C19, C138), and two such lists agree as far as they go |
| C152 | `Verif/Hcl/Text.lean`, `Verif/Hcl/Diff.lean`: the texts of two documents | the text of a body is split around one item; what stands before ends with a line, and neither width nor gaps depend on a value; partial: a longer name moves the others |
| C153 | `Verif/Main/Together.lean`: any number of programs by small steps, with shared files and their own places in them | simulation: the steps of one of them are a run alone in a world that differs in the others' outputs only; partial: a common output gets mixed |
| C154 | `Verif/TaskSet/Doc.lean`, `Verif/TaskSet/Order.lean`: two documents with the same blocks in any order | from C113: what a document describes depends on which blocks there are only, if no name is given twice; partial: otherwise the last block counts |
| C155 | `Verif/Hcl/Model.lean`, `Verif/Hcl/Order.lean`: two documents that differ by exchanging neighbours of different names | every field reads the items of its own name, whose order is the same; induction over the structs |
| C156 | `Verif/Sched/Same.lean`: `SameTasks` | the graphs have the same edges, so the sorted order and every answer agree; induction on the history |
| C157 | `Verif/Sched/Rename.lean`: `Renamed` | a relation between the two schedulers that every call keeps; induction on the history |
| C158 | `Verif/Sched/Limits.lean`: two schedulers with the same tasks, told of the same completions | what is released does not depend on limits; the handed out are a prefix of it, of maximal length by the capacity invariant |
| C159 | `Verif/Dag/Within.lean` | each call that withholds the task returns one of those before it (C11_exact); induction on the calls |
| C160 | `Verif/Runner/SameBook.lean` | a simulation: the states agree but for the scheduler, and the schedulers are alike (C156) |
| C161 | `Verif/Runner/Rename.lean`: `Renamed`, `Event.rename` | a simulation between a state and the renamed state, on top of C157; the renaming back gives the other direction |
| C162 | `Verif/Sched/TaskNames.lean` | the search, Next and the sorting commute with the renaming; induction on the search depth and on the calls |
| C163 | `Verif/Sched/TaskRename.lean` | a relation between the two schedulers, kept by New and Next (C162 for the graph) |
| C164 | `Verif/Runner/TaskRename.lean` | a simulation in both directions, step by step (C163 for the scheduler) |
| C165 | `Verif/Sched/Ample.lean`, `Verif/Runner/Ample.lean` | the number of tasks being worked on at a target never exceeds the number it has; then a simulation in both directions |
| C166 | `Verif/Runner/Implied.lean` | the transitive closure decides closedness and acyclicity (C07); C18 and C144 for the runs |
| C167 | `Verif/TaskSet/Bound.lean` | every execution is followed by one with unbuffered channels, in which batches are sent when they are taken and results are received when they are sent; and larger buffers rule out nothing |
| C168 | `Verif/TaskSet/AnyOrder.lean` | counting with the invariant of C59 in one direction, an execution built event by event in the other |
| C169 | `Verif/Sched/Idle.lean`, `Verif/Runner/Idle.lean` | a target without tasks has an ample limit (C165), then its entries are never read; a simulation that erases the target in one direction and one that starts it first and stops it last in the other |
| C85-C92 | `Verif/Run`: runbook.Run = Parse, then the runner, with the three target classes' Start, Handle and Stop, panics, and a record of output, commands, SQL and connections | the state of every target is a function of the trace (invariant over all steps); the runner's theorems apply to the projection; output as a fold over the trace, sorted by dependencies |
| C93-C94 | `Verif/Json`: encoding/json with DisallowUnknownFields on a JSON tree, over the fields of parser.go, of the targets and of the tasks, then Parse and Run | law of a table of fields (names distinct up to case, assignments independent), from which decoding an object is equivalent to the settings it states; composed with C35, C85, C86 |
| C95-C96 | `Verif/Main`: main.go with Run of ping, inspect, version and runbook list, dot, eval, run over the models of connecting, inspecting, writing schema files and output files | composition of C80, C81, C71, C63, C94; the numbers of an inspected database fit an int64 because the catalogs' do and because of the form of storage parameters |
| C100 | `Verif/Cli`: the flags, arguments and commands of internal/cli on a model of kingpin's parser | one round of the parser per option, induction over the ways to write a line; each setting as a fold over the options; composed with C96 |
| C101 | `Verif/Dot`: Dot on the calls of gographviz it makes | the graph after a prefix of the targets and tasks, by induction; composed with C93 and C96 |
| C102-C103 | `Verif/Eval`: Eval on a JSON tree, with Unmarshal and prettyjson; the grammar of RFC 8259 as a relation | mutual induction over trees; a reader of JSON texts that reads every text of the grammar makes the grammar unambiguous; refutations by running that reader |
| C104 | `Verif/Eval` with `Verif/Json` | every setting of a file carries over to a value that is the same up to the order of members, in both directions; composed with C93 and C102 |
| C105-C106 | `Verif/Runner/Wait.lean`, on the runner's transition system | executions in which no `Handle` returns; with limits of 1 the receiver of the router's message is idle (invariants of C13, C14, C24), induction over the way the messages still have to go; refutations by states from which only the end of a task leads on |
| C107 | `Verif/Run/Sequence.lean`, `Verif/Json/Shipped.lean`, `Verif/Json/Messages.lean` | everything a run does in its order (C86_sequence, C86_all), and the JSON trees of the examples; induction over runs, computation for the decoding |
| C108 | `Verif/Run/Success.lean` | the run as in C85; in a state in which nothing failed an action that does not fail is possible or `Run` returned nil, induction over the measure of C22 |
| C109 | `Verif/Run/Messages.lean` | the run as in C85 with logging the message as a step of its own; invariants by induction over runs, with C18, C19 and C85 |
| C110 | `Verif/Pg/Identifier.lean` | `Identifier` and the per-sequence query of `listSequencesLegacy` as texts; reading them with the lexer of C37, by induction over the names |
| C111 | `Verif/Ddl/CreateSpec.lean`, `CreateProps.lean`, `CreateSpec2.lean`, `CreateProps2.lean` | a reader of CREATE TABLE, CREATE FUNCTION, ALTER TABLE ADD PRIMARY KEY and CREATE TRIGGER on the tokens of C37; that it reads what was described, by induction over columns and checks; refuted for schemas, foreign keys, ... |
| C68 | parameters.go | exact condition on the setting; refuted for PostgreSQL's own spelling |
| C69 | taskset/parser | refuted for every task of every file |

## What is modelled, and what is not

| package | modelled | not modelled |
|---------|----------|--------------|
| internal/dag | all functions | - |
| internal/runbook, scheduler | Run, start/stop, workers, scheduler; each channel operation is a step; in `Verif/Run` together with Parse and the targets' Start, Handle and Stop | log lines that name no task or target; overflow of the sum of concurrency limits but in `Verif/Runner/Room.lean`; an effect of Handle takes place when it returns |
| internal/runbook/parser | Parse, from the JSON tree on (`Verif/Json`) and from the decoded maps on (`Verif/Book`) | Jsonnet evaluation, reading the text of JSON |
| internal/runbook/sh, demo | environment handling, Check, the transformations, the directory and the program of a command | what programs do, actual time |
| internal/ddl | all four parsers (the Ragel tables themselves), every ToSQL, parser errors, storage parameters, Write and Parse between structs and document trees, the text of HCL documents | how hclparse reads syntax beyond that of C112's reader |
| internal/pg | New, TLS choice, retries, every List*/Describe* with its SQL, InspectDatabase | the wire protocol (rows and failures are arbitrary) |
| internal/taskset | RunTasks as a transition system, the demo target's tasks on it, the loader from the document on, what the pg and sh tasks print | how hclparse reads syntax beyond that of C112's reader; the writer of a demo target failing; time |
| main.go, internal/commands, cli, logger | every command with a file system and standard output; exit status; verbosity; the command line | the text of a drawing, of help and of usage errors; `version_legacy.go` (Go before 1.12) |

Points at which something outside the repository is described by hand, and so is trusted:

* `Verif/Ragel/*`: the meaning of Ragel's generated Go code (table driven loop with actions).
  `tools/ragel2lean.py` copies tables and action code out of the generated parsers.
* `Verif/Ddl/Pg*.lean` (what `pg_get_constraintdef`, `pg_get_indexdef`, `pg_get_triggerdef` print)
  follows PostgreSQL's ruleutils.c from knowledge, not from its source, which is not available here.
* `Verif/Ddl/Lexer.lean` is PostgreSQL's lexical structure for quoted names and strings.
* `Verif/Ddl/CreateSpec.lean` and `CreateSpec2.lean` are how PostgreSQL reads CREATE TABLE, CREATE FUNCTION,
  ALTER TABLE ADD PRIMARY KEY and CREATE TRIGGER, as far as the code
  writes them.
* `Verif/Sql/Db.lean` (catalogs and the constraints PostgreSQL maintains, `Db.WF`) and
  `Verif/Sql/Ast.lean` (meaning of the SELECTs: joins, ORDER BY in collation C for names, NULLS LAST,
  visibility by search path, comments by class oid). `tools/sql2lean.py` copies the SQL text out of
  the Go files; that the AST prints as this text is proved (`*_text`).
* pgx: a query gives rows and then possibly a failure; Scan refuses NULL for string, int, bool.
  TLS: pgx uses the three TLS fields as written in `ConnConfig.transports`.
* Go library contracts: `sort.Slice`/`sort.Strings` (a sorted permutation if the comparison is a
  strict weak order, otherwise some permutation), `fmt` padding, `strconv`, `filepath.Ext`, UTF-8
  decoding; `strconv.ParseFloat` is a parameter. zap: a core writes the entries of at least its level.
* gohcl: a block's body sets the fields with an hcl tag and no others. `Verif/Hcl/Model.lean` is its
  encoding and decoding of structs by tags; what cty does to texts (normal form) and numbers and its
  conversions are parameters with the contract `Lib.Sound`.
* `encoding/json`: a field is found by its name in any case (`equalFold`), `null` changes nothing in a
  struct and empties a map, list or pointer, numbers go through strconv, a RawMessage keeps the text of a
  value, and reading that text gives the value (`Json.Text`; inhabited, `text_exists`).
* hclwrite: `Verif/Hcl/Text.lean` follows its printing, from knowledge, with `unicode.IsPrint` and the text
  of numbers as parameters; it prints the two files of printed output in the repository byte for byte.
  hclparse reads what `Verif/Hcl/TextSpec.lean` reads (and more), as the same document.
* `%q` and `strconv.Quote`: `Verif/Fmt/Model.lean` follows Go 1.12, from knowledge; `strconv.IsPrint` is a parameter.
* kingpin (v2.2.6): `Verif/Cli/Kingpin.lean` follows its parser from knowledge. `--help`, `help` and
  `@FILE` are told apart but not followed.
* prettyjson (v0.0.0-20190818) and fatih/color: `Verif/Eval/Model.lean` follows them from knowledge, as it
  does `Unmarshal` into an `interface{}`. `float64` is a parameter (`Eval.Sound`; `naturals_sound` is one).
* gographviz: what each `Add...` call adds to a graph (`Verif/Dot/Model.lean`), from knowledge. The text
  it prints is not modelled; how it writes names is a parameter (`Spec.Apart`).
* `path/filepath` and `os/exec` (`Verif/Path/Model.lean`, `Verif/Sh/Program.lean`) follow Go 1.11-1.14 from
  knowledge; the operating system follows a path as `Verif/Path/Spec.lean` does (no symbolic links).
* `pgx.ParseEnvLibpq` (v3.6.0; `Verif/Pg/Env.lean`) from knowledge. PGSSLCERT, PGSSLKEY, PGSSLROOTCERT, PGAPPNAME
  and PGCONNECT_TIMEOUT are taken as unset. Everything but C117 holds for any configuration it may return.
* The Go memory model: what `HB` in `Verif/Runner/Race.lean`, `Verif/TaskSet/Race.lean` and `Verif/TaskSet/Sync.lean`
  says (program order, go statements, messages, the mutex; nothing else orders events), and which memory an
  action reads and writes.
* Files are named; two names are two files (no links).

## Disagreements between code and expectation (bugs found)

Each is a theorem `..._refuted` (or part of one) with a concrete witness, next to the
`..._partial` theorem that says what holds.

DAG and scheduler
* A cycle through a node named "" is reported as an empty cycle (C05).
* `DependencyGraph.Next` deletes from the list it iterates over and so skips the entry after each one
  it returns (C11). At least half of the startable tasks are returned. Tasks of one target therefore influence the order of another's (C149).
* The scheduler reports "" as completed when it starts: what depends on a task named "" runs at once
  (C12, C18, C23, C134).

Runner
* With circular or dangling dependencies `Run` can return nil without running anything; it never runs anything then (C20, `C20_invalid`).
* Without tasks `Run` deadlocks, whatever the schedule (C21, `C21_no_tasks`).
* If a task fails while another runs on the same target, `Run` can deadlock (C22).
* After a target failed to start, tasks of targets already started may still run (C26).
* The same for files: a file with a circular dependency runs successfully without doing anything
  (C85), a file without tasks or a failing task on a target with concurrency 2 hangs (C88).
* With a negative `connect_retries` the program panics without having connected; with a `concurrency`
  too large for a channel it panics too (C87).
* With `connect_retries` the connections of all attempts but the last are never closed; and if a target
  cannot be started, those of the others are not (C92).
* In examples/words.jsonnet the first listing of the table is not written to come after init.sql, which creates the
  table. On a database without it the first run may fail, and then hang (C88), depending on the schedule.
* A target has one goroutine: whatever its concurrency, it works on one task at a time (C106). With a
  concurrency above 1 the scheduler hands out a second task, the router waits for the target with that
  task in its hand, and meanwhile no task of any target is started (C105).

Shell, demo
* A `Set` key containing "=" is added again at each application (C29).
* A command is looked for in pgutil's own PATH, whatever PATH the target or task sets; and a relative entry of
  PATH is searched from the directory pgutil was started in but run from that of the runbook (C116).
* Sleeping for more than 9223372036 seconds does not pause (C33).
* A null task or target in a runbook is a nil dereference (C35).
* If a target or task has a `Config` and a `config`, only the last is looked at; the other may contain
  anything (C93). A `null` in a list of dependencies is a dependency on a task named "".

Program
* Errors are printed to standard output, where the result was expected. `ping`, `version`, `runbook list`
  and `runbook dot` exit with status 0 although nothing could be written (C96).

DDL
* `Index.ToSQL` is empty unless the index is a primary key (C38).
* Function bodies containing `$$` or ending in `$` break out of the quoting (C39).
* `ToSQL` never writes the schema, owner, comment, foreign keys or names of checks. Function names are not
  quoted. Each time a function is inspected and created again its body gets another line break in front. A
  table with checks and without columns gives no valid statement (C111).
* `Trigger.ToSQL` writes UPDATE or nothing whatever the events, and no statement it writes is read
  back (C40).
* Text inside a CHECK expression sets the NO INHERIT / NOT VALID / DEFERRABLE flags (C42).
* Not read back although PostgreSQL prints it: ON UPDATE before ON DELETE, DEFERRABLE at the end
  without trailing blank, an expression after the first index key, nested parentheses in a key, a
  descending key (taken as an operator class), NOT DEFERRABLE INITIALLY IMMEDIATE on constraint
  triggers, blanks inside string literals of a condition, quoted and schema-qualified names (C47).
* A vertical tab is white space for the grammar but not for the code that compares actions (C48).
* The caret of a parse error is off when the position is a line break (C49).
* `DescribeTrigger` logs the statement of `ListTriggers` (triggers.go:42; C124).
* `Exec` logs the number of rows affected when the statement has failed (pg.go:92 tests `err != nil`; C128).
* An inspection is not done in one transaction: what it describes may never have existed (C127).
* The position of a parse error is the number of the state of the generated machine: the caret is under the first byte of the text wherever the refused byte is, and elsewhere at random if the text ends too early (C122).
* `autovacuum_enabled=off` makes the inspection fail; `autovacuum_vacuum_cost_delay` and
  `toast_tuple_target` are dropped; `autovacuum_vacuum_cost_limit` is kept in a field named
  AutovacuumVacuumCostDelay (C51).

Schema files
* A byte that is not UTF-8 becomes U+FFFD in a schema file, so it is not read back (C112_not_utf8).
* Texts that are not in Unicode normal form C change when they are written and read (C81).

Server access
* The connect loop has no break: all attempts are made, each success leaks a connection, the last
  attempt decides, and with a negative number of retries New reports success with a nil connection
  (C54).
* `2^retries` is an exclusive or: delays are 100, 200, 300, 0, 700 ms... (C55).
* With a password PGSSLMODE is ignored. Without one, and with PGSSLMODE=verify-full and a host given as an option, the
  certificate is checked for PGHOST instead of the host connected to (C117).
* `ErrNoHostForTLS` is defined but never returned: with a password and no host, `New` tries a connection that verifies
  the certificate for the empty name (C131).
* A debug log that is also the output is emptied in the middle, and one that is the runbook spoils it (C132).
* A command that is killed while it writes leaves a beginning of its output, the old contents are lost (C137).
* After a failure tasks of other targets still begin if they have been handed out, at most as many as the concurrency of the target says (C139).
* A file whose concurrencies add up to 2^62 or more is accepted but not run: making the channels panics, or they are made with the capacity that is left after wrapping around. With two targets of 2^62 it is 0, and a run of four tasks can hang although nothing fails (C141; C21, C24 and C88 are about files for which it does not wrap around).
* What tasks of different targets write at the same time gets mixed, since all of them write to the same standard output directly (C142).
* ORDER BY leaves the order of overloaded functions open, and that of foreign keys with the same columns to
  tables of the same name: inspecting the same database twice can give different files (C119).
* `rows.Err` is never called: a listing cut short by a failure is returned as complete (C56).
* SortChecks sorts a copy; SortIndexes' comparison is not an order (C58).
* The search path is split at commas only: blanks, quotes, quoted commas and the empty path are
  misread (C68).
* ListTables, ListFunctions, ListSequences leave out what the search path does not find (C72, C74,
  C75); ListSequences leaves out sequences that no column owns (C74).
* DescribeFunction picks an arbitrary one of several functions of the name (C67). DescribeTrigger
  finds internal triggers, which ListTriggers leaves out.

Task sets
* A queue closed while nothing is outstanding is never answered: the goroutine hangs. Whenever a client closes the queue
  this can happen, as the tasks may all end before the goroutine looks (C60).
* maxConcurrency bounds the buffers, not the tasks that run (C61).
* after / provides / requires are read and dropped (C69).
* The pg and sh tasks of a task set print what they should do, and report success (C114).
* A negative max_concurrency is accepted and makes Start panic (C98).
* No sleep task pauses: `Seconds` has no tag and `Ready` is not called (C99).

Commands
* `runbook list` breaks on ids with line breaks and on ids of more than a million bytes (C63).
* `runbook dot -O x.dot` empties its input (C64).
* The output file is truncated before the runbook is read (C66).
* Log messages go to standard output (C70).
* `runbook dot` ignores the result of the write (C71).
* `runbook eval` prints names without escaping them: the text may not be JSON, or mean something else
  (C102, C104).
* `--color true` has no effect unless standard output is a terminal (C103).
* A value that begins with `-` or `@` can only be written `--name=value` (kingpin, C100).
- C152: in a schema file the `=` of an object's properties stand below each other, so a storage parameter
  with a longer name changes the lines of the other parameters as well.
- C153: two commands that write to the same file at the same time may leave a mixture of their outputs, and both succeed.
- C154: if a task set file describes a task or target twice, the later block silently replaces the earlier, so order matters.
- C157: Told of the completion of something that is not a task, the scheduler frees a place of the target whose name is empty, if there is one (`C157_unknown`).

## The repository's tests on the model

Nothing here is built from the Go code, so the model can differ from it. To find such differences the cases of the
repository's own unit tests are evaluated on the model, as `example`s (they are tests of the model, not claims):

| module | tests of the repository |
|---|---|
| `Verif/Tests/DdlParsers.lean` (made by `tools/gen_conform.py` from the test files) | all cases of `check_parser_test.go`, `index_parser_test.go`, `foreign_key_parser_test.go`, `trigger_parser_test.go`, and `TestParseError` |
| `Verif/Tests/Dag.lean` | `dag/*_test.go`, `runbook/scheduler/scheduler_test.go` |
| `Verif/Tests/Sh.lean` | `sh/exec_internal_test.go`, `sh/env_test.go`, `sh/sh_test.go`, `pg/pg_test.go` (what is accepted), `demo/demo_test.go`, `logger_test.go`, `runbook_test.go` `TestParse`, `commands/runbook_list_test.go` |
| `Verif/Tests/Cli.lean` | `cli_internal_test.go`, `cli/version_test.go` (the command) |
| `Verif/Tests/Parser.lean` | `runbook/parser/parser_test.go` (files as evaluated) |

Others are theorems: `TestRunWithFailedTask` and the run of message.jsonnet (`C89_fail`, `C89_message`), `ddl_test.go`
(`expected_text`), the expected output of `docker_integration_test.go` (`docker_text`), `taskset/parser/parser_test.go`
and `TestDemoTaskExecution` (`measurements_load`, `C118_demo_test`). Not evaluated: the integration tests (they need a
server or processes), `runbook_dot_test.go` and `runbook_eval_test.go` beyond the claims about them (C101, C102), and
`runner_internal_test.go`, which drives the goroutine of the scheduler alone.

## Axioms

`tools/gen_axioms.py` writes this section from `#print axioms` of each theorem in MANIFEST.json.

<!-- axioms -->

none:

* `Verif.Ddl.C49_error_after_end`
* `Verif.Demo.C33_refuted`
* `Verif.Pg.C56_failure_truncates`
* `Verif.Sh.C31_check_error`

propext:

* `Verif.Book.C35_parse_never_panics_partial`
* `Verif.Book.C35_refuted`
* `Verif.Cmd.C66_exact`
* `Verif.Cmd.C66_output_kept_partial`
* `Verif.Cmd.C66_refuted`
* `Verif.Cmd.C71_refuted`
* `Verif.Dag.C11_refuted`
* `Verif.Dag.C162_names_matter`
* `Verif.Ddl.C111_refuted`
* `Verif.Ddl.C37_quoteName_injective`
* `Verif.Ddl.C37_quoteName_one_identifier`
* `Verif.Ddl.C38_refuted`
* `Verif.Ddl.C38_trigger_names_confined`
* `Verif.Ddl.C39_refuted`
* `Verif.Ddl.C40_refuted`
* `Verif.Ddl.C40_trigger_events_partial`
* `Verif.Ddl.C50_attrs_known`
* `Verif.Ddl.C51_refuted`
* `Verif.Fmt.C120_refuted`
* `Verif.Hcl.C152_block_partial`
* `Verif.Hcl.C152_refuted`
* `Verif.Hcl.C155_same_kind`
* `Verif.Hcl.docker_text`
* `Verif.Hcl.expected_text`
* `Verif.Pg.C110_legacy_query`
* `Verif.Pg.C56_refuted`
* `Verif.Pg.C58_indexLess_same`
* `Verif.Run.C123_refused`
* `Verif.Run.C129_eval`
* `Verif.Runner.C134_refuted`
* `Verif.Runner.C138_refuted`
* `Verif.Runner.C139_refuted`
* `Verif.Runner.C142_refuted`
* `Verif.Runner.C146_needs_one_target`
* `Verif.Runner.C149_refuted`
* `Verif.Runner.C166_order_may_change`
* `Verif.Runner.C18_refuted`
* `Verif.Runner.C21_refuted`
* `Verif.Runner.C26_refuted`
* `Verif.Sched.C12_refuted`
* `Verif.Sched.C157_unknown`
* `Verif.Sched.C158_exists`
* `Verif.Sched.C163_order_matters`
* `Verif.Sched.C165_low_limit`
* `Verif.Sh.C29_refuted`
* `Verif.TaskSet.C114_refuted`
* `Verif.TaskSet.C154_refuted`
* `Verif.TaskSet.C61_refuted`
* `Verif.TaskSet.C69_demo`
* `Verif.TaskSet.Demo.C98_refuted`
* `Verif.TaskSet.Demo.C98_refuted_text`
* `Verif.TaskSet.Demo.test_tasks`
* `Verif.TaskSet.demo_loads`
* `Verif.TaskSet.measurements_load`

propext, Classical.choice, Quot.sound:

* `Verif.Book.C34_parse_sound`
* `Verif.Book.C34_reference_unique`
* `Verif.Book.C35_parse_result`
* `Verif.Book.C35_parse_succeeds_iff`
* `Verif.Book.C36_parse_failure_order_independent`
* `Verif.Book.C36_parse_order_independent`
* `Verif.Cli.C100_command_lines`
* `Verif.Cli.C100_end_to_end`
* `Verif.Cmd.C63_exact`
* `Verif.Cmd.C63_list_partial`
* `Verif.Dag.C01_newDirectedGraph_exact`
* `Verif.Dag.C02_digraph_refinement`
* `Verif.Dag.C03_tsort_topological`
* `Verif.Dag.C04_tsort_decides_acyclicity`
* `Verif.Dag.C05_cycle_genuine_partial`
* `Verif.Dag.C05_cycle_or_unnamed`
* `Verif.Dag.C05_refuted`
* `Verif.Dag.C06_tsort_deterministic`
* `Verif.Dag.C06_tsort_map_order`
* `Verif.Dag.C07_newDependencyGraph_exact`
* `Verif.Dag.C08_next_dependencies_reported`
* `Verif.Dag.C09_next_once_hasPending_exact`
* `Verif.Dag.C10_next_progress`
* `Verif.Dag.C11_exact`
* `Verif.Dag.C11_next_at_least_half_partial`
* `Verif.Dag.C159_within`
* `Verif.Dag.C162_calls`
* `Verif.Dag.C162_cycle`
* `Verif.Dag.C162_order`
* `Verif.Ddl.C111_table_partial`
* `Verif.Ddl.C111_trigger_partial`
* `Verif.Ddl.C122_exact`
* `Verif.Ddl.C122_first_byte`
* `Verif.Ddl.C122_one_place`
* `Verif.Ddl.C122_points_partial`
* `Verif.Ddl.C122_refuted`
* `Verif.Ddl.C39_exact`
* `Verif.Ddl.C41_check_grammar`
* `Verif.Ddl.C42_check_fields_partial`
* `Verif.Ddl.C42_check_flags`
* `Verif.Ddl.C43_index_grammar`
* `Verif.Ddl.C44_foreign_key_grammar`
* `Verif.Ddl.C45_trigger_grammar`
* `Verif.Ddl.C46_parsers_never_panic`
* `Verif.Ddl.C47_foreign_key_exact`
* `Verif.Ddl.C47_foreign_key_round_trip_partial`
* `Verif.Ddl.C47_index_exact`
* `Verif.Ddl.C47_index_round_trip_partial`
* `Verif.Ddl.C47_trigger_exact`
* `Verif.Ddl.C47_trigger_round_trip_partial`
* `Verif.Ddl.C48_exact`
* `Verif.Ddl.C48_spelling_irrelevant_partial`
* `Verif.Ddl.C49_at_newline`
* `Verif.Ddl.C49_error_shows_position_partial`
* `Verif.Ddl.C49_error_total`
* `Verif.Ddl.C49_exact`
* `Verif.Ddl.C49_in_line`
* `Verif.Ddl.C51_exact`
* `Verif.Demo.C32_commute`
* `Verif.Demo.C32_involution_iff_valid`
* `Verif.Demo.C32_involutions`
* `Verif.Demo.C32_rev_reverses`
* `Verif.Demo.C32_rot13_is_rot13`
* `Verif.Demo.C33_exact`
* `Verif.Dot.C101_command`
* `Verif.Dot.C101_draws_file`
* `Verif.Dot.C101_draws_runbook`
* `Verif.Eval.C102_colours_partial`
* `Verif.Eval.C102_command`
* `Verif.Eval.C102_json_partial`
* `Verif.Eval.C102_refuted`
* `Verif.Eval.C103_colours_partial`
* `Verif.Eval.C103_exact`
* `Verif.Eval.C103_refuted`
* `Verif.Eval.C104_refuted`
* `Verif.Eval.C104_rejects_partial`
* `Verif.Eval.C104_same_partial`
* `Verif.Fmt.C120_command`
* `Verif.Fmt.C120_dependencies_partial`
* `Verif.Fmt.C120_one_line`
* `Verif.Hcl.C112_document`
* `Verif.Hcl.C112_same_file`
* `Verif.Hcl.C112_text`
* `Verif.Hcl.C81_inspected_partial`
* `Verif.Hcl.C81_partial`
* `Verif.Hcl.C81_read_back`
* `Verif.Hcl.C81_refuted`
* `Verif.Hcl.C82_strict`
* `Verif.Hcl.C83_kept`
* `Verif.Hcl.C83_stable`
* `Verif.Json.C107_concurrent`
* `Verif.Json.C107_demo`
* `Verif.Json.C107_messages`
* `Verif.Json.C107_scripts`
* `Verif.Json.C107_words`
* `Verif.Json.C93_accepts_iff_partial`
* `Verif.Json.C93_reads_partial`
* `Verif.Json.C94_invalid_not_run`
* `Verif.Json.C94_success_means_done`
* `Verif.Json.Twice.C130_reads`
* `Verif.Json.Twice.C130_twice`
* `Verif.Main.C119_file_partial`
* `Verif.Main.C132_refuted`
* `Verif.Main.C153_files_partial`
* `Verif.Main.C153_together_partial`
* `Verif.Main.C95_failure`
* `Verif.Main.C95_inspect`
* `Verif.Main.C96_exit_status_partial`
* `Verif.Main.C96_run`
* `Verif.Pg.C54_stops_at_first_success_partial`
* `Verif.Pg.C55_doubling_partial`
* `Verif.Pg.C56_listings_partial`
* `Verif.Pg.C57_inspect_complete`
* `Verif.Pg.C58_sort_partial`
* `Verif.Pg.Session.C124_refuted`
* `Verif.Pg.Session.C125_read_only`
* `Verif.Run.C108_can_succeed`
* `Verif.Run.C109_messages`
* `Verif.Run.C115_basedir`
* `Verif.Run.C115_directory`
* `Verif.Run.C115_same`
* `Verif.Run.C117_runs`
* `Verif.Run.C123_own_kind`
* `Verif.Run.C140_all_or_nothing`
* `Verif.Run.C140_follows_partial`
* `Verif.Run.C143_listed_partial`
* `Verif.Run.C143_refuted`
* `Verif.Run.C147_same_calls`
* `Verif.Run.C147_same_output`
* `Verif.Run.C150_lines`
* `Verif.Run.C150_same_lines`
* `Verif.Run.C151_calls`
* `Verif.Run.C85_invalid`
* `Verif.Run.C85_refuted`
* `Verif.Run.C85_success_means_done_partial`
* `Verif.Run.C86_all`
* `Verif.Run.C86_effects`
* `Verif.Run.C86_order_partial`
* `Verif.Run.C86_sequence`
* `Verif.Run.C87_fail_never_succeeds_partial`
* `Verif.Run.C87_failure_has_a_cause`
* `Verif.Run.C87_no_panic_partial`
* `Verif.Run.C87_refuted_concurrency`
* `Verif.Run.C88_comes_to_an_end`
* `Verif.Run.C88_every_run_is_finite`
* `Verif.Run.C88_exact`
* `Verif.Run.C88_no_tasks`
* `Verif.Run.C88_refuted_failure`
* `Verif.Run.C88_refuted_no_tasks`
* `Verif.Run.C88_run_returns_partial`
* `Verif.Run.C88_stranded`
* `Verif.Run.C89_any_order`
* `Verif.Run.C89_fail`
* `Verif.Run.C89_message`
* `Verif.Run.C89_output`
* `Verif.Run.C90_demo_runs`
* `Verif.Run.C91_connections`
* `Verif.Run.C92_closed_once`
* `Verif.Run.C92_closed_partial`
* `Verif.Run.C92_exact`
* `Verif.Run.C92_refuted`
* `Verif.Run.exists_talk`
* `Verif.Runner.C105_no_waiting_partial`
* `Verif.Runner.C105_refuted`
* `Verif.Runner.C105_refuted_skipped`
* `Verif.Runner.C106_in_progress_partial`
* `Verif.Runner.C106_refuted`
* `Verif.Runner.C121_success`
* `Verif.Runner.C121_targets`
* `Verif.Runner.C121_tasks`
* `Verif.Runner.C133_no_race`
* `Verif.Runner.C133_sent_once`
* `Verif.Runner.C134_visible_partial`
* `Verif.Runner.C138_ends`
* `Verif.Runner.C138_killed_partial`
* `Verif.Runner.C138_resume_partial`
* `Verif.Runner.C139_own_target`
* `Verif.Runner.C139_stops_partial`
* `Verif.Runner.C141_finite`
* `Verif.Runner.C141_refuted_hangs`
* `Verif.Runner.C141_safe_partial`
* `Verif.Runner.C141_succeeds_partial`
* `Verif.Runner.C142_dependencies_first_partial`
* `Verif.Runner.C142_nothing_afterwards`
* `Verif.Runner.C142_one_after_the_other_partial`
* `Verif.Runner.C142_one_target`
* `Verif.Runner.C142_while_it_runs`
* `Verif.Runner.C144_refuted`
* `Verif.Runner.C144_same_result_partial`
* `Verif.Runner.C144_which`
* `Verif.Runner.C146_same_order`
* `Verif.Runner.C146_same_run`
* `Verif.Runner.C146_success`
* `Verif.Runner.C148_by_name`
* `Verif.Runner.C148_fifo`
* `Verif.Runner.C149_own_order_partial`
* `Verif.Runner.C151_in_order`
* `Verif.Runner.C151_same_order`
* `Verif.Runner.C151_success`
* `Verif.Runner.C160_same_ends`
* `Verif.Runner.C160_same_runs`
* `Verif.Runner.C161_renamed_runs`
* `Verif.Runner.C164_renamed_runs`
* `Verif.Runner.C165_runs`
* `Verif.Runner.C166_accepted`
* `Verif.Runner.C166_result`
* `Verif.Runner.C166_waits`
* `Verif.Runner.C169_runs`
* `Verif.Runner.C18_run_dependency_order_partial`
* `Verif.Runner.C19_run_at_most_once_one_per_target`
* `Verif.Runner.C20_exact`
* `Verif.Runner.C20_invalid`
* `Verif.Runner.C20_nil_means_all_succeeded_partial`
* `Verif.Runner.C20_refuted`
* `Verif.Runner.C21_every_schedule_is_finite`
* `Verif.Runner.C21_exact`
* `Verif.Runner.C21_no_deadlock_when_all_succeed_partial`
* `Verif.Runner.C21_no_tasks`
* `Verif.Runner.C22_exact`
* `Verif.Runner.C22_no_deadlock_on_failure_partial`
* `Verif.Runner.C22_refuted`
* `Verif.Runner.C22_stranded`
* `Verif.Runner.C23_dependents_of_failed_never_run_partial`
* `Verif.Runner.C23_run_reports_failure`
* `Verif.Runner.C24_channels_never_overflow`
* `Verif.Runner.C24_no_send_blocks`
* `Verif.Runner.C25_clean_shutdown`
* `Verif.Runner.C25_stopped_after_last_handle`
* `Verif.Runner.C26_exact`
* `Verif.Runner.C26_start_failure_is_returned_partial`
* `Verif.Runner.exists_log`
* `Verif.Sched.C12_scheduler_dependencies_partial`
* `Verif.Sched.C13_handed_out_once_on_own_target`
* `Verif.Sched.C145_determined`
* `Verif.Sched.C145_made`
* `Verif.Sched.C14_concurrency_limit`
* `Verif.Sched.C156_determined`
* `Verif.Sched.C156_made`
* `Verif.Sched.C157_made`
* `Verif.Sched.C157_renamed`
* `Verif.Sched.C158_higher_limits`
* `Verif.Sched.C15_never_stalls`
* `Verif.Sched.C163_made`
* `Verif.Sched.C163_renamed`
* `Verif.Sched.C165_limits`
* `Verif.Sched.C169_idle_target`
* `Verif.Sched.C16_driving_hands_out_everything`
* `Verif.Sched.C16_errNoPendingTasks_exact`
* `Verif.Sched.C17_fifo`
* `Verif.Sched.C17_waits_only_for_capacity`
* `Verif.Sh.C116_settings_partial`
* `Verif.Sh.C27_apply_lookup_first`
* `Verif.Sh.C27_apply_lookup_last`
* `Verif.Sh.C28_apply_keeps_order`
* `Verif.Sh.C28_apply_leaks_nothing`
* `Verif.Sh.C28_apply_order_irrelevant`
* `Verif.Sh.C29_any_order_partial`
* `Verif.Sh.C29_apply_idempotent_partial`
* `Verif.Sh.C30_command_environment`
* `Verif.Sh.C30_denied_stays_denied`
* `Verif.Sql.C119_exact_partial`
* `Verif.Sql.C119_refuted`
* `Verif.Sql.C119_same_partial`
* `Verif.Sql.C67_function_partial`
* `Verif.Sql.C67_refuted`
* `Verif.Sql.C67_session_function_partial`
* `Verif.Sql.C67_session_trigger`
* `Verif.Sql.C67_trigger`
* `Verif.Sql.C72_refuted`
* `Verif.Sql.C72_tables_partial`
* `Verif.Sql.C73_columns`
* `Verif.Sql.C74_refuted`
* `Verif.Sql.C74_sequences_partial`
* `Verif.Sql.C75_functions_partial`
* `Verif.Sql.C75_refuted`
* `Verif.Sql.C76_describe`
* `Verif.Sql.C76_triggers`
* `Verif.Sql.C77_checks`
* `Verif.Sql.C77_foreign_keys`
* `Verif.Sql.C77_indexes`
* `Verif.Sql.C78_schemas`
* `Verif.Sql.C79_storage`
* `Verif.Sql.C80_inspect`
* `Verif.Sql.C80_never_skips`
* `Verif.Sql.C80_session`
* `Verif.TaskSet.C113_document`
* `Verif.TaskSet.C114_prints_partial`
* `Verif.TaskSet.C154_order_partial`
* `Verif.TaskSet.C168_any_order`
* `Verif.TaskSet.C168_results`
* `Verif.TaskSet.C59_exactly_once`
* `Verif.TaskSet.C60_exact`
* `Verif.TaskSet.C60_never_sure`
* `Verif.TaskSet.C60_refuted`
* `Verif.TaskSet.C60_shuts_down_partial`
* `Verif.TaskSet.C61_concurrency_partial`
* `Verif.TaskSet.C62_task_sets`
* `Verif.TaskSet.C69_exact`
* `Verif.TaskSet.C69_refuted`
* `Verif.TaskSet.Demo.C118_decrypt`
* `Verif.TaskSet.Demo.C118_demo_test`
* `Verif.TaskSet.Demo.C118_round_ends`
* `Verif.TaskSet.Demo.C118_rounds`
* `Verif.TaskSet.Demo.C135_no_race`
* `Verif.TaskSet.Demo.C135_numbers`
* `Verif.TaskSet.Demo.C135_watched`
* `Verif.TaskSet.Demo.C97_final`
* `Verif.TaskSet.Demo.C97_one_at_a_time`
* `Verif.TaskSet.Demo.C98_exact`
* `Verif.TaskSet.Demo.C99_refuted`
* `Verif.TaskSet.Sync.C136_numbers`
* `Verif.TaskSet.Sync.C136_rounds`
* `Verif.TaskSet.Sync.C136_visible`
* `Verif.TaskSet.Sync.C136_watched`

propext, Quot.sound:

* `Verif.Book.C35_certain`
* `Verif.Book.C35_exact`
* `Verif.Cli.C100_wrong`
* `Verif.Cmd.C63_refuted`
* `Verif.Cmd.C64_auto_output_partial`
* `Verif.Cmd.C64_exact`
* `Verif.Cmd.C64_extension_exists_unique`
* `Verif.Cmd.C64_refuted`
* `Verif.Cmd.C65_monotone`
* `Verif.Cmd.C65_verbosity`
* `Verif.Cmd.C70_exact`
* `Verif.Cmd.C70_refuted`
* `Verif.Cmd.C70_stdout_is_result_partial`
* `Verif.Cmd.C71_exact`
* `Verif.Cmd.C71_success_means_written_partial`
* `Verif.Ddl.C111_function_partial`
* `Verif.Ddl.C111_key_partial`
* `Verif.Ddl.C38_index_names_confined_partial`
* `Verif.Ddl.C38_table_names_confined`
* `Verif.Ddl.C39_function_body_partial`
* `Verif.Ddl.C40_exact`
* `Verif.Ddl.C42_refuted`
* `Verif.Ddl.C47_refuted`
* `Verif.Ddl.C48_refuted`
* `Verif.Ddl.C49_refuted`
* `Verif.Ddl.C50_set_rejects`
* `Verif.Ddl.C50_set_stores_value`
* `Verif.Ddl.C50_set_unknown`
* `Verif.Ddl.C51_list_parameters_partial`
* `Verif.Demo.C33_sleep_pause_partial`
* `Verif.Eval.C102_fails`
* `Verif.Fmt.C120_one_reading`
* `Verif.Hcl.C112_not_utf8`
* `Verif.Hcl.C152_added_partial`
* `Verif.Hcl.C152_object_partial`
* `Verif.Hcl.C152_value_partial`
* `Verif.Hcl.C155_order`
* `Verif.Hcl.C84_storage`
* `Verif.Hcl.C84_written`
* `Verif.Json.C93_no_unknown_members`
* `Verif.Json.C93_refuted`
* `Verif.Main.C132_debug_partial`
* `Verif.Main.C132_inspect`
* `Verif.Main.C132_refused_line`
* `Verif.Main.C132_same`
* `Verif.Main.C132_unopened`
* `Verif.Main.C137_exact`
* `Verif.Main.C137_killed_partial`
* `Verif.Main.C137_refuted`
* `Verif.Main.C137_runs`
* `Verif.Main.C153_refuted`
* `Verif.Main.C95_connections`
* `Verif.Main.C96_exact`
* `Verif.Main.C96_refuted`
* `Verif.Main.C96_usage`
* `Verif.Pg.C110_identifier`
* `Verif.Pg.C110_injective`
* `Verif.Pg.C117_refuted`
* `Verif.Pg.C117_safe`
* `Verif.Pg.C117_sslmode_partial`
* `Verif.Pg.C117_transports`
* `Verif.Pg.C117_unreadable`
* `Verif.Pg.C117_values`
* `Verif.Pg.C131_exact`
* `Verif.Pg.C131_named_partial`
* `Verif.Pg.C131_refuted`
* `Verif.Pg.C52_options_win`
* `Verif.Pg.C53_tls_policy`
* `Verif.Pg.C53_transports`
* `Verif.Pg.C54_all_attempts`
* `Verif.Pg.C54_refuted`
* `Verif.Pg.C55_delays`
* `Verif.Pg.C55_refuted`
* `Verif.Pg.C56_sequences_partial`
* `Verif.Pg.C58_refuted`
* `Verif.Pg.C58_sortChecks_no_effect`
* `Verif.Pg.C68_refuted`
* `Verif.Pg.C68_search_path_partial`
* `Verif.Pg.Session.C124_exact`
* `Verif.Pg.Session.C124_inspect_partial`
* `Verif.Pg.Session.C125_inspect`
* `Verif.Pg.Session.C126_asked`
* `Verif.Pg.Session.C127_parts_partial`
* `Verif.Pg.Session.C127_still_partial`
* `Verif.Pg.Session.C128_exact`
* `Verif.Pg.Session.C128_failed_partial`
* `Verif.Pg.Session.C128_refuted`
* `Verif.Run.C129_environment`
* `Verif.Run.C129_run`
* `Verif.Run.C129_shown`
* `Verif.Run.C140_refuted`
* `Verif.Run.C86_refuted`
* `Verif.Run.C87_refuted_retries`
* `Verif.Run.C87_rejected_not_run`
* `Verif.Runner.C141_refuted_panics`
* `Verif.Sh.C116_exact`
* `Verif.Sh.C116_names_partial`
* `Verif.Sh.C116_refuted`
* `Verif.Sh.C31_check_exact`
* `Verif.Sh.C31_checked_never_panics`
* `Verif.Sql.C127_refuted`
* `Verif.TaskSet.C167_all_seen`
* `Verif.TaskSet.C167_no_influence`
* `Verif.TaskSet.Demo.C98_start_partial`
* `Verif.TaskSet.Demo.C99_sleep_partial`
