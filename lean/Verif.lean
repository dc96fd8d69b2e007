import Verif.Base.Str
import Verif.Base.GoMap
import Verif.Dag.Model
import Verif.Dag.Spec
import Verif.Dag.Directed
import Verif.Dag.TSortLemmas
import Verif.Dag.DependencyLemmas
import Verif.Dag.Props
import Verif.Dag.Exact
import Verif.Dag.Within
import Verif.Sched.Model
import Verif.Sched.Lemmas
import Verif.Sched.Protocol
import Verif.Sched.Props
import Verif.Runner.Model
import Verif.Runner.Control
import Verif.Runner.Flow
import Verif.Runner.Progress
import Verif.Runner.Trace
import Verif.Runner.Props
import Verif.Runner.Race
import Verif.Runner.RaceProps
import Verif.Runner.Visible
import Verif.Runner.Examples
import Verif.Runner.Wait
import Verif.Runner.Exact
import Verif.Runner.StartExact
import Verif.Runner.Log
import Verif.Runner.LogProps
import Verif.Runner.LogExamples
import Verif.Base.Utf8
import Verif.Sh.Model
import Verif.Sh.Spec
import Verif.Sh.Lemmas
import Verif.Sh.Props
import Verif.Demo.Model
import Verif.Demo.Props
import Verif.Book.Model
import Verif.Book.Spec
import Verif.Book.Classes
import Verif.Book.Props
import Verif.Book.ParseExact
import Verif.Base.Byte
import Verif.Ddl.Model
import Verif.Ddl.Lexer
import Verif.Ddl.SqlProps
import Verif.Ddl.SqlExact
import Verif.Ddl.CreateSpec
import Verif.Ddl.CreateProps
import Verif.Ddl.CreateSpec2
import Verif.Ddl.CreateProps2
import Verif.Ddl.Params
import Verif.Ddl.ParamsProps
import Verif.Ddl.Error
import Verif.Ddl.ErrorProps
import Verif.Ragel.Machine
import Verif.Ragel.Gram
import Verif.Ragel.Bisim
import Verif.Ragel.Comb
import Verif.Ddl.Tables.Check
import Verif.Ddl.Tables.Index
import Verif.Ddl.Tables.ForeignKey
import Verif.Ddl.Tables.Trigger
import Verif.Ddl.Grammars
import Verif.Ddl.Certs.Index
import Verif.Ddl.Certs.ForeignKey
import Verif.Ddl.Certs.Trigger
import Verif.Ddl.Text
import Verif.Ddl.Parse
import Verif.Ddl.ParseSpec
import Verif.Ddl.TextLemmas
import Verif.Ddl.Pieces
import Verif.Ragel.Track
import Verif.Ddl.Certs.Check
import Verif.Ddl.Certs.CheckDeferrable
import Verif.Ddl.Certs.CheckDeferred
import Verif.Ddl.KwLemmas
import Verif.Ddl.IndexParse
import Verif.Ddl.FkParse
import Verif.Ddl.TriggerParse
import Verif.Ddl.CheckParse
import Verif.Ddl.NoPanic
import Verif.Ddl.ParseProps
import Verif.Ddl.PgText
import Verif.Ddl.RoundTrip
import Verif.Ddl.RoundTripExact
import Verif.Ddl.SpellExact
import Verif.Ddl.PointSpec
import Verif.Ddl.Certs.Live
import Verif.Ddl.Live
import Verif.Ddl.PointProps
import Verif.Pg.Connect
import Verif.Pg.ConnectSpec
import Verif.Pg.ConnectProps
import Verif.Pg.List
import Verif.Pg.Inspect
import Verif.Pg.ListSpec
import Verif.Pg.ListProps
import Verif.Pg.InspectProps
import Verif.Pg.Identifier
import Verif.TaskSet.Run
import Verif.TaskSet.RunProps
import Verif.TaskSet.Parse
import Verif.TaskSet.ParseSpec
import Verif.TaskSet.ParseProps
import Verif.Cmd.List
import Verif.Cmd.ListProps
import Verif.Cmd.Log
import Verif.Cmd.LogProps
import Verif.Cmd.Output
import Verif.Cmd.OutputProps
import Verif.Cmd.OutputExact
import Verif.Pg.SearchPath
import Verif.Sql.Texts
import Verif.Sql.Db
import Verif.Sql.Ast
import Verif.Sql.Queries
import Verif.Sql.Serve
import Verif.Sql.Spec
import Verif.Sql.Solve
import Verif.Sql.Solved
import Verif.Sql.Listings
import Verif.Sql.Server
import Verif.Sql.Props
import Verif.Sql.InspectSpec
import Verif.Sql.InspectLemmas
import Verif.Sql.InspectProps
import Verif.Hcl.Model
import Verif.Hcl.Tags
import Verif.Hcl.Text
import Verif.Hcl.TextSpec
import Verif.Hcl.TextLemmas
import Verif.Hcl.TextParse
import Verif.Hcl.TextOk
import Verif.Hcl.Texts
import Verif.Hcl.TextProps
import Verif.Base.KernelRfl
import Verif.Hcl.Ddl
import Verif.Hcl.Spec
import Verif.Hcl.DocSpec
import Verif.Hcl.FormSpec
import Verif.Hcl.Docs
import Verif.Hcl.Lemmas
import Verif.Hcl.Laws
import Verif.Hcl.StrictLemmas
import Verif.Hcl.KeepLemmas
import Verif.Hcl.Strict
import Verif.Hcl.FitsLemmas
import Verif.Hcl.Fits
import Verif.Hcl.FormLemmas
import Verif.Hcl.Props
import Verif.Hcl.Order
import Verif.Hcl.Diff
import Verif.Run.Model
import Verif.Run.Spec
import Verif.Run.Lemmas
import Verif.Run.Net
import Verif.Run.Props
import Verif.Run.Exact
import Verif.Run.Output
import Verif.Run.Examples
import Verif.Run.Runs
import Verif.Run.Connections
import Verif.Run.DbRuns
import Verif.Json.Model
import Verif.Json.Spec
import Verif.Json.Lemmas
import Verif.Json.Decode
import Verif.Json.Configs
import Verif.Json.Props
import Verif.Json.Docs
import Verif.Json.Examples
import Verif.Main.Model
import Verif.Main.Spec
import Verif.Main.Inspect
import Verif.Main.Examples
import Verif.Main.RunCmd
import Verif.Main.Exit
import Verif.Main.ExitExact
import Verif.TaskSet.Demo
import Verif.TaskSet.DemoSpec
import Verif.TaskSet.DemoProps
import Verif.TaskSet.Doc
import Verif.TaskSet.DocSpec
import Verif.TaskSet.DocLemmas
import Verif.TaskSet.Texts
import Verif.TaskSet.DocProps
import Verif.TaskSet.Order
import Verif.TaskSet.Print
import Verif.TaskSet.PrintProps
import Verif.Cli.Kingpin
import Verif.Cli.Model
import Verif.Cli.Spec
import Verif.Cli.Lemmas
import Verif.Cli.Reject
import Verif.Cli.Props
import Verif.Dot.Model
import Verif.Dot.Spec
import Verif.Dot.Props
import Verif.Eval.Model
import Verif.Eval.Spec
import Verif.Eval.Reader
import Verif.Eval.Lemmas
import Verif.Eval.Decode
import Verif.Eval.Text
import Verif.Eval.Props
import Verif.Eval.Like
import Verif.Eval.Same
import Verif.Eval.Runbook
import Verif.Run.Sequence
import Verif.Json.Shipped
import Verif.Run.Success
import Verif.Run.Messages
import Verif.Json.Messages
import Verif.Path.Model
import Verif.Path.Spec
import Verif.Path.Lemmas
import Verif.Path.Place
import Verif.Sh.Program
import Verif.Sh.ProgramSpec
import Verif.Sh.ProgramProps
import Verif.Run.Directory
import Verif.Pg.Env
import Verif.Pg.EnvSpec
import Verif.Pg.EnvProps
import Verif.Run.Variables
import Verif.TaskSet.Rounds
import Verif.Sql.SameSpec
import Verif.Sql.Same
import Verif.Sql.SameProps
import Verif.Sql.Swap
import Verif.Sql.SameExact
import Verif.Main.Same
import Verif.Fmt.Model
import Verif.Fmt.Spec
import Verif.Fmt.Lemmas
import Verif.Fmt.Props
import Verif.Tests.Dag
import Verif.Tests.DdlParsers
import Verif.Tests.Sh
import Verif.Tests.Cli
import Verif.Tests.Parser
import Verif.Run.Kinds
import Verif.TaskSet.RunExact
import Verif.TaskSet.Bound
import Verif.TaskSet.AnyOrder
import Verif.Pg.SessionProps
import Verif.Pg.ReadOnlyProps
import Verif.Pg.AskedProps
import Verif.Pg.MomentProps
import Verif.Sql.MomentProps
import Verif.Sql.SessionProps
import Verif.Run.SecretProps
import Verif.Json.TwiceProps
import Verif.Pg.HostProps
import Verif.Main.Debug
import Verif.Main.DebugProps
import Verif.TaskSet.Race
import Verif.TaskSet.RaceProps
import Verif.TaskSet.Sync
import Verif.TaskSet.SyncProps
import Verif.Main.Crash
import Verif.Main.CrashProps
import Verif.Main.Together
import Verif.Runner.Resume
import Verif.Runner.Stop
import Verif.Run.Drawing
import Verif.Runner.Room
import Verif.Runner.RoomProps
import Verif.Runner.Output
import Verif.Runner.OutputProps
import Verif.Run.Listing
import Verif.Runner.Outcome
import Verif.Sched.Same
import Verif.Sched.Ample
import Verif.Sched.Idle
import Verif.Sched.TaskNames
import Verif.Sched.TaskRename
import Verif.Sched.Rename
import Verif.Sched.Limits
import Verif.Runner.Order
import Verif.Runner.SameBook
import Verif.Runner.Rename
import Verif.Runner.TaskRename
import Verif.Runner.Ample
import Verif.Runner.Implied
import Verif.Runner.Idle
import Verif.Runner.Names
import Verif.Run.SameOutput
import Verif.Run.Lines
import Verif.Runner.Chain
import Verif.Run.Chain
