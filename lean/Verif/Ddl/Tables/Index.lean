import Verif.Ragel.Machine

/-!
# The state machine of `/repo/internal/ddl/index_parser.go`

Generated by tools/ragel2lean.py from the generated Go code; do not edit.
-/

namespace Verif.Ddl
open Verif.Ragel

/-- The actions of index_parser.rl:1-82 other than `addToBuffer`. -/
inductive IndexAct where
  | addColumn
  | addExpression
  | setName
  | setOpClass
  | setTable
  | setUsing
  | setWhere
  | matchUnique
deriving DecidableEq, Repr

/-- index_parser.go:155-1193: one row per state. -/
def indexRows : List (Row IndexAct) := [
  { state := 0, rules := [], eof := [] },
  -- index_parser.go:156-171
  { state := 1, rules := [
      ⟨9, 13, [], 1⟩, ⟨32, 32, [], 1⟩, ⟨67, 67, [], 2⟩, ⟨99, 99, [], 2⟩],
    eof := [] },
  -- index_parser.go:177-187
  { state := 2, rules := [
      ⟨82, 82, [], 3⟩, ⟨114, 114, [], 3⟩],
    eof := [] },
  -- index_parser.go:189-199
  { state := 3, rules := [
      ⟨69, 69, [], 4⟩, ⟨101, 101, [], 4⟩],
    eof := [] },
  -- index_parser.go:201-211
  { state := 4, rules := [
      ⟨65, 65, [], 5⟩, ⟨97, 97, [], 5⟩],
    eof := [] },
  -- index_parser.go:213-223
  { state := 5, rules := [
      ⟨84, 84, [], 6⟩, ⟨116, 116, [], 6⟩],
    eof := [] },
  -- index_parser.go:225-235
  { state := 6, rules := [
      ⟨69, 69, [], 7⟩, ⟨101, 101, [], 7⟩],
    eof := [] },
  -- index_parser.go:237-247
  { state := 7, rules := [
      ⟨9, 13, [], 8⟩, ⟨32, 32, [], 8⟩],
    eof := [] },
  -- index_parser.go:249-268
  { state := 8, rules := [
      ⟨9, 13, [], 8⟩, ⟨32, 32, [], 8⟩, ⟨73, 73, [], 9⟩, ⟨85, 85, [], 46⟩,
      ⟨105, 105, [], 9⟩, ⟨117, 117, [], 46⟩],
    eof := [] },
  -- index_parser.go:270-280
  { state := 9, rules := [
      ⟨78, 78, [], 10⟩, ⟨110, 110, [], 10⟩],
    eof := [] },
  -- index_parser.go:282-292
  { state := 10, rules := [
      ⟨68, 68, [], 11⟩, ⟨100, 100, [], 11⟩],
    eof := [] },
  -- index_parser.go:294-304
  { state := 11, rules := [
      ⟨69, 69, [], 12⟩, ⟨101, 101, [], 12⟩],
    eof := [] },
  -- index_parser.go:306-316
  { state := 12, rules := [
      ⟨88, 88, [], 13⟩, ⟨120, 120, [], 13⟩],
    eof := [] },
  -- index_parser.go:318-328
  { state := 13, rules := [
      ⟨9, 13, [], 14⟩, ⟨32, 32, [], 14⟩],
    eof := [] },
  -- index_parser.go:330-349
  { state := 14, rules := [
      ⟨9, 13, [], 14⟩, ⟨32, 32, [], 14⟩, ⟨65, 90, [.push], 15⟩, ⟨97, 122, [.push], 15⟩],
    eof := [] },
  -- index_parser.go:357-385
  { state := 15, rules := [
      ⟨9, 13, [.act .setName], 16⟩, ⟨32, 32, [.act .setName], 16⟩, ⟨48, 57, [.push], 15⟩,
      ⟨65, 90, [.push], 15⟩, ⟨95, 95, [.push], 15⟩, ⟨97, 122, [.push], 15⟩],
    eof := [] },
  -- index_parser.go:394-410
  { state := 16, rules := [
      ⟨9, 13, [], 16⟩, ⟨32, 32, [], 16⟩, ⟨79, 79, [], 17⟩, ⟨111, 111, [], 17⟩],
    eof := [] },
  -- index_parser.go:412-422
  { state := 17, rules := [
      ⟨78, 78, [], 18⟩, ⟨110, 110, [], 18⟩],
    eof := [] },
  -- index_parser.go:424-434
  { state := 18, rules := [
      ⟨9, 13, [], 19⟩, ⟨32, 32, [], 19⟩],
    eof := [] },
  -- index_parser.go:436-455
  { state := 19, rules := [
      ⟨9, 13, [], 19⟩, ⟨32, 32, [], 19⟩, ⟨65, 90, [.push], 20⟩, ⟨97, 122, [.push], 20⟩],
    eof := [] },
  -- index_parser.go:463-491
  { state := 20, rules := [
      ⟨9, 13, [.act .setTable], 21⟩, ⟨32, 32, [.act .setTable], 21⟩, ⟨48, 57, [.push], 20⟩,
      ⟨65, 90, [.push], 20⟩, ⟨95, 95, [.push], 20⟩, ⟨97, 122, [.push], 20⟩],
    eof := [] },
  -- index_parser.go:500-518
  { state := 21, rules := [
      ⟨9, 13, [], 21⟩, ⟨32, 32, [], 21⟩, ⟨40, 40, [], 22⟩, ⟨85, 85, [], 38⟩,
      ⟨117, 117, [], 38⟩],
    eof := [] },
  -- index_parser.go:520-542
  { state := 22, rules := [
      ⟨9, 13, [], 22⟩, ⟨32, 32, [], 22⟩, ⟨40, 40, [.push], 23⟩, ⟨65, 90, [.push], 37⟩,
      ⟨97, 122, [.push], 37⟩],
    eof := [] },
  -- index_parser.go:550-558
  { state := 23, rules := [
      ⟨0, 40, [.push], 24⟩, ⟨42, 255, [.push], 24⟩],
    eof := [] },
  -- index_parser.go:566-574
  { state := 24, rules := [
      ⟨0, 40, [.push], 24⟩, ⟨41, 41, [.push], 25⟩, ⟨42, 255, [.push], 24⟩],
    eof := [] },
  -- index_parser.go:582-598
  { state := 25, rules := [
      ⟨9, 13, [.act .addExpression], 26⟩, ⟨32, 32, [.act .addExpression], 26⟩,
      ⟨41, 41, [.act .addExpression], 53⟩, ⟨44, 44, [.act .addExpression], 33⟩],
    eof := [] },
  -- index_parser.go:614-639
  { state := 26, rules := [
      ⟨9, 13, [], 26⟩, ⟨32, 32, [], 26⟩, ⟨41, 41, [], 53⟩, ⟨44, 44, [], 33⟩,
      ⟨65, 90, [.push], 35⟩, ⟨97, 122, [.push], 35⟩],
    eof := [] },
  -- index_parser.go:692-702
  { state := 27, rules := [
      ⟨72, 72, [], 28⟩, ⟨104, 104, [], 28⟩],
    eof := [] },
  -- index_parser.go:704-714
  { state := 28, rules := [
      ⟨69, 69, [], 29⟩, ⟨101, 101, [], 29⟩],
    eof := [] },
  -- index_parser.go:716-726
  { state := 29, rules := [
      ⟨82, 82, [], 30⟩, ⟨114, 114, [], 30⟩],
    eof := [] },
  -- index_parser.go:728-738
  { state := 30, rules := [
      ⟨69, 69, [], 31⟩, ⟨101, 101, [], 31⟩],
    eof := [] },
  -- index_parser.go:740-750
  { state := 31, rules := [
      ⟨9, 13, [], 32⟩, ⟨32, 32, [], 32⟩],
    eof := [] },
  -- index_parser.go:752-756
  { state := 32, rules := [
      ⟨0, 255, [.push], 55⟩],
    eof := [] },
  -- index_parser.go:792-812
  { state := 33, rules := [
      ⟨9, 13, [], 33⟩, ⟨32, 32, [], 33⟩, ⟨65, 90, [.push], 34⟩, ⟨97, 122, [.push], 34⟩],
    eof := [] },
  -- index_parser.go:820-852
  { state := 34, rules := [
      ⟨9, 13, [.act .addColumn], 26⟩, ⟨32, 32, [.act .addColumn], 26⟩,
      ⟨41, 41, [.act .addColumn], 53⟩, ⟨44, 44, [.act .addColumn], 33⟩,
      ⟨48, 57, [.push], 34⟩, ⟨65, 90, [.push], 34⟩, ⟨95, 95, [.push], 34⟩,
      ⟨97, 122, [.push], 34⟩],
    eof := [] },
  -- index_parser.go:860-892
  { state := 35, rules := [
      ⟨9, 13, [.act .setOpClass], 36⟩, ⟨32, 32, [.act .setOpClass], 36⟩,
      ⟨41, 41, [.act .setOpClass], 53⟩, ⟨44, 44, [.act .setOpClass], 33⟩,
      ⟨48, 57, [.push], 35⟩, ⟨65, 90, [.push], 35⟩, ⟨95, 95, [.push], 35⟩,
      ⟨97, 122, [.push], 35⟩],
    eof := [] },
  -- index_parser.go:901-917
  { state := 36, rules := [
      ⟨9, 13, [], 36⟩, ⟨32, 32, [], 36⟩, ⟨41, 41, [], 53⟩, ⟨44, 44, [], 33⟩],
    eof := [] },
  -- index_parser.go:925-959
  { state := 37, rules := [
      ⟨9, 13, [.act .addColumn], 26⟩, ⟨32, 32, [.act .addColumn], 26⟩,
      ⟨40, 40, [.push], 24⟩, ⟨41, 41, [.act .addColumn], 53⟩,
      ⟨44, 44, [.act .addColumn], 33⟩, ⟨48, 57, [.push], 37⟩, ⟨65, 90, [.push], 37⟩,
      ⟨95, 95, [.push], 37⟩, ⟨97, 122, [.push], 37⟩],
    eof := [] },
  -- index_parser.go:961-971
  { state := 38, rules := [
      ⟨83, 83, [], 39⟩, ⟨115, 115, [], 39⟩],
    eof := [] },
  -- index_parser.go:973-983
  { state := 39, rules := [
      ⟨73, 73, [], 40⟩, ⟨105, 105, [], 40⟩],
    eof := [] },
  -- index_parser.go:985-995
  { state := 40, rules := [
      ⟨78, 78, [], 41⟩, ⟨110, 110, [], 41⟩],
    eof := [] },
  -- index_parser.go:997-1007
  { state := 41, rules := [
      ⟨71, 71, [], 42⟩, ⟨103, 103, [], 42⟩],
    eof := [] },
  -- index_parser.go:1009-1019
  { state := 42, rules := [
      ⟨9, 13, [], 43⟩, ⟨32, 32, [], 43⟩],
    eof := [] },
  -- index_parser.go:1021-1040
  { state := 43, rules := [
      ⟨9, 13, [], 43⟩, ⟨32, 32, [], 43⟩, ⟨65, 90, [.push], 44⟩, ⟨97, 122, [.push], 44⟩],
    eof := [] },
  -- index_parser.go:1048-1076
  { state := 44, rules := [
      ⟨9, 13, [.act .setUsing], 45⟩, ⟨32, 32, [.act .setUsing], 45⟩, ⟨48, 57, [.push], 44⟩,
      ⟨65, 90, [.push], 44⟩, ⟨95, 95, [.push], 44⟩, ⟨97, 122, [.push], 44⟩],
    eof := [] },
  -- index_parser.go:1085-1099
  { state := 45, rules := [
      ⟨9, 13, [], 45⟩, ⟨32, 32, [], 45⟩, ⟨40, 40, [], 22⟩],
    eof := [] },
  -- index_parser.go:1101-1111
  { state := 46, rules := [
      ⟨78, 78, [], 47⟩, ⟨110, 110, [], 47⟩],
    eof := [] },
  -- index_parser.go:1113-1123
  { state := 47, rules := [
      ⟨73, 73, [], 48⟩, ⟨105, 105, [], 48⟩],
    eof := [] },
  -- index_parser.go:1125-1135
  { state := 48, rules := [
      ⟨81, 81, [], 49⟩, ⟨113, 113, [], 49⟩],
    eof := [] },
  -- index_parser.go:1137-1147
  { state := 49, rules := [
      ⟨85, 85, [], 50⟩, ⟨117, 117, [], 50⟩],
    eof := [] },
  -- index_parser.go:1149-1159
  { state := 50, rules := [
      ⟨69, 69, [.act .matchUnique], 51⟩, ⟨101, 101, [.act .matchUnique], 51⟩],
    eof := [] },
  -- index_parser.go:1165-1176
  { state := 51, rules := [
      ⟨9, 13, [], 52⟩, ⟨32, 32, [], 52⟩],
    eof := [] },
  -- index_parser.go:1178-1193
  { state := 52, rules := [
      ⟨9, 13, [], 52⟩, ⟨32, 32, [], 52⟩, ⟨73, 73, [], 9⟩, ⟨105, 105, [], 9⟩],
    eof := [] },
  -- index_parser.go:662-673
  { state := 53, rules := [
      ⟨9, 13, [], 54⟩, ⟨32, 32, [], 54⟩],
    eof := [] },
  -- index_parser.go:675-690
  { state := 54, rules := [
      ⟨9, 13, [], 54⟩, ⟨32, 32, [], 54⟩, ⟨87, 87, [], 27⟩, ⟨119, 119, [], 27⟩],
    eof := [] },
  -- index_parser.go:764-769
  { state := 55, rules := [
      ⟨0, 255, [.push], 55⟩],
    eof := [.setWhere] }]

/-- index_parser.go:13-15: the constants and the table. -/
def indexMachine : Machine IndexAct :=
  { start := 1, firstFinal := 53, rows := indexRows }

end Verif.Ddl
