import Verif.Ragel.Machine

/-!
# The state machine of `/repo/internal/ddl/trigger_parser.go`

Generated by tools/ragel2lean.py from the generated Go code; do not edit.
-/

namespace Verif.Ddl
open Verif.Ragel

/-- The actions of trigger_parser.rl:1-89 other than `addToBuffer`. -/
inductive TriggerAct where
  | addColumn
  | setFunction
  | setName
  | setTable
  | setWhen
  | matchConstraint
  | matchDeferrable
  | matchInitiallyDeferred
  | matchForEachRow
  | matchDelete
  | matchInsert
  | matchTruncate
  | matchUpdate
deriving DecidableEq, Repr

/-- trigger_parser.go:417-3183: one row per state. -/
def triggerRows : List (Row TriggerAct) := [
  { state := 0, rules := [], eof := [] },
  -- trigger_parser.go:418-433
  { state := 1, rules := [
      ⟨9, 13, [], 1⟩, ⟨32, 32, [], 1⟩, ⟨67, 67, [], 2⟩, ⟨99, 99, [], 2⟩],
    eof := [] },
  -- trigger_parser.go:439-449
  { state := 2, rules := [
      ⟨82, 82, [], 3⟩, ⟨114, 114, [], 3⟩],
    eof := [] },
  -- trigger_parser.go:451-461
  { state := 3, rules := [
      ⟨69, 69, [], 4⟩, ⟨101, 101, [], 4⟩],
    eof := [] },
  -- trigger_parser.go:463-473
  { state := 4, rules := [
      ⟨65, 65, [], 5⟩, ⟨97, 97, [], 5⟩],
    eof := [] },
  -- trigger_parser.go:475-485
  { state := 5, rules := [
      ⟨84, 84, [], 6⟩, ⟨116, 116, [], 6⟩],
    eof := [] },
  -- trigger_parser.go:487-497
  { state := 6, rules := [
      ⟨69, 69, [], 7⟩, ⟨101, 101, [], 7⟩],
    eof := [] },
  -- trigger_parser.go:499-509
  { state := 7, rules := [
      ⟨9, 13, [], 8⟩, ⟨32, 32, [], 8⟩],
    eof := [] },
  -- trigger_parser.go:511-530
  { state := 8, rules := [
      ⟨9, 13, [], 8⟩, ⟨32, 32, [], 8⟩, ⟨67, 67, [], 9⟩, ⟨84, 84, [], 20⟩, ⟨99, 99, [], 9⟩,
      ⟨116, 116, [], 20⟩],
    eof := [] },
  -- trigger_parser.go:532-542
  { state := 9, rules := [
      ⟨79, 79, [], 10⟩, ⟨111, 111, [], 10⟩],
    eof := [] },
  -- trigger_parser.go:544-554
  { state := 10, rules := [
      ⟨78, 78, [], 11⟩, ⟨110, 110, [], 11⟩],
    eof := [] },
  -- trigger_parser.go:556-566
  { state := 11, rules := [
      ⟨83, 83, [], 12⟩, ⟨115, 115, [], 12⟩],
    eof := [] },
  -- trigger_parser.go:568-578
  { state := 12, rules := [
      ⟨84, 84, [], 13⟩, ⟨116, 116, [], 13⟩],
    eof := [] },
  -- trigger_parser.go:580-590
  { state := 13, rules := [
      ⟨82, 82, [], 14⟩, ⟨114, 114, [], 14⟩],
    eof := [] },
  -- trigger_parser.go:592-602
  { state := 14, rules := [
      ⟨65, 65, [], 15⟩, ⟨97, 97, [], 15⟩],
    eof := [] },
  -- trigger_parser.go:604-614
  { state := 15, rules := [
      ⟨73, 73, [], 16⟩, ⟨105, 105, [], 16⟩],
    eof := [] },
  -- trigger_parser.go:616-626
  { state := 16, rules := [
      ⟨78, 78, [], 17⟩, ⟨110, 110, [], 17⟩],
    eof := [] },
  -- trigger_parser.go:628-638
  { state := 17, rules := [
      ⟨84, 84, [.act .matchConstraint], 18⟩, ⟨116, 116, [.act .matchConstraint], 18⟩],
    eof := [] },
  -- trigger_parser.go:644-655
  { state := 18, rules := [
      ⟨9, 13, [], 19⟩, ⟨32, 32, [], 19⟩],
    eof := [] },
  -- trigger_parser.go:657-672
  { state := 19, rules := [
      ⟨9, 13, [], 19⟩, ⟨32, 32, [], 19⟩, ⟨84, 84, [], 20⟩, ⟨116, 116, [], 20⟩],
    eof := [] },
  -- trigger_parser.go:674-684
  { state := 20, rules := [
      ⟨82, 82, [], 21⟩, ⟨114, 114, [], 21⟩],
    eof := [] },
  -- trigger_parser.go:686-696
  { state := 21, rules := [
      ⟨73, 73, [], 22⟩, ⟨105, 105, [], 22⟩],
    eof := [] },
  -- trigger_parser.go:698-708
  { state := 22, rules := [
      ⟨71, 71, [], 23⟩, ⟨103, 103, [], 23⟩],
    eof := [] },
  -- trigger_parser.go:710-720
  { state := 23, rules := [
      ⟨71, 71, [], 24⟩, ⟨103, 103, [], 24⟩],
    eof := [] },
  -- trigger_parser.go:722-732
  { state := 24, rules := [
      ⟨69, 69, [], 25⟩, ⟨101, 101, [], 25⟩],
    eof := [] },
  -- trigger_parser.go:734-744
  { state := 25, rules := [
      ⟨82, 82, [], 26⟩, ⟨114, 114, [], 26⟩],
    eof := [] },
  -- trigger_parser.go:746-756
  { state := 26, rules := [
      ⟨9, 13, [], 27⟩, ⟨32, 32, [], 27⟩],
    eof := [] },
  -- trigger_parser.go:758-777
  { state := 27, rules := [
      ⟨9, 13, [], 27⟩, ⟨32, 32, [], 27⟩, ⟨65, 90, [.push], 28⟩, ⟨97, 122, [.push], 28⟩],
    eof := [] },
  -- trigger_parser.go:785-813
  { state := 28, rules := [
      ⟨9, 13, [.act .setName], 29⟩, ⟨32, 32, [.act .setName], 29⟩, ⟨48, 57, [.push], 28⟩,
      ⟨65, 90, [.push], 28⟩, ⟨95, 95, [.push], 28⟩, ⟨97, 122, [.push], 28⟩],
    eof := [] },
  -- trigger_parser.go:822-846
  { state := 29, rules := [
      ⟨9, 13, [], 29⟩, ⟨32, 32, [], 29⟩, ⟨65, 65, [.push], 30⟩, ⟨66, 66, [.push], 172⟩,
      ⟨73, 73, [.push], 177⟩, ⟨97, 97, [.push], 30⟩, ⟨98, 98, [.push], 172⟩,
      ⟨105, 105, [.push], 177⟩],
    eof := [] },
  -- trigger_parser.go:854-865
  { state := 30, rules := [
      ⟨70, 70, [.push], 31⟩, ⟨102, 102, [.push], 31⟩],
    eof := [] },
  -- trigger_parser.go:873-884
  { state := 31, rules := [
      ⟨84, 84, [.push], 32⟩, ⟨116, 116, [.push], 32⟩],
    eof := [] },
  -- trigger_parser.go:892-903
  { state := 32, rules := [
      ⟨69, 69, [.push], 33⟩, ⟨101, 101, [.push], 33⟩],
    eof := [] },
  -- trigger_parser.go:911-922
  { state := 33, rules := [
      ⟨82, 82, [.push], 34⟩, ⟨114, 114, [.push], 34⟩],
    eof := [] },
  -- trigger_parser.go:930-941
  { state := 34, rules := [
      ⟨9, 13, [.act .setWhen], 35⟩, ⟨32, 32, [.act .setWhen], 35⟩],
    eof := [] },
  -- trigger_parser.go:950-978
  { state := 35, rules := [
      ⟨9, 13, [], 35⟩, ⟨32, 32, [], 35⟩, ⟨68, 68, [], 36⟩, ⟨73, 73, [], 148⟩,
      ⟨84, 84, [], 153⟩, ⟨85, 85, [], 160⟩, ⟨100, 100, [], 36⟩, ⟨105, 105, [], 148⟩,
      ⟨116, 116, [], 153⟩, ⟨117, 117, [], 160⟩],
    eof := [] },
  -- trigger_parser.go:980-990
  { state := 36, rules := [
      ⟨69, 69, [], 37⟩, ⟨101, 101, [], 37⟩],
    eof := [] },
  -- trigger_parser.go:992-1002
  { state := 37, rules := [
      ⟨76, 76, [], 38⟩, ⟨108, 108, [], 38⟩],
    eof := [] },
  -- trigger_parser.go:1004-1014
  { state := 38, rules := [
      ⟨69, 69, [], 39⟩, ⟨101, 101, [], 39⟩],
    eof := [] },
  -- trigger_parser.go:1016-1026
  { state := 39, rules := [
      ⟨84, 84, [], 40⟩, ⟨116, 116, [], 40⟩],
    eof := [] },
  -- trigger_parser.go:1028-1038
  { state := 40, rules := [
      ⟨69, 69, [.act .matchDelete], 41⟩, ⟨101, 101, [.act .matchDelete], 41⟩],
    eof := [] },
  -- trigger_parser.go:1052-1063
  { state := 41, rules := [
      ⟨9, 13, [], 42⟩, ⟨32, 32, [], 42⟩],
    eof := [] },
  -- trigger_parser.go:1065-1080
  { state := 42, rules := [
      ⟨9, 13, [], 42⟩, ⟨32, 32, [], 42⟩, ⟨79, 79, [], 43⟩, ⟨111, 111, [], 43⟩],
    eof := [] },
  -- trigger_parser.go:1082-1096
  { state := 43, rules := [
      ⟨78, 78, [], 44⟩, ⟨82, 82, [], 147⟩, ⟨110, 110, [], 44⟩, ⟨114, 114, [], 147⟩],
    eof := [] },
  -- trigger_parser.go:1098-1108
  { state := 44, rules := [
      ⟨9, 13, [], 45⟩, ⟨32, 32, [], 45⟩],
    eof := [] },
  -- trigger_parser.go:1110-1129
  { state := 45, rules := [
      ⟨9, 13, [], 45⟩, ⟨32, 32, [], 45⟩, ⟨65, 90, [.push], 46⟩, ⟨97, 122, [.push], 46⟩],
    eof := [] },
  -- trigger_parser.go:1137-1165
  { state := 46, rules := [
      ⟨9, 13, [.act .setTable], 47⟩, ⟨32, 32, [.act .setTable], 47⟩, ⟨48, 57, [.push], 46⟩,
      ⟨65, 90, [.push], 46⟩, ⟨95, 95, [.push], 46⟩, ⟨97, 122, [.push], 46⟩],
    eof := [] },
  -- trigger_parser.go:1174-1206
  { state := 47, rules := [
      ⟨9, 13, [], 47⟩, ⟨32, 32, [], 47⟩, ⟨68, 68, [], 48⟩, ⟨69, 69, [], 60⟩,
      ⟨70, 70, [], 87⟩, ⟨73, 73, [], 108⟩, ⟨78, 78, [], 135⟩, ⟨100, 100, [], 48⟩,
      ⟨101, 101, [], 60⟩, ⟨102, 102, [], 87⟩, ⟨105, 105, [], 108⟩, ⟨110, 110, [], 135⟩],
    eof := [] },
  -- trigger_parser.go:1208-1218
  { state := 48, rules := [
      ⟨69, 69, [], 49⟩, ⟨101, 101, [], 49⟩],
    eof := [] },
  -- trigger_parser.go:1220-1230
  { state := 49, rules := [
      ⟨70, 70, [], 50⟩, ⟨102, 102, [], 50⟩],
    eof := [] },
  -- trigger_parser.go:1232-1242
  { state := 50, rules := [
      ⟨69, 69, [], 51⟩, ⟨101, 101, [], 51⟩],
    eof := [] },
  -- trigger_parser.go:1244-1254
  { state := 51, rules := [
      ⟨82, 82, [], 52⟩, ⟨114, 114, [], 52⟩],
    eof := [] },
  -- trigger_parser.go:1256-1266
  { state := 52, rules := [
      ⟨82, 82, [], 53⟩, ⟨114, 114, [], 53⟩],
    eof := [] },
  -- trigger_parser.go:1268-1278
  { state := 53, rules := [
      ⟨65, 65, [], 54⟩, ⟨97, 97, [], 54⟩],
    eof := [] },
  -- trigger_parser.go:1280-1290
  { state := 54, rules := [
      ⟨66, 66, [], 55⟩, ⟨98, 98, [], 55⟩],
    eof := [] },
  -- trigger_parser.go:1292-1302
  { state := 55, rules := [
      ⟨76, 76, [], 56⟩, ⟨108, 108, [], 56⟩],
    eof := [] },
  -- trigger_parser.go:1304-1314
  { state := 56, rules := [
      ⟨69, 69, [], 57⟩, ⟨101, 101, [], 57⟩],
    eof := [] },
  -- trigger_parser.go:1316-1326
  { state := 57, rules := [
      ⟨9, 13, [.act .matchDeferrable], 58⟩, ⟨32, 32, [.act .matchDeferrable], 58⟩],
    eof := [] },
  -- trigger_parser.go:1332-1348
  { state := 58, rules := [
      ⟨9, 13, [.act .matchDeferrable], 59⟩, ⟨32, 32, [.act .matchDeferrable], 59⟩,
      ⟨73, 73, [], 108⟩, ⟨105, 105, [], 108⟩],
    eof := [] },
  -- trigger_parser.go:1354-1378
  { state := 59, rules := [
      ⟨9, 13, [.act .matchDeferrable], 59⟩, ⟨32, 32, [.act .matchDeferrable], 59⟩,
      ⟨69, 69, [], 60⟩, ⟨70, 70, [], 87⟩, ⟨73, 73, [], 108⟩, ⟨101, 101, [], 60⟩,
      ⟨102, 102, [], 87⟩, ⟨105, 105, [], 108⟩],
    eof := [] },
  -- trigger_parser.go:1380-1390
  { state := 60, rules := [
      ⟨88, 88, [], 61⟩, ⟨120, 120, [], 61⟩],
    eof := [] },
  -- trigger_parser.go:1392-1402
  { state := 61, rules := [
      ⟨69, 69, [], 62⟩, ⟨101, 101, [], 62⟩],
    eof := [] },
  -- trigger_parser.go:1404-1414
  { state := 62, rules := [
      ⟨67, 67, [], 63⟩, ⟨99, 99, [], 63⟩],
    eof := [] },
  -- trigger_parser.go:1416-1426
  { state := 63, rules := [
      ⟨85, 85, [], 64⟩, ⟨117, 117, [], 64⟩],
    eof := [] },
  -- trigger_parser.go:1428-1438
  { state := 64, rules := [
      ⟨84, 84, [], 65⟩, ⟨116, 116, [], 65⟩],
    eof := [] },
  -- trigger_parser.go:1440-1450
  { state := 65, rules := [
      ⟨69, 69, [], 66⟩, ⟨101, 101, [], 66⟩],
    eof := [] },
  -- trigger_parser.go:1452-1462
  { state := 66, rules := [
      ⟨9, 13, [], 67⟩, ⟨32, 32, [], 67⟩],
    eof := [] },
  -- trigger_parser.go:1464-1483
  { state := 67, rules := [
      ⟨9, 13, [], 67⟩, ⟨32, 32, [], 67⟩, ⟨70, 70, [], 68⟩, ⟨80, 80, [], 79⟩,
      ⟨102, 102, [], 68⟩, ⟨112, 112, [], 79⟩],
    eof := [] },
  -- trigger_parser.go:1485-1495
  { state := 68, rules := [
      ⟨85, 85, [], 69⟩, ⟨117, 117, [], 69⟩],
    eof := [] },
  -- trigger_parser.go:1497-1507
  { state := 69, rules := [
      ⟨78, 78, [], 70⟩, ⟨110, 110, [], 70⟩],
    eof := [] },
  -- trigger_parser.go:1509-1519
  { state := 70, rules := [
      ⟨67, 67, [], 71⟩, ⟨99, 99, [], 71⟩],
    eof := [] },
  -- trigger_parser.go:1521-1531
  { state := 71, rules := [
      ⟨84, 84, [], 72⟩, ⟨116, 116, [], 72⟩],
    eof := [] },
  -- trigger_parser.go:1533-1543
  { state := 72, rules := [
      ⟨73, 73, [], 73⟩, ⟨105, 105, [], 73⟩],
    eof := [] },
  -- trigger_parser.go:1545-1555
  { state := 73, rules := [
      ⟨79, 79, [], 74⟩, ⟨111, 111, [], 74⟩],
    eof := [] },
  -- trigger_parser.go:1557-1567
  { state := 74, rules := [
      ⟨78, 78, [], 75⟩, ⟨110, 110, [], 75⟩],
    eof := [] },
  -- trigger_parser.go:1569-1579
  { state := 75, rules := [
      ⟨9, 13, [], 76⟩, ⟨32, 32, [], 76⟩],
    eof := [] },
  -- trigger_parser.go:1581-1600
  { state := 76, rules := [
      ⟨9, 13, [], 76⟩, ⟨32, 32, [], 76⟩, ⟨65, 90, [.push], 77⟩, ⟨97, 122, [.push], 77⟩],
    eof := [] },
  -- trigger_parser.go:1608-1631
  { state := 77, rules := [
      ⟨40, 40, [.act .setFunction], 78⟩, ⟨48, 57, [.push], 77⟩, ⟨65, 90, [.push], 77⟩,
      ⟨95, 95, [.push], 77⟩, ⟨97, 122, [.push], 77⟩],
    eof := [] },
  -- trigger_parser.go:1640-1648
  { state := 78, rules := [
      ⟨41, 41, [], 186⟩],
    eof := [] },
  -- trigger_parser.go:1662-1672
  { state := 79, rules := [
      ⟨82, 82, [], 80⟩, ⟨114, 114, [], 80⟩],
    eof := [] },
  -- trigger_parser.go:1674-1684
  { state := 80, rules := [
      ⟨79, 79, [], 81⟩, ⟨111, 111, [], 81⟩],
    eof := [] },
  -- trigger_parser.go:1686-1696
  { state := 81, rules := [
      ⟨67, 67, [], 82⟩, ⟨99, 99, [], 82⟩],
    eof := [] },
  -- trigger_parser.go:1698-1708
  { state := 82, rules := [
      ⟨69, 69, [], 83⟩, ⟨101, 101, [], 83⟩],
    eof := [] },
  -- trigger_parser.go:1710-1720
  { state := 83, rules := [
      ⟨68, 68, [], 84⟩, ⟨100, 100, [], 84⟩],
    eof := [] },
  -- trigger_parser.go:1722-1732
  { state := 84, rules := [
      ⟨85, 85, [], 85⟩, ⟨117, 117, [], 85⟩],
    eof := [] },
  -- trigger_parser.go:1734-1744
  { state := 85, rules := [
      ⟨82, 82, [], 86⟩, ⟨114, 114, [], 86⟩],
    eof := [] },
  -- trigger_parser.go:1746-1756
  { state := 86, rules := [
      ⟨69, 69, [], 75⟩, ⟨101, 101, [], 75⟩],
    eof := [] },
  -- trigger_parser.go:1758-1768
  { state := 87, rules := [
      ⟨79, 79, [], 88⟩, ⟨111, 111, [], 88⟩],
    eof := [] },
  -- trigger_parser.go:1770-1780
  { state := 88, rules := [
      ⟨82, 82, [], 89⟩, ⟨114, 114, [], 89⟩],
    eof := [] },
  -- trigger_parser.go:1782-1792
  { state := 89, rules := [
      ⟨9, 13, [], 90⟩, ⟨32, 32, [], 90⟩],
    eof := [] },
  -- trigger_parser.go:1794-1817
  { state := 90, rules := [
      ⟨9, 13, [], 90⟩, ⟨32, 32, [], 90⟩, ⟨69, 69, [], 91⟩, ⟨82, 82, [], 96⟩,
      ⟨83, 83, [], 100⟩, ⟨101, 101, [], 91⟩, ⟨114, 114, [], 96⟩, ⟨115, 115, [], 100⟩],
    eof := [] },
  -- trigger_parser.go:1819-1829
  { state := 91, rules := [
      ⟨65, 65, [], 92⟩, ⟨97, 97, [], 92⟩],
    eof := [] },
  -- trigger_parser.go:1831-1841
  { state := 92, rules := [
      ⟨67, 67, [], 93⟩, ⟨99, 99, [], 93⟩],
    eof := [] },
  -- trigger_parser.go:1843-1853
  { state := 93, rules := [
      ⟨72, 72, [], 94⟩, ⟨104, 104, [], 94⟩],
    eof := [] },
  -- trigger_parser.go:1855-1865
  { state := 94, rules := [
      ⟨9, 13, [], 95⟩, ⟨32, 32, [], 95⟩],
    eof := [] },
  -- trigger_parser.go:1867-1886
  { state := 95, rules := [
      ⟨9, 13, [], 95⟩, ⟨32, 32, [], 95⟩, ⟨82, 82, [], 96⟩, ⟨83, 83, [], 100⟩,
      ⟨114, 114, [], 96⟩, ⟨115, 115, [], 100⟩],
    eof := [] },
  -- trigger_parser.go:1888-1898
  { state := 96, rules := [
      ⟨79, 79, [], 97⟩, ⟨111, 111, [], 97⟩],
    eof := [] },
  -- trigger_parser.go:1900-1910
  { state := 97, rules := [
      ⟨87, 87, [.act .matchForEachRow], 98⟩, ⟨119, 119, [.act .matchForEachRow], 98⟩],
    eof := [] },
  -- trigger_parser.go:1916-1927
  { state := 98, rules := [
      ⟨9, 13, [], 99⟩, ⟨32, 32, [], 99⟩],
    eof := [] },
  -- trigger_parser.go:1929-1944
  { state := 99, rules := [
      ⟨9, 13, [], 99⟩, ⟨32, 32, [], 99⟩, ⟨69, 69, [], 60⟩, ⟨101, 101, [], 60⟩],
    eof := [] },
  -- trigger_parser.go:1946-1956
  { state := 100, rules := [
      ⟨84, 84, [], 101⟩, ⟨116, 116, [], 101⟩],
    eof := [] },
  -- trigger_parser.go:1958-1968
  { state := 101, rules := [
      ⟨65, 65, [], 102⟩, ⟨97, 97, [], 102⟩],
    eof := [] },
  -- trigger_parser.go:1970-1980
  { state := 102, rules := [
      ⟨84, 84, [], 103⟩, ⟨116, 116, [], 103⟩],
    eof := [] },
  -- trigger_parser.go:1982-1992
  { state := 103, rules := [
      ⟨69, 69, [], 104⟩, ⟨101, 101, [], 104⟩],
    eof := [] },
  -- trigger_parser.go:1994-2004
  { state := 104, rules := [
      ⟨77, 77, [], 105⟩, ⟨109, 109, [], 105⟩],
    eof := [] },
  -- trigger_parser.go:2006-2016
  { state := 105, rules := [
      ⟨69, 69, [], 106⟩, ⟨101, 101, [], 106⟩],
    eof := [] },
  -- trigger_parser.go:2018-2028
  { state := 106, rules := [
      ⟨78, 78, [], 107⟩, ⟨110, 110, [], 107⟩],
    eof := [] },
  -- trigger_parser.go:2030-2040
  { state := 107, rules := [
      ⟨84, 84, [], 98⟩, ⟨116, 116, [], 98⟩],
    eof := [] },
  -- trigger_parser.go:2042-2052
  { state := 108, rules := [
      ⟨78, 78, [], 109⟩, ⟨110, 110, [], 109⟩],
    eof := [] },
  -- trigger_parser.go:2054-2064
  { state := 109, rules := [
      ⟨73, 73, [], 110⟩, ⟨105, 105, [], 110⟩],
    eof := [] },
  -- trigger_parser.go:2066-2076
  { state := 110, rules := [
      ⟨84, 84, [], 111⟩, ⟨116, 116, [], 111⟩],
    eof := [] },
  -- trigger_parser.go:2078-2088
  { state := 111, rules := [
      ⟨73, 73, [], 112⟩, ⟨105, 105, [], 112⟩],
    eof := [] },
  -- trigger_parser.go:2090-2100
  { state := 112, rules := [
      ⟨65, 65, [], 113⟩, ⟨97, 97, [], 113⟩],
    eof := [] },
  -- trigger_parser.go:2102-2112
  { state := 113, rules := [
      ⟨76, 76, [], 114⟩, ⟨108, 108, [], 114⟩],
    eof := [] },
  -- trigger_parser.go:2114-2124
  { state := 114, rules := [
      ⟨76, 76, [], 115⟩, ⟨108, 108, [], 115⟩],
    eof := [] },
  -- trigger_parser.go:2126-2136
  { state := 115, rules := [
      ⟨89, 89, [], 116⟩, ⟨121, 121, [], 116⟩],
    eof := [] },
  -- trigger_parser.go:2138-2148
  { state := 116, rules := [
      ⟨9, 13, [], 117⟩, ⟨32, 32, [], 117⟩],
    eof := [] },
  -- trigger_parser.go:2150-2169
  { state := 117, rules := [
      ⟨9, 13, [], 117⟩, ⟨32, 32, [], 117⟩, ⟨68, 68, [], 118⟩, ⟨73, 73, [], 127⟩,
      ⟨100, 100, [], 118⟩, ⟨105, 105, [], 127⟩],
    eof := [] },
  -- trigger_parser.go:2171-2181
  { state := 118, rules := [
      ⟨69, 69, [], 119⟩, ⟨101, 101, [], 119⟩],
    eof := [] },
  -- trigger_parser.go:2183-2193
  { state := 119, rules := [
      ⟨70, 70, [], 120⟩, ⟨102, 102, [], 120⟩],
    eof := [] },
  -- trigger_parser.go:2195-2205
  { state := 120, rules := [
      ⟨69, 69, [], 121⟩, ⟨101, 101, [], 121⟩],
    eof := [] },
  -- trigger_parser.go:2207-2217
  { state := 121, rules := [
      ⟨82, 82, [], 122⟩, ⟨114, 114, [], 122⟩],
    eof := [] },
  -- trigger_parser.go:2219-2229
  { state := 122, rules := [
      ⟨82, 82, [], 123⟩, ⟨114, 114, [], 123⟩],
    eof := [] },
  -- trigger_parser.go:2231-2241
  { state := 123, rules := [
      ⟨69, 69, [], 124⟩, ⟨101, 101, [], 124⟩],
    eof := [] },
  -- trigger_parser.go:2243-2253
  { state := 124, rules := [
      ⟨68, 68, [.act .matchInitiallyDeferred], 125⟩,
      ⟨100, 100, [.act .matchInitiallyDeferred], 125⟩],
    eof := [] },
  -- trigger_parser.go:2259-2270
  { state := 125, rules := [
      ⟨9, 13, [], 126⟩, ⟨32, 32, [], 126⟩],
    eof := [] },
  -- trigger_parser.go:2272-2291
  { state := 126, rules := [
      ⟨9, 13, [], 126⟩, ⟨32, 32, [], 126⟩, ⟨69, 69, [], 60⟩, ⟨70, 70, [], 87⟩,
      ⟨101, 101, [], 60⟩, ⟨102, 102, [], 87⟩],
    eof := [] },
  -- trigger_parser.go:2293-2303
  { state := 127, rules := [
      ⟨77, 77, [], 128⟩, ⟨109, 109, [], 128⟩],
    eof := [] },
  -- trigger_parser.go:2305-2315
  { state := 128, rules := [
      ⟨77, 77, [], 129⟩, ⟨109, 109, [], 129⟩],
    eof := [] },
  -- trigger_parser.go:2317-2327
  { state := 129, rules := [
      ⟨69, 69, [], 130⟩, ⟨101, 101, [], 130⟩],
    eof := [] },
  -- trigger_parser.go:2329-2339
  { state := 130, rules := [
      ⟨68, 68, [], 131⟩, ⟨100, 100, [], 131⟩],
    eof := [] },
  -- trigger_parser.go:2341-2351
  { state := 131, rules := [
      ⟨73, 73, [], 132⟩, ⟨105, 105, [], 132⟩],
    eof := [] },
  -- trigger_parser.go:2353-2363
  { state := 132, rules := [
      ⟨65, 65, [], 133⟩, ⟨97, 97, [], 133⟩],
    eof := [] },
  -- trigger_parser.go:2365-2375
  { state := 133, rules := [
      ⟨84, 84, [], 134⟩, ⟨116, 116, [], 134⟩],
    eof := [] },
  -- trigger_parser.go:2377-2387
  { state := 134, rules := [
      ⟨69, 69, [], 125⟩, ⟨101, 101, [], 125⟩],
    eof := [] },
  -- trigger_parser.go:2389-2399
  { state := 135, rules := [
      ⟨79, 79, [], 136⟩, ⟨111, 111, [], 136⟩],
    eof := [] },
  -- trigger_parser.go:2401-2411
  { state := 136, rules := [
      ⟨84, 84, [], 137⟩, ⟨116, 116, [], 137⟩],
    eof := [] },
  -- trigger_parser.go:2413-2423
  { state := 137, rules := [
      ⟨9, 13, [], 138⟩, ⟨32, 32, [], 138⟩],
    eof := [] },
  -- trigger_parser.go:2425-2440
  { state := 138, rules := [
      ⟨9, 13, [], 138⟩, ⟨32, 32, [], 138⟩, ⟨68, 68, [], 139⟩, ⟨100, 100, [], 139⟩],
    eof := [] },
  -- trigger_parser.go:2442-2452
  { state := 139, rules := [
      ⟨69, 69, [], 140⟩, ⟨101, 101, [], 140⟩],
    eof := [] },
  -- trigger_parser.go:2454-2464
  { state := 140, rules := [
      ⟨70, 70, [], 141⟩, ⟨102, 102, [], 141⟩],
    eof := [] },
  -- trigger_parser.go:2466-2476
  { state := 141, rules := [
      ⟨69, 69, [], 142⟩, ⟨101, 101, [], 142⟩],
    eof := [] },
  -- trigger_parser.go:2478-2488
  { state := 142, rules := [
      ⟨82, 82, [], 143⟩, ⟨114, 114, [], 143⟩],
    eof := [] },
  -- trigger_parser.go:2490-2500
  { state := 143, rules := [
      ⟨82, 82, [], 144⟩, ⟨114, 114, [], 144⟩],
    eof := [] },
  -- trigger_parser.go:2502-2512
  { state := 144, rules := [
      ⟨65, 65, [], 145⟩, ⟨97, 97, [], 145⟩],
    eof := [] },
  -- trigger_parser.go:2514-2524
  { state := 145, rules := [
      ⟨66, 66, [], 146⟩, ⟨98, 98, [], 146⟩],
    eof := [] },
  -- trigger_parser.go:2526-2536
  { state := 146, rules := [
      ⟨76, 76, [], 134⟩, ⟨108, 108, [], 134⟩],
    eof := [] },
  -- trigger_parser.go:2538-2548
  { state := 147, rules := [
      ⟨9, 13, [], 35⟩, ⟨32, 32, [], 35⟩],
    eof := [] },
  -- trigger_parser.go:2550-2560
  { state := 148, rules := [
      ⟨78, 78, [], 149⟩, ⟨110, 110, [], 149⟩],
    eof := [] },
  -- trigger_parser.go:2562-2572
  { state := 149, rules := [
      ⟨83, 83, [], 150⟩, ⟨115, 115, [], 150⟩],
    eof := [] },
  -- trigger_parser.go:2574-2584
  { state := 150, rules := [
      ⟨69, 69, [], 151⟩, ⟨101, 101, [], 151⟩],
    eof := [] },
  -- trigger_parser.go:2586-2596
  { state := 151, rules := [
      ⟨82, 82, [], 152⟩, ⟨114, 114, [], 152⟩],
    eof := [] },
  -- trigger_parser.go:2598-2608
  { state := 152, rules := [
      ⟨84, 84, [.act .matchInsert], 41⟩, ⟨116, 116, [.act .matchInsert], 41⟩],
    eof := [] },
  -- trigger_parser.go:2610-2620
  { state := 153, rules := [
      ⟨82, 82, [], 154⟩, ⟨114, 114, [], 154⟩],
    eof := [] },
  -- trigger_parser.go:2622-2632
  { state := 154, rules := [
      ⟨85, 85, [], 155⟩, ⟨117, 117, [], 155⟩],
    eof := [] },
  -- trigger_parser.go:2634-2644
  { state := 155, rules := [
      ⟨78, 78, [], 156⟩, ⟨110, 110, [], 156⟩],
    eof := [] },
  -- trigger_parser.go:2646-2656
  { state := 156, rules := [
      ⟨67, 67, [], 157⟩, ⟨99, 99, [], 157⟩],
    eof := [] },
  -- trigger_parser.go:2658-2668
  { state := 157, rules := [
      ⟨65, 65, [], 158⟩, ⟨97, 97, [], 158⟩],
    eof := [] },
  -- trigger_parser.go:2670-2680
  { state := 158, rules := [
      ⟨84, 84, [], 159⟩, ⟨116, 116, [], 159⟩],
    eof := [] },
  -- trigger_parser.go:2682-2692
  { state := 159, rules := [
      ⟨69, 69, [.act .matchTruncate], 41⟩, ⟨101, 101, [.act .matchTruncate], 41⟩],
    eof := [] },
  -- trigger_parser.go:2694-2704
  { state := 160, rules := [
      ⟨80, 80, [], 161⟩, ⟨112, 112, [], 161⟩],
    eof := [] },
  -- trigger_parser.go:2706-2716
  { state := 161, rules := [
      ⟨68, 68, [], 162⟩, ⟨100, 100, [], 162⟩],
    eof := [] },
  -- trigger_parser.go:2718-2728
  { state := 162, rules := [
      ⟨65, 65, [], 163⟩, ⟨97, 97, [], 163⟩],
    eof := [] },
  -- trigger_parser.go:2730-2740
  { state := 163, rules := [
      ⟨84, 84, [], 164⟩, ⟨116, 116, [], 164⟩],
    eof := [] },
  -- trigger_parser.go:2742-2752
  { state := 164, rules := [
      ⟨69, 69, [.act .matchUpdate], 165⟩, ⟨101, 101, [.act .matchUpdate], 165⟩],
    eof := [] },
  -- trigger_parser.go:2758-2769
  { state := 165, rules := [
      ⟨9, 13, [], 166⟩, ⟨32, 32, [], 166⟩],
    eof := [] },
  -- trigger_parser.go:2771-2786
  { state := 166, rules := [
      ⟨9, 13, [], 166⟩, ⟨32, 32, [], 166⟩, ⟨79, 79, [], 167⟩, ⟨111, 111, [], 167⟩],
    eof := [] },
  -- trigger_parser.go:2788-2806
  { state := 167, rules := [
      ⟨70, 70, [], 168⟩, ⟨78, 78, [], 44⟩, ⟨82, 82, [], 147⟩, ⟨102, 102, [], 168⟩,
      ⟨110, 110, [], 44⟩, ⟨114, 114, [], 147⟩],
    eof := [] },
  -- trigger_parser.go:2808-2818
  { state := 168, rules := [
      ⟨9, 13, [], 169⟩, ⟨32, 32, [], 169⟩],
    eof := [] },
  -- trigger_parser.go:2827-2847
  { state := 169, rules := [
      ⟨9, 13, [], 169⟩, ⟨32, 32, [], 169⟩, ⟨65, 90, [.push], 170⟩, ⟨97, 122, [.push], 170⟩],
    eof := [] },
  -- trigger_parser.go:2855-2885
  { state := 170, rules := [
      ⟨9, 13, [.act .addColumn], 171⟩, ⟨32, 32, [.act .addColumn], 171⟩,
      ⟨44, 44, [.act .addColumn], 169⟩, ⟨48, 57, [.push], 170⟩, ⟨65, 90, [.push], 170⟩,
      ⟨95, 95, [.push], 170⟩, ⟨97, 122, [.push], 170⟩],
    eof := [] },
  -- trigger_parser.go:2894-2912
  { state := 171, rules := [
      ⟨9, 13, [], 171⟩, ⟨32, 32, [], 171⟩, ⟨44, 44, [], 169⟩, ⟨79, 79, [], 43⟩,
      ⟨111, 111, [], 43⟩],
    eof := [] },
  -- trigger_parser.go:2920-2931
  { state := 172, rules := [
      ⟨69, 69, [.push], 173⟩, ⟨101, 101, [.push], 173⟩],
    eof := [] },
  -- trigger_parser.go:2939-2950
  { state := 173, rules := [
      ⟨70, 70, [.push], 174⟩, ⟨102, 102, [.push], 174⟩],
    eof := [] },
  -- trigger_parser.go:2958-2969
  { state := 174, rules := [
      ⟨79, 79, [.push], 175⟩, ⟨111, 111, [.push], 175⟩],
    eof := [] },
  -- trigger_parser.go:2977-2988
  { state := 175, rules := [
      ⟨82, 82, [.push], 176⟩, ⟨114, 114, [.push], 176⟩],
    eof := [] },
  -- trigger_parser.go:2996-3007
  { state := 176, rules := [
      ⟨69, 69, [.push], 34⟩, ⟨101, 101, [.push], 34⟩],
    eof := [] },
  -- trigger_parser.go:3015-3026
  { state := 177, rules := [
      ⟨78, 78, [.push], 178⟩, ⟨110, 110, [.push], 178⟩],
    eof := [] },
  -- trigger_parser.go:3034-3045
  { state := 178, rules := [
      ⟨83, 83, [.push], 179⟩, ⟨115, 115, [.push], 179⟩],
    eof := [] },
  -- trigger_parser.go:3053-3064
  { state := 179, rules := [
      ⟨84, 84, [.push], 180⟩, ⟨116, 116, [.push], 180⟩],
    eof := [] },
  -- trigger_parser.go:3072-3083
  { state := 180, rules := [
      ⟨69, 69, [.push], 181⟩, ⟨101, 101, [.push], 181⟩],
    eof := [] },
  -- trigger_parser.go:3091-3102
  { state := 181, rules := [
      ⟨65, 65, [.push], 182⟩, ⟨97, 97, [.push], 182⟩],
    eof := [] },
  -- trigger_parser.go:3110-3121
  { state := 182, rules := [
      ⟨68, 68, [.push], 183⟩, ⟨100, 100, [.push], 183⟩],
    eof := [] },
  -- trigger_parser.go:3129-3140
  { state := 183, rules := [
      ⟨9, 13, [.push], 184⟩, ⟨32, 32, [.push], 184⟩],
    eof := [] },
  -- trigger_parser.go:3148-3164
  { state := 184, rules := [
      ⟨9, 13, [.push], 184⟩, ⟨32, 32, [.push], 184⟩, ⟨79, 79, [.push], 185⟩,
      ⟨111, 111, [.push], 185⟩],
    eof := [] },
  -- trigger_parser.go:3172-3183
  { state := 185, rules := [
      ⟨70, 70, [.push], 34⟩, ⟨102, 102, [.push], 34⟩],
    eof := [] },
  -- trigger_parser.go:1650-1660
  { state := 186, rules := [
      ⟨9, 13, [], 186⟩, ⟨32, 32, [], 186⟩],
    eof := [] }]

/-- trigger_parser.go:13-15: the constants and the table. -/
def triggerMachine : Machine TriggerAct :=
  { start := 1, firstFinal := 186, rows := triggerRows }

end Verif.Ddl
