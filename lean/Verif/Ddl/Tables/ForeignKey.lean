import Verif.Ragel.Machine

/-!
# The state machine of `/repo/internal/ddl/foreign_key_parser.go`

Generated by tools/ragel2lean.py from the generated Go code; do not edit.
-/

namespace Verif.Ddl
open Verif.Ragel

/-- The actions of foreign_key_parser.rl:1-81 other than `addToBuffer`. -/
inductive FkAct where
  | addColumn
  | addReferenced
  | setMatch
  | setOnDelete
  | setOnUpdate
  | setTable
  | matchDeferrable
  | matchInitiallyDeferred
deriving DecidableEq, Repr

/-- foreign_key_parser.go:435-3747: one row per state. -/
def foreignKeyRows : List (Row FkAct) := [
  { state := 0, rules := [], eof := [] },
  -- foreign_key_parser.go:436-451
  { state := 1, rules := [
      ⟨9, 13, [], 1⟩, ⟨32, 32, [], 1⟩, ⟨70, 70, [], 2⟩, ⟨102, 102, [], 2⟩],
    eof := [] },
  -- foreign_key_parser.go:457-467
  { state := 2, rules := [
      ⟨79, 79, [], 3⟩, ⟨111, 111, [], 3⟩],
    eof := [] },
  -- foreign_key_parser.go:469-479
  { state := 3, rules := [
      ⟨82, 82, [], 4⟩, ⟨114, 114, [], 4⟩],
    eof := [] },
  -- foreign_key_parser.go:481-491
  { state := 4, rules := [
      ⟨69, 69, [], 5⟩, ⟨101, 101, [], 5⟩],
    eof := [] },
  -- foreign_key_parser.go:493-503
  { state := 5, rules := [
      ⟨73, 73, [], 6⟩, ⟨105, 105, [], 6⟩],
    eof := [] },
  -- foreign_key_parser.go:505-515
  { state := 6, rules := [
      ⟨71, 71, [], 7⟩, ⟨103, 103, [], 7⟩],
    eof := [] },
  -- foreign_key_parser.go:517-527
  { state := 7, rules := [
      ⟨78, 78, [], 8⟩, ⟨110, 110, [], 8⟩],
    eof := [] },
  -- foreign_key_parser.go:529-539
  { state := 8, rules := [
      ⟨9, 13, [], 9⟩, ⟨32, 32, [], 9⟩],
    eof := [] },
  -- foreign_key_parser.go:541-556
  { state := 9, rules := [
      ⟨9, 13, [], 9⟩, ⟨32, 32, [], 9⟩, ⟨75, 75, [], 10⟩, ⟨107, 107, [], 10⟩],
    eof := [] },
  -- foreign_key_parser.go:558-568
  { state := 10, rules := [
      ⟨69, 69, [], 11⟩, ⟨101, 101, [], 11⟩],
    eof := [] },
  -- foreign_key_parser.go:570-580
  { state := 11, rules := [
      ⟨89, 89, [], 12⟩, ⟨121, 121, [], 12⟩],
    eof := [] },
  -- foreign_key_parser.go:582-592
  { state := 12, rules := [
      ⟨9, 13, [], 13⟩, ⟨32, 32, [], 13⟩],
    eof := [] },
  -- foreign_key_parser.go:594-607
  { state := 13, rules := [
      ⟨9, 13, [], 13⟩, ⟨32, 32, [], 13⟩, ⟨40, 40, [], 14⟩],
    eof := [] },
  -- foreign_key_parser.go:616-636
  { state := 14, rules := [
      ⟨9, 13, [], 14⟩, ⟨32, 32, [], 14⟩, ⟨65, 90, [.push], 15⟩, ⟨97, 122, [.push], 15⟩],
    eof := [] },
  -- foreign_key_parser.go:644-676
  { state := 15, rules := [
      ⟨9, 13, [.act .addColumn], 16⟩, ⟨32, 32, [.act .addColumn], 16⟩,
      ⟨41, 41, [.act .addColumn], 17⟩, ⟨44, 44, [.act .addColumn], 14⟩,
      ⟨48, 57, [.push], 15⟩, ⟨65, 90, [.push], 15⟩, ⟨95, 95, [.push], 15⟩,
      ⟨97, 122, [.push], 15⟩],
    eof := [] },
  -- foreign_key_parser.go:685-701
  { state := 16, rules := [
      ⟨9, 13, [], 16⟩, ⟨32, 32, [], 16⟩, ⟨41, 41, [], 17⟩, ⟨44, 44, [], 14⟩],
    eof := [] },
  -- foreign_key_parser.go:710-721
  { state := 17, rules := [
      ⟨9, 13, [], 18⟩, ⟨32, 32, [], 18⟩],
    eof := [] },
  -- foreign_key_parser.go:723-738
  { state := 18, rules := [
      ⟨9, 13, [], 18⟩, ⟨32, 32, [], 18⟩, ⟨82, 82, [], 19⟩, ⟨114, 114, [], 19⟩],
    eof := [] },
  -- foreign_key_parser.go:740-750
  { state := 19, rules := [
      ⟨69, 69, [], 20⟩, ⟨101, 101, [], 20⟩],
    eof := [] },
  -- foreign_key_parser.go:752-762
  { state := 20, rules := [
      ⟨70, 70, [], 21⟩, ⟨102, 102, [], 21⟩],
    eof := [] },
  -- foreign_key_parser.go:764-774
  { state := 21, rules := [
      ⟨69, 69, [], 22⟩, ⟨101, 101, [], 22⟩],
    eof := [] },
  -- foreign_key_parser.go:776-786
  { state := 22, rules := [
      ⟨82, 82, [], 23⟩, ⟨114, 114, [], 23⟩],
    eof := [] },
  -- foreign_key_parser.go:788-798
  { state := 23, rules := [
      ⟨69, 69, [], 24⟩, ⟨101, 101, [], 24⟩],
    eof := [] },
  -- foreign_key_parser.go:800-810
  { state := 24, rules := [
      ⟨78, 78, [], 25⟩, ⟨110, 110, [], 25⟩],
    eof := [] },
  -- foreign_key_parser.go:812-822
  { state := 25, rules := [
      ⟨67, 67, [], 26⟩, ⟨99, 99, [], 26⟩],
    eof := [] },
  -- foreign_key_parser.go:824-834
  { state := 26, rules := [
      ⟨69, 69, [], 27⟩, ⟨101, 101, [], 27⟩],
    eof := [] },
  -- foreign_key_parser.go:836-846
  { state := 27, rules := [
      ⟨83, 83, [], 28⟩, ⟨115, 115, [], 28⟩],
    eof := [] },
  -- foreign_key_parser.go:848-858
  { state := 28, rules := [
      ⟨9, 13, [], 29⟩, ⟨32, 32, [], 29⟩],
    eof := [] },
  -- foreign_key_parser.go:860-879
  { state := 29, rules := [
      ⟨9, 13, [], 29⟩, ⟨32, 32, [], 29⟩, ⟨65, 90, [.push], 30⟩, ⟨97, 122, [.push], 30⟩],
    eof := [] },
  -- foreign_key_parser.go:887-910
  { state := 30, rules := [
      ⟨40, 40, [.act .setTable], 31⟩, ⟨48, 57, [.push], 30⟩, ⟨65, 90, [.push], 30⟩,
      ⟨95, 95, [.push], 30⟩, ⟨97, 122, [.push], 30⟩],
    eof := [] },
  -- foreign_key_parser.go:926-946
  { state := 31, rules := [
      ⟨9, 13, [], 31⟩, ⟨32, 32, [], 31⟩, ⟨65, 90, [.push], 32⟩, ⟨97, 122, [.push], 32⟩],
    eof := [] },
  -- foreign_key_parser.go:954-986
  { state := 32, rules := [
      ⟨9, 13, [.act .addReferenced], 33⟩, ⟨32, 32, [.act .addReferenced], 33⟩,
      ⟨41, 41, [.act .addReferenced], 186⟩, ⟨44, 44, [.act .addReferenced], 31⟩,
      ⟨48, 57, [.push], 32⟩, ⟨65, 90, [.push], 32⟩, ⟨95, 95, [.push], 32⟩,
      ⟨97, 122, [.push], 32⟩],
    eof := [] },
  -- foreign_key_parser.go:995-1011
  { state := 33, rules := [
      ⟨9, 13, [], 33⟩, ⟨32, 32, [], 33⟩, ⟨41, 41, [], 186⟩, ⟨44, 44, [], 31⟩],
    eof := [] },
  -- foreign_key_parser.go:1066-1076
  { state := 34, rules := [
      ⟨69, 69, [], 35⟩, ⟨101, 101, [], 35⟩],
    eof := [] },
  -- foreign_key_parser.go:1078-1088
  { state := 35, rules := [
      ⟨70, 70, [], 36⟩, ⟨102, 102, [], 36⟩],
    eof := [] },
  -- foreign_key_parser.go:1090-1100
  { state := 36, rules := [
      ⟨69, 69, [], 37⟩, ⟨101, 101, [], 37⟩],
    eof := [] },
  -- foreign_key_parser.go:1102-1112
  { state := 37, rules := [
      ⟨82, 82, [], 38⟩, ⟨114, 114, [], 38⟩],
    eof := [] },
  -- foreign_key_parser.go:1114-1124
  { state := 38, rules := [
      ⟨82, 82, [], 39⟩, ⟨114, 114, [], 39⟩],
    eof := [] },
  -- foreign_key_parser.go:1126-1136
  { state := 39, rules := [
      ⟨65, 65, [], 40⟩, ⟨97, 97, [], 40⟩],
    eof := [] },
  -- foreign_key_parser.go:1138-1148
  { state := 40, rules := [
      ⟨66, 66, [], 41⟩, ⟨98, 98, [], 41⟩],
    eof := [] },
  -- foreign_key_parser.go:1150-1160
  { state := 41, rules := [
      ⟨76, 76, [], 42⟩, ⟨108, 108, [], 42⟩],
    eof := [] },
  -- foreign_key_parser.go:1162-1172
  { state := 42, rules := [
      ⟨69, 69, [], 43⟩, ⟨101, 101, [], 43⟩],
    eof := [] },
  -- foreign_key_parser.go:1174-1184
  { state := 43, rules := [
      ⟨9, 13, [.act .matchDeferrable], 188⟩, ⟨32, 32, [.act .matchDeferrable], 188⟩],
    eof := [] },
  -- foreign_key_parser.go:1208-1218
  { state := 44, rules := [
      ⟨78, 78, [], 45⟩, ⟨110, 110, [], 45⟩],
    eof := [] },
  -- foreign_key_parser.go:1220-1230
  { state := 45, rules := [
      ⟨73, 73, [], 46⟩, ⟨105, 105, [], 46⟩],
    eof := [] },
  -- foreign_key_parser.go:1232-1242
  { state := 46, rules := [
      ⟨84, 84, [], 47⟩, ⟨116, 116, [], 47⟩],
    eof := [] },
  -- foreign_key_parser.go:1244-1254
  { state := 47, rules := [
      ⟨73, 73, [], 48⟩, ⟨105, 105, [], 48⟩],
    eof := [] },
  -- foreign_key_parser.go:1256-1266
  { state := 48, rules := [
      ⟨65, 65, [], 49⟩, ⟨97, 97, [], 49⟩],
    eof := [] },
  -- foreign_key_parser.go:1268-1278
  { state := 49, rules := [
      ⟨76, 76, [], 50⟩, ⟨108, 108, [], 50⟩],
    eof := [] },
  -- foreign_key_parser.go:1280-1290
  { state := 50, rules := [
      ⟨76, 76, [], 51⟩, ⟨108, 108, [], 51⟩],
    eof := [] },
  -- foreign_key_parser.go:1292-1302
  { state := 51, rules := [
      ⟨89, 89, [], 52⟩, ⟨121, 121, [], 52⟩],
    eof := [] },
  -- foreign_key_parser.go:1304-1314
  { state := 52, rules := [
      ⟨9, 13, [], 53⟩, ⟨32, 32, [], 53⟩],
    eof := [] },
  -- foreign_key_parser.go:1316-1335
  { state := 53, rules := [
      ⟨9, 13, [], 53⟩, ⟨32, 32, [], 53⟩, ⟨68, 68, [], 54⟩, ⟨73, 73, [], 61⟩,
      ⟨100, 100, [], 54⟩, ⟨105, 105, [], 61⟩],
    eof := [] },
  -- foreign_key_parser.go:1337-1347
  { state := 54, rules := [
      ⟨69, 69, [], 55⟩, ⟨101, 101, [], 55⟩],
    eof := [] },
  -- foreign_key_parser.go:1349-1359
  { state := 55, rules := [
      ⟨70, 70, [], 56⟩, ⟨102, 102, [], 56⟩],
    eof := [] },
  -- foreign_key_parser.go:1361-1371
  { state := 56, rules := [
      ⟨69, 69, [], 57⟩, ⟨101, 101, [], 57⟩],
    eof := [] },
  -- foreign_key_parser.go:1373-1383
  { state := 57, rules := [
      ⟨82, 82, [], 58⟩, ⟨114, 114, [], 58⟩],
    eof := [] },
  -- foreign_key_parser.go:1385-1395
  { state := 58, rules := [
      ⟨82, 82, [], 59⟩, ⟨114, 114, [], 59⟩],
    eof := [] },
  -- foreign_key_parser.go:1397-1407
  { state := 59, rules := [
      ⟨69, 69, [], 60⟩, ⟨101, 101, [], 60⟩],
    eof := [] },
  -- foreign_key_parser.go:1409-1419
  { state := 60, rules := [
      ⟨68, 68, [.act .matchInitiallyDeferred], 189⟩,
      ⟨100, 100, [.act .matchInitiallyDeferred], 189⟩],
    eof := [] },
  -- foreign_key_parser.go:1438-1448
  { state := 61, rules := [
      ⟨77, 77, [], 62⟩, ⟨109, 109, [], 62⟩],
    eof := [] },
  -- foreign_key_parser.go:1450-1460
  { state := 62, rules := [
      ⟨77, 77, [], 63⟩, ⟨109, 109, [], 63⟩],
    eof := [] },
  -- foreign_key_parser.go:1462-1472
  { state := 63, rules := [
      ⟨69, 69, [], 64⟩, ⟨101, 101, [], 64⟩],
    eof := [] },
  -- foreign_key_parser.go:1474-1484
  { state := 64, rules := [
      ⟨68, 68, [], 65⟩, ⟨100, 100, [], 65⟩],
    eof := [] },
  -- foreign_key_parser.go:1486-1496
  { state := 65, rules := [
      ⟨73, 73, [], 66⟩, ⟨105, 105, [], 66⟩],
    eof := [] },
  -- foreign_key_parser.go:1498-1508
  { state := 66, rules := [
      ⟨65, 65, [], 67⟩, ⟨97, 97, [], 67⟩],
    eof := [] },
  -- foreign_key_parser.go:1510-1520
  { state := 67, rules := [
      ⟨84, 84, [], 68⟩, ⟨116, 116, [], 68⟩],
    eof := [] },
  -- foreign_key_parser.go:1522-1532
  { state := 68, rules := [
      ⟨69, 69, [], 189⟩, ⟨101, 101, [], 189⟩],
    eof := [] },
  -- foreign_key_parser.go:1534-1544
  { state := 69, rules := [
      ⟨65, 65, [], 70⟩, ⟨97, 97, [], 70⟩],
    eof := [] },
  -- foreign_key_parser.go:1546-1556
  { state := 70, rules := [
      ⟨84, 84, [], 71⟩, ⟨116, 116, [], 71⟩],
    eof := [] },
  -- foreign_key_parser.go:1558-1568
  { state := 71, rules := [
      ⟨67, 67, [], 72⟩, ⟨99, 99, [], 72⟩],
    eof := [] },
  -- foreign_key_parser.go:1570-1580
  { state := 72, rules := [
      ⟨72, 72, [], 73⟩, ⟨104, 104, [], 73⟩],
    eof := [] },
  -- foreign_key_parser.go:1582-1592
  { state := 73, rules := [
      ⟨9, 13, [], 74⟩, ⟨32, 32, [], 74⟩],
    eof := [] },
  -- foreign_key_parser.go:1594-1617
  { state := 74, rules := [
      ⟨9, 13, [], 74⟩, ⟨32, 32, [], 74⟩, ⟨70, 70, [.push], 75⟩, ⟨80, 80, [.push], 176⟩,
      ⟨83, 83, [.push], 181⟩, ⟨102, 102, [.push], 75⟩, ⟨112, 112, [.push], 176⟩,
      ⟨115, 115, [.push], 181⟩],
    eof := [] },
  -- foreign_key_parser.go:1625-1636
  { state := 75, rules := [
      ⟨85, 85, [.push], 76⟩, ⟨117, 117, [.push], 76⟩],
    eof := [] },
  -- foreign_key_parser.go:1644-1655
  { state := 76, rules := [
      ⟨76, 76, [.push], 77⟩, ⟨108, 108, [.push], 77⟩],
    eof := [] },
  -- foreign_key_parser.go:1663-1674
  { state := 77, rules := [
      ⟨76, 76, [.push], 190⟩, ⟨108, 108, [.push], 190⟩],
    eof := [] },
  -- foreign_key_parser.go:1732-1742
  { state := 78, rules := [
      ⟨79, 79, [], 79⟩, ⟨111, 111, [], 79⟩],
    eof := [] },
  -- foreign_key_parser.go:1744-1754
  { state := 79, rules := [
      ⟨84, 84, [], 80⟩, ⟨116, 116, [], 80⟩],
    eof := [] },
  -- foreign_key_parser.go:1756-1766
  { state := 80, rules := [
      ⟨9, 13, [], 81⟩, ⟨32, 32, [], 81⟩],
    eof := [] },
  -- foreign_key_parser.go:1768-1783
  { state := 81, rules := [
      ⟨9, 13, [], 81⟩, ⟨32, 32, [], 81⟩, ⟨68, 68, [], 82⟩, ⟨100, 100, [], 82⟩],
    eof := [] },
  -- foreign_key_parser.go:1785-1795
  { state := 82, rules := [
      ⟨69, 69, [], 83⟩, ⟨101, 101, [], 83⟩],
    eof := [] },
  -- foreign_key_parser.go:1797-1807
  { state := 83, rules := [
      ⟨70, 70, [], 84⟩, ⟨102, 102, [], 84⟩],
    eof := [] },
  -- foreign_key_parser.go:1809-1819
  { state := 84, rules := [
      ⟨69, 69, [], 85⟩, ⟨101, 101, [], 85⟩],
    eof := [] },
  -- foreign_key_parser.go:1821-1831
  { state := 85, rules := [
      ⟨82, 82, [], 86⟩, ⟨114, 114, [], 86⟩],
    eof := [] },
  -- foreign_key_parser.go:1833-1843
  { state := 86, rules := [
      ⟨82, 82, [], 87⟩, ⟨114, 114, [], 87⟩],
    eof := [] },
  -- foreign_key_parser.go:1845-1855
  { state := 87, rules := [
      ⟨65, 65, [], 88⟩, ⟨97, 97, [], 88⟩],
    eof := [] },
  -- foreign_key_parser.go:1857-1867
  { state := 88, rules := [
      ⟨66, 66, [], 89⟩, ⟨98, 98, [], 89⟩],
    eof := [] },
  -- foreign_key_parser.go:1869-1879
  { state := 89, rules := [
      ⟨76, 76, [], 68⟩, ⟨108, 108, [], 68⟩],
    eof := [] },
  -- foreign_key_parser.go:1881-1891
  { state := 90, rules := [
      ⟨78, 78, [], 91⟩, ⟨110, 110, [], 91⟩],
    eof := [] },
  -- foreign_key_parser.go:1893-1903
  { state := 91, rules := [
      ⟨9, 13, [], 92⟩, ⟨32, 32, [], 92⟩],
    eof := [] },
  -- foreign_key_parser.go:1905-1924
  { state := 92, rules := [
      ⟨9, 13, [], 92⟩, ⟨32, 32, [], 92⟩, ⟨68, 68, [], 93⟩, ⟨85, 85, [], 109⟩,
      ⟨100, 100, [], 93⟩, ⟨117, 117, [], 109⟩],
    eof := [] },
  -- foreign_key_parser.go:1926-1936
  { state := 93, rules := [
      ⟨69, 69, [], 94⟩, ⟨101, 101, [], 94⟩],
    eof := [] },
  -- foreign_key_parser.go:1938-1948
  { state := 94, rules := [
      ⟨76, 76, [], 95⟩, ⟨108, 108, [], 95⟩],
    eof := [] },
  -- foreign_key_parser.go:1950-1960
  { state := 95, rules := [
      ⟨69, 69, [], 96⟩, ⟨101, 101, [], 96⟩],
    eof := [] },
  -- foreign_key_parser.go:1962-1972
  { state := 96, rules := [
      ⟨84, 84, [], 97⟩, ⟨116, 116, [], 97⟩],
    eof := [] },
  -- foreign_key_parser.go:1974-1984
  { state := 97, rules := [
      ⟨69, 69, [], 98⟩, ⟨101, 101, [], 98⟩],
    eof := [] },
  -- foreign_key_parser.go:1986-1996
  { state := 98, rules := [
      ⟨9, 13, [], 99⟩, ⟨32, 32, [], 99⟩],
    eof := [] },
  -- foreign_key_parser.go:1998-2025
  { state := 99, rules := [
      ⟨9, 13, [], 99⟩, ⟨32, 32, [], 99⟩, ⟨67, 67, [.push], 100⟩, ⟨78, 78, [.push], 149⟩,
      ⟨82, 82, [.push], 157⟩, ⟨83, 83, [.push], 164⟩, ⟨99, 99, [.push], 100⟩,
      ⟨110, 110, [.push], 149⟩, ⟨114, 114, [.push], 157⟩, ⟨115, 115, [.push], 164⟩],
    eof := [] },
  -- foreign_key_parser.go:2033-2044
  { state := 100, rules := [
      ⟨65, 65, [.push], 101⟩, ⟨97, 97, [.push], 101⟩],
    eof := [] },
  -- foreign_key_parser.go:2052-2063
  { state := 101, rules := [
      ⟨83, 83, [.push], 102⟩, ⟨115, 115, [.push], 102⟩],
    eof := [] },
  -- foreign_key_parser.go:2071-2082
  { state := 102, rules := [
      ⟨67, 67, [.push], 103⟩, ⟨99, 99, [.push], 103⟩],
    eof := [] },
  -- foreign_key_parser.go:2090-2101
  { state := 103, rules := [
      ⟨65, 65, [.push], 104⟩, ⟨97, 97, [.push], 104⟩],
    eof := [] },
  -- foreign_key_parser.go:2109-2120
  { state := 104, rules := [
      ⟨68, 68, [.push], 105⟩, ⟨100, 100, [.push], 105⟩],
    eof := [] },
  -- foreign_key_parser.go:2128-2139
  { state := 105, rules := [
      ⟨69, 69, [.push], 192⟩, ⟨101, 101, [.push], 192⟩],
    eof := [] },
  -- foreign_key_parser.go:2197-2207
  { state := 106, rules := [
      ⟨78, 78, [], 107⟩, ⟨110, 110, [], 107⟩],
    eof := [] },
  -- foreign_key_parser.go:2209-2219
  { state := 107, rules := [
      ⟨9, 13, [], 108⟩, ⟨32, 32, [], 108⟩],
    eof := [] },
  -- foreign_key_parser.go:2221-2236
  { state := 108, rules := [
      ⟨9, 13, [], 108⟩, ⟨32, 32, [], 108⟩, ⟨85, 85, [], 109⟩, ⟨117, 117, [], 109⟩],
    eof := [] },
  -- foreign_key_parser.go:2238-2248
  { state := 109, rules := [
      ⟨80, 80, [], 110⟩, ⟨112, 112, [], 110⟩],
    eof := [] },
  -- foreign_key_parser.go:2250-2260
  { state := 110, rules := [
      ⟨68, 68, [], 111⟩, ⟨100, 100, [], 111⟩],
    eof := [] },
  -- foreign_key_parser.go:2262-2272
  { state := 111, rules := [
      ⟨65, 65, [], 112⟩, ⟨97, 97, [], 112⟩],
    eof := [] },
  -- foreign_key_parser.go:2274-2284
  { state := 112, rules := [
      ⟨84, 84, [], 113⟩, ⟨116, 116, [], 113⟩],
    eof := [] },
  -- foreign_key_parser.go:2286-2296
  { state := 113, rules := [
      ⟨69, 69, [], 114⟩, ⟨101, 101, [], 114⟩],
    eof := [] },
  -- foreign_key_parser.go:2298-2308
  { state := 114, rules := [
      ⟨9, 13, [], 115⟩, ⟨32, 32, [], 115⟩],
    eof := [] },
  -- foreign_key_parser.go:2310-2337
  { state := 115, rules := [
      ⟨9, 13, [], 115⟩, ⟨32, 32, [], 115⟩, ⟨67, 67, [.push], 116⟩, ⟨78, 78, [.push], 122⟩,
      ⟨82, 82, [.push], 130⟩, ⟨83, 83, [.push], 137⟩, ⟨99, 99, [.push], 116⟩,
      ⟨110, 110, [.push], 122⟩, ⟨114, 114, [.push], 130⟩, ⟨115, 115, [.push], 137⟩],
    eof := [] },
  -- foreign_key_parser.go:2345-2356
  { state := 116, rules := [
      ⟨65, 65, [.push], 117⟩, ⟨97, 97, [.push], 117⟩],
    eof := [] },
  -- foreign_key_parser.go:2364-2375
  { state := 117, rules := [
      ⟨83, 83, [.push], 118⟩, ⟨115, 115, [.push], 118⟩],
    eof := [] },
  -- foreign_key_parser.go:2383-2394
  { state := 118, rules := [
      ⟨67, 67, [.push], 119⟩, ⟨99, 99, [.push], 119⟩],
    eof := [] },
  -- foreign_key_parser.go:2402-2413
  { state := 119, rules := [
      ⟨65, 65, [.push], 120⟩, ⟨97, 97, [.push], 120⟩],
    eof := [] },
  -- foreign_key_parser.go:2421-2432
  { state := 120, rules := [
      ⟨68, 68, [.push], 121⟩, ⟨100, 100, [.push], 121⟩],
    eof := [] },
  -- foreign_key_parser.go:2440-2451
  { state := 121, rules := [
      ⟨69, 69, [.push], 194⟩, ⟨101, 101, [.push], 194⟩],
    eof := [] },
  -- foreign_key_parser.go:2511-2522
  { state := 122, rules := [
      ⟨79, 79, [.push], 123⟩, ⟨111, 111, [.push], 123⟩],
    eof := [] },
  -- foreign_key_parser.go:2530-2541
  { state := 123, rules := [
      ⟨9, 13, [.push], 124⟩, ⟨32, 32, [.push], 124⟩],
    eof := [] },
  -- foreign_key_parser.go:2549-2565
  { state := 124, rules := [
      ⟨9, 13, [.push], 124⟩, ⟨32, 32, [.push], 124⟩, ⟨65, 65, [.push], 125⟩,
      ⟨97, 97, [.push], 125⟩],
    eof := [] },
  -- foreign_key_parser.go:2573-2584
  { state := 125, rules := [
      ⟨67, 67, [.push], 126⟩, ⟨99, 99, [.push], 126⟩],
    eof := [] },
  -- foreign_key_parser.go:2592-2603
  { state := 126, rules := [
      ⟨84, 84, [.push], 127⟩, ⟨116, 116, [.push], 127⟩],
    eof := [] },
  -- foreign_key_parser.go:2611-2622
  { state := 127, rules := [
      ⟨73, 73, [.push], 128⟩, ⟨105, 105, [.push], 128⟩],
    eof := [] },
  -- foreign_key_parser.go:2630-2641
  { state := 128, rules := [
      ⟨79, 79, [.push], 129⟩, ⟨111, 111, [.push], 129⟩],
    eof := [] },
  -- foreign_key_parser.go:2649-2660
  { state := 129, rules := [
      ⟨78, 78, [.push], 194⟩, ⟨110, 110, [.push], 194⟩],
    eof := [] },
  -- foreign_key_parser.go:2668-2679
  { state := 130, rules := [
      ⟨69, 69, [.push], 131⟩, ⟨101, 101, [.push], 131⟩],
    eof := [] },
  -- foreign_key_parser.go:2687-2698
  { state := 131, rules := [
      ⟨83, 83, [.push], 132⟩, ⟨115, 115, [.push], 132⟩],
    eof := [] },
  -- foreign_key_parser.go:2706-2717
  { state := 132, rules := [
      ⟨84, 84, [.push], 133⟩, ⟨116, 116, [.push], 133⟩],
    eof := [] },
  -- foreign_key_parser.go:2725-2736
  { state := 133, rules := [
      ⟨82, 82, [.push], 134⟩, ⟨114, 114, [.push], 134⟩],
    eof := [] },
  -- foreign_key_parser.go:2744-2755
  { state := 134, rules := [
      ⟨73, 73, [.push], 135⟩, ⟨105, 105, [.push], 135⟩],
    eof := [] },
  -- foreign_key_parser.go:2763-2774
  { state := 135, rules := [
      ⟨67, 67, [.push], 136⟩, ⟨99, 99, [.push], 136⟩],
    eof := [] },
  -- foreign_key_parser.go:2782-2793
  { state := 136, rules := [
      ⟨84, 84, [.push], 194⟩, ⟨116, 116, [.push], 194⟩],
    eof := [] },
  -- foreign_key_parser.go:2801-2812
  { state := 137, rules := [
      ⟨69, 69, [.push], 138⟩, ⟨101, 101, [.push], 138⟩],
    eof := [] },
  -- foreign_key_parser.go:2820-2831
  { state := 138, rules := [
      ⟨84, 84, [.push], 139⟩, ⟨116, 116, [.push], 139⟩],
    eof := [] },
  -- foreign_key_parser.go:2839-2850
  { state := 139, rules := [
      ⟨9, 13, [.push], 140⟩, ⟨32, 32, [.push], 140⟩],
    eof := [] },
  -- foreign_key_parser.go:2858-2878
  { state := 140, rules := [
      ⟨9, 13, [.push], 140⟩, ⟨32, 32, [.push], 140⟩, ⟨68, 68, [.push], 141⟩,
      ⟨78, 78, [.push], 146⟩, ⟨100, 100, [.push], 141⟩, ⟨110, 110, [.push], 146⟩],
    eof := [] },
  -- foreign_key_parser.go:2886-2897
  { state := 141, rules := [
      ⟨69, 69, [.push], 142⟩, ⟨101, 101, [.push], 142⟩],
    eof := [] },
  -- foreign_key_parser.go:2905-2916
  { state := 142, rules := [
      ⟨70, 70, [.push], 143⟩, ⟨102, 102, [.push], 143⟩],
    eof := [] },
  -- foreign_key_parser.go:2924-2935
  { state := 143, rules := [
      ⟨65, 65, [.push], 144⟩, ⟨97, 97, [.push], 144⟩],
    eof := [] },
  -- foreign_key_parser.go:2943-2954
  { state := 144, rules := [
      ⟨85, 85, [.push], 145⟩, ⟨117, 117, [.push], 145⟩],
    eof := [] },
  -- foreign_key_parser.go:2962-2973
  { state := 145, rules := [
      ⟨76, 76, [.push], 136⟩, ⟨108, 108, [.push], 136⟩],
    eof := [] },
  -- foreign_key_parser.go:2981-2992
  { state := 146, rules := [
      ⟨85, 85, [.push], 147⟩, ⟨117, 117, [.push], 147⟩],
    eof := [] },
  -- foreign_key_parser.go:3000-3011
  { state := 147, rules := [
      ⟨76, 76, [.push], 148⟩, ⟨108, 108, [.push], 148⟩],
    eof := [] },
  -- foreign_key_parser.go:3019-3030
  { state := 148, rules := [
      ⟨76, 76, [.push], 194⟩, ⟨108, 108, [.push], 194⟩],
    eof := [] },
  -- foreign_key_parser.go:3038-3049
  { state := 149, rules := [
      ⟨79, 79, [.push], 150⟩, ⟨111, 111, [.push], 150⟩],
    eof := [] },
  -- foreign_key_parser.go:3057-3068
  { state := 150, rules := [
      ⟨9, 13, [.push], 151⟩, ⟨32, 32, [.push], 151⟩],
    eof := [] },
  -- foreign_key_parser.go:3076-3092
  { state := 151, rules := [
      ⟨9, 13, [.push], 151⟩, ⟨32, 32, [.push], 151⟩, ⟨65, 65, [.push], 152⟩,
      ⟨97, 97, [.push], 152⟩],
    eof := [] },
  -- foreign_key_parser.go:3100-3111
  { state := 152, rules := [
      ⟨67, 67, [.push], 153⟩, ⟨99, 99, [.push], 153⟩],
    eof := [] },
  -- foreign_key_parser.go:3119-3130
  { state := 153, rules := [
      ⟨84, 84, [.push], 154⟩, ⟨116, 116, [.push], 154⟩],
    eof := [] },
  -- foreign_key_parser.go:3138-3149
  { state := 154, rules := [
      ⟨73, 73, [.push], 155⟩, ⟨105, 105, [.push], 155⟩],
    eof := [] },
  -- foreign_key_parser.go:3157-3168
  { state := 155, rules := [
      ⟨79, 79, [.push], 156⟩, ⟨111, 111, [.push], 156⟩],
    eof := [] },
  -- foreign_key_parser.go:3176-3187
  { state := 156, rules := [
      ⟨78, 78, [.push], 192⟩, ⟨110, 110, [.push], 192⟩],
    eof := [] },
  -- foreign_key_parser.go:3195-3206
  { state := 157, rules := [
      ⟨69, 69, [.push], 158⟩, ⟨101, 101, [.push], 158⟩],
    eof := [] },
  -- foreign_key_parser.go:3214-3225
  { state := 158, rules := [
      ⟨83, 83, [.push], 159⟩, ⟨115, 115, [.push], 159⟩],
    eof := [] },
  -- foreign_key_parser.go:3233-3244
  { state := 159, rules := [
      ⟨84, 84, [.push], 160⟩, ⟨116, 116, [.push], 160⟩],
    eof := [] },
  -- foreign_key_parser.go:3252-3263
  { state := 160, rules := [
      ⟨82, 82, [.push], 161⟩, ⟨114, 114, [.push], 161⟩],
    eof := [] },
  -- foreign_key_parser.go:3271-3282
  { state := 161, rules := [
      ⟨73, 73, [.push], 162⟩, ⟨105, 105, [.push], 162⟩],
    eof := [] },
  -- foreign_key_parser.go:3290-3301
  { state := 162, rules := [
      ⟨67, 67, [.push], 163⟩, ⟨99, 99, [.push], 163⟩],
    eof := [] },
  -- foreign_key_parser.go:3309-3320
  { state := 163, rules := [
      ⟨84, 84, [.push], 192⟩, ⟨116, 116, [.push], 192⟩],
    eof := [] },
  -- foreign_key_parser.go:3328-3339
  { state := 164, rules := [
      ⟨69, 69, [.push], 165⟩, ⟨101, 101, [.push], 165⟩],
    eof := [] },
  -- foreign_key_parser.go:3347-3358
  { state := 165, rules := [
      ⟨84, 84, [.push], 166⟩, ⟨116, 116, [.push], 166⟩],
    eof := [] },
  -- foreign_key_parser.go:3366-3377
  { state := 166, rules := [
      ⟨9, 13, [.push], 167⟩, ⟨32, 32, [.push], 167⟩],
    eof := [] },
  -- foreign_key_parser.go:3385-3405
  { state := 167, rules := [
      ⟨9, 13, [.push], 167⟩, ⟨32, 32, [.push], 167⟩, ⟨68, 68, [.push], 168⟩,
      ⟨78, 78, [.push], 173⟩, ⟨100, 100, [.push], 168⟩, ⟨110, 110, [.push], 173⟩],
    eof := [] },
  -- foreign_key_parser.go:3413-3424
  { state := 168, rules := [
      ⟨69, 69, [.push], 169⟩, ⟨101, 101, [.push], 169⟩],
    eof := [] },
  -- foreign_key_parser.go:3432-3443
  { state := 169, rules := [
      ⟨70, 70, [.push], 170⟩, ⟨102, 102, [.push], 170⟩],
    eof := [] },
  -- foreign_key_parser.go:3451-3462
  { state := 170, rules := [
      ⟨65, 65, [.push], 171⟩, ⟨97, 97, [.push], 171⟩],
    eof := [] },
  -- foreign_key_parser.go:3470-3481
  { state := 171, rules := [
      ⟨85, 85, [.push], 172⟩, ⟨117, 117, [.push], 172⟩],
    eof := [] },
  -- foreign_key_parser.go:3489-3500
  { state := 172, rules := [
      ⟨76, 76, [.push], 163⟩, ⟨108, 108, [.push], 163⟩],
    eof := [] },
  -- foreign_key_parser.go:3508-3519
  { state := 173, rules := [
      ⟨85, 85, [.push], 174⟩, ⟨117, 117, [.push], 174⟩],
    eof := [] },
  -- foreign_key_parser.go:3527-3538
  { state := 174, rules := [
      ⟨76, 76, [.push], 175⟩, ⟨108, 108, [.push], 175⟩],
    eof := [] },
  -- foreign_key_parser.go:3546-3557
  { state := 175, rules := [
      ⟨76, 76, [.push], 192⟩, ⟨108, 108, [.push], 192⟩],
    eof := [] },
  -- foreign_key_parser.go:3565-3576
  { state := 176, rules := [
      ⟨65, 65, [.push], 177⟩, ⟨97, 97, [.push], 177⟩],
    eof := [] },
  -- foreign_key_parser.go:3584-3595
  { state := 177, rules := [
      ⟨82, 82, [.push], 178⟩, ⟨114, 114, [.push], 178⟩],
    eof := [] },
  -- foreign_key_parser.go:3603-3614
  { state := 178, rules := [
      ⟨84, 84, [.push], 179⟩, ⟨116, 116, [.push], 179⟩],
    eof := [] },
  -- foreign_key_parser.go:3622-3633
  { state := 179, rules := [
      ⟨73, 73, [.push], 180⟩, ⟨105, 105, [.push], 180⟩],
    eof := [] },
  -- foreign_key_parser.go:3641-3652
  { state := 180, rules := [
      ⟨65, 65, [.push], 77⟩, ⟨97, 97, [.push], 77⟩],
    eof := [] },
  -- foreign_key_parser.go:3660-3671
  { state := 181, rules := [
      ⟨73, 73, [.push], 182⟩, ⟨105, 105, [.push], 182⟩],
    eof := [] },
  -- foreign_key_parser.go:3679-3690
  { state := 182, rules := [
      ⟨77, 77, [.push], 183⟩, ⟨109, 109, [.push], 183⟩],
    eof := [] },
  -- foreign_key_parser.go:3698-3709
  { state := 183, rules := [
      ⟨80, 80, [.push], 184⟩, ⟨112, 112, [.push], 184⟩],
    eof := [] },
  -- foreign_key_parser.go:3717-3728
  { state := 184, rules := [
      ⟨76, 76, [.push], 185⟩, ⟨108, 108, [.push], 185⟩],
    eof := [] },
  -- foreign_key_parser.go:3736-3747
  { state := 185, rules := [
      ⟨69, 69, [.push], 190⟩, ⟨101, 101, [.push], 190⟩],
    eof := [] },
  -- foreign_key_parser.go:1020-1031
  { state := 186, rules := [
      ⟨9, 13, [], 187⟩, ⟨32, 32, [], 187⟩],
    eof := [] },
  -- foreign_key_parser.go:1033-1064
  { state := 187, rules := [
      ⟨9, 13, [], 187⟩, ⟨32, 32, [], 187⟩, ⟨68, 68, [], 34⟩, ⟨73, 73, [], 44⟩,
      ⟨77, 77, [], 69⟩, ⟨78, 78, [], 78⟩, ⟨79, 79, [], 90⟩, ⟨100, 100, [], 34⟩,
      ⟨105, 105, [], 44⟩, ⟨109, 109, [], 69⟩, ⟨110, 110, [], 78⟩, ⟨111, 111, [], 90⟩],
    eof := [] },
  -- foreign_key_parser.go:1190-1206
  { state := 188, rules := [
      ⟨9, 13, [.act .matchDeferrable], 188⟩, ⟨32, 32, [.act .matchDeferrable], 188⟩,
      ⟨73, 73, [], 44⟩, ⟨105, 105, [], 44⟩],
    eof := [] },
  -- foreign_key_parser.go:1425-1436
  { state := 189, rules := [
      ⟨9, 13, [], 189⟩, ⟨32, 32, [], 189⟩],
    eof := [] },
  -- foreign_key_parser.go:1682-1693
  { state := 190, rules := [
      ⟨9, 13, [.act .setMatch], 191⟩, ⟨32, 32, [.act .setMatch], 191⟩],
    eof := [.setMatch] },
  -- foreign_key_parser.go:1702-1730
  { state := 191, rules := [
      ⟨9, 13, [], 191⟩, ⟨32, 32, [], 191⟩, ⟨68, 68, [], 34⟩, ⟨73, 73, [], 44⟩,
      ⟨78, 78, [], 78⟩, ⟨79, 79, [], 90⟩, ⟨100, 100, [], 34⟩, ⟨105, 105, [], 44⟩,
      ⟨110, 110, [], 78⟩, ⟨111, 111, [], 90⟩],
    eof := [] },
  -- foreign_key_parser.go:2147-2158
  { state := 192, rules := [
      ⟨9, 13, [.act .setOnDelete], 193⟩, ⟨32, 32, [.act .setOnDelete], 193⟩],
    eof := [.setOnDelete] },
  -- foreign_key_parser.go:2167-2195
  { state := 193, rules := [
      ⟨9, 13, [], 193⟩, ⟨32, 32, [], 193⟩, ⟨68, 68, [], 34⟩, ⟨73, 73, [], 44⟩,
      ⟨78, 78, [], 78⟩, ⟨79, 79, [], 106⟩, ⟨100, 100, [], 34⟩, ⟨105, 105, [], 44⟩,
      ⟨110, 110, [], 78⟩, ⟨111, 111, [], 106⟩],
    eof := [] },
  -- foreign_key_parser.go:2459-2470
  { state := 194, rules := [
      ⟨9, 13, [.act .setOnUpdate], 195⟩, ⟨32, 32, [.act .setOnUpdate], 195⟩],
    eof := [.setOnUpdate] },
  -- foreign_key_parser.go:2479-2503
  { state := 195, rules := [
      ⟨9, 13, [], 195⟩, ⟨32, 32, [], 195⟩, ⟨68, 68, [], 34⟩, ⟨73, 73, [], 44⟩,
      ⟨78, 78, [], 78⟩, ⟨100, 100, [], 34⟩, ⟨105, 105, [], 44⟩, ⟨110, 110, [], 78⟩],
    eof := [] }]

/-- foreign_key_parser.go:13-15: the constants and the table. -/
def foreignKeyMachine : Machine FkAct :=
  { start := 1, firstFinal := 186, rows := foreignKeyRows }

end Verif.Ddl
