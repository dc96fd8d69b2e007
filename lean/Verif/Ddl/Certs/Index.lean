import Verif.Ragel.Bisim
import Verif.Ddl.Grammars
import Verif.Ragel.Track

/-!
# Certificate that `indexMachine` implements its grammar

Generated by tools/GenCert.txt; do not edit. Checked by the kernel below.
-/

namespace Verif.Ddl.IndexG
open Verif Verif.Ragel Verif.Ddl

/-- The sequences that can remain to be matched. -/
def conts : List (List (Gram IndexAct)) := [
  t0,
  (.seq (.cls [(82, 82), (114, 114)] []) (.seq (.cls [(69, 69), (101, 101)] []) (.seq (.cls [(65, 65), (97, 97)] []) (.seq (.cls [(84, 84), (116, 116)] []) (.cls [(69, 69), (101, 101)] []))))) :: ws :: t1,
  (.seq (.cls [(69, 69), (101, 101)] []) (.seq (.cls [(65, 65), (97, 97)] []) (.seq (.cls [(84, 84), (116, 116)] []) (.cls [(69, 69), (101, 101)] [])))) :: ws :: t1,
  (.seq (.cls [(65, 65), (97, 97)] []) (.seq (.cls [(84, 84), (116, 116)] []) (.cls [(69, 69), (101, 101)] []))) :: ws :: t1,
  (.seq (.cls [(84, 84), (116, 116)] []) (.cls [(69, 69), (101, 101)] [])) :: ws :: t1,
  (.cls [(69, 69), (101, 101)] []) :: ws :: t1,
  ws :: t1,
  sp :: t1,
  (.seq (.cls [(78, 78), (110, 110)] []) (.seq (.cls [(73, 73), (105, 105)] []) (.seq (.cls [(81, 81), (113, 113)] []) (.seq (.cls [(85, 85), (117, 117)] []) (.cls [(69, 69), (101, 101)] [.act .matchUnique]))))) :: ws :: t2,
  (.seq (.cls [(78, 78), (110, 110)] []) (.seq (.cls [(68, 68), (100, 100)] []) (.seq (.cls [(69, 69), (101, 101)] []) (.cls [(88, 88), (120, 120)] [])))) :: t3,
  (.seq (.cls [(73, 73), (105, 105)] []) (.seq (.cls [(81, 81), (113, 113)] []) (.seq (.cls [(85, 85), (117, 117)] []) (.cls [(69, 69), (101, 101)] [.act .matchUnique])))) :: ws :: t2,
  (.seq (.cls [(68, 68), (100, 100)] []) (.seq (.cls [(69, 69), (101, 101)] []) (.cls [(88, 88), (120, 120)] []))) :: t3,
  (.seq (.cls [(81, 81), (113, 113)] []) (.seq (.cls [(85, 85), (117, 117)] []) (.cls [(69, 69), (101, 101)] [.act .matchUnique]))) :: ws :: t2,
  (.seq (.cls [(69, 69), (101, 101)] []) (.cls [(88, 88), (120, 120)] [])) :: t3,
  (.seq (.cls [(85, 85), (117, 117)] []) (.cls [(69, 69), (101, 101)] [.act .matchUnique])) :: ws :: t2,
  (.cls [(88, 88), (120, 120)] []) :: t3,
  (.cls [(69, 69), (101, 101)] [.act .matchUnique]) :: ws :: t2,
  t3,
  ws :: t2,
  sp :: t4,
  sp :: t2,
  identR :: t5,
  sp :: t6,
  (.cls [(78, 78), (110, 110)] []) :: t7,
  t7,
  sp :: t8,
  identR :: t9,
  sp :: (.seq (.seq (.cls [(85, 85), (117, 117)] []) (.seq (.cls [(83, 83), (115, 115)] []) (.seq (.cls [(73, 73), (105, 105)] []) (.seq (.cls [(78, 78), (110, 110)] []) (.cls [(71, 71), (103, 103)] []))))) (.seq ws (.seq ident (.act .setUsing)))) :: t11,
  sp :: (.cls [(40, 40)] []) :: sp :: t12,
  (.seq (.cls [(83, 83), (115, 115)] []) (.seq (.cls [(73, 73), (105, 105)] []) (.seq (.cls [(78, 78), (110, 110)] []) (.cls [(71, 71), (103, 103)] [])))) :: (.seq ws (.seq ident (.act .setUsing))) :: t11,
  sp :: t12,
  (.seq (.cls [(73, 73), (105, 105)] []) (.seq (.cls [(78, 78), (110, 110)] []) (.cls [(71, 71), (103, 103)] []))) :: (.seq ws (.seq ident (.act .setUsing))) :: t11,
  (.seq (.cls [(0, 40), (42, 255)] [.push]) (.seq (.star (.cls [(0, 40), (42, 255)] [.push])) (.cls [(41, 41)] [.push]))) :: (.act .addExpression) :: t13,
  identR :: (.seq (.cls [(40, 40)] [.push]) (.seq (.star (.cls [(0, 40), (42, 255)] [.push])) (.cls [(41, 41)] [.push]))) :: (.act .addExpression) :: t13,
  identR :: (.act .addColumn) :: t13,
  (.seq (.cls [(78, 78), (110, 110)] []) (.cls [(71, 71), (103, 103)] [])) :: (.seq ws (.seq ident (.act .setUsing))) :: t11,
  (.seq (.star (.cls [(0, 40), (42, 255)] [.push])) (.cls [(41, 41)] [.push])) :: (.act .addExpression) :: t13,
  sp :: (.seq ident (.act .setOpClass)) :: t14,
  sp :: (.seq (.cls [(44, 44)] []) (.seq sp (.seq ident (.seq (.act .addColumn) opclass)))) :: t14,
  (.seq sp (.seq ident (.seq (.act .addColumn) opclass))) :: t14,
  t15,
  t17,
  (.cls [(71, 71), (103, 103)] []) :: (.seq ws (.seq ident (.act .setUsing))) :: t11,
  (.star (.cls [(0, 40), (42, 255)] [.push])) :: (.cls [(41, 41)] [.push]) :: (.act .addExpression) :: t13,
  (.act .addExpression) :: t13,
  identR :: (.act .setOpClass) :: t14,
  sp :: (.seq ident (.seq (.act .addColumn) opclass)) :: t14,
  identR :: (.seq (.act .addColumn) opclass) :: t14,
  sp :: (.seq (.seq (.cls [(87, 87), (119, 119)] []) (.seq (.cls [(72, 72), (104, 104)] []) (.seq (.cls [(69, 69), (101, 101)] []) (.seq (.cls [(82, 82), (114, 114)] []) (.cls [(69, 69), (101, 101)] []))))) (.seq sp1 (.seq (.cls [(0, 255)] [.push]) (.seq (.star (.cls [(0, 255)] [.push])) (.act .setWhere))))) :: [],
  sp :: [],
  (.seq ws (.seq ident (.act .setUsing))) :: t11,
  (.seq (.cls [(72, 72), (104, 104)] []) (.seq (.cls [(69, 69), (101, 101)] []) (.seq (.cls [(82, 82), (114, 114)] []) (.cls [(69, 69), (101, 101)] [])))) :: (.seq sp1 (.seq (.cls [(0, 255)] [.push]) (.seq (.star (.cls [(0, 255)] [.push])) (.act .setWhere)))) :: [],
  sp :: (.seq ident (.act .setUsing)) :: t11,
  (.seq (.cls [(69, 69), (101, 101)] []) (.seq (.cls [(82, 82), (114, 114)] []) (.cls [(69, 69), (101, 101)] []))) :: (.seq sp1 (.seq (.cls [(0, 255)] [.push]) (.seq (.star (.cls [(0, 255)] [.push])) (.act .setWhere)))) :: [],
  identR :: (.act .setUsing) :: t11,
  (.seq (.cls [(82, 82), (114, 114)] []) (.cls [(69, 69), (101, 101)] [])) :: (.seq sp1 (.seq (.cls [(0, 255)] [.push]) (.seq (.star (.cls [(0, 255)] [.push])) (.act .setWhere)))) :: [],
  (.cls [(69, 69), (101, 101)] []) :: (.seq sp1 (.seq (.cls [(0, 255)] [.push]) (.seq (.star (.cls [(0, 255)] [.push])) (.act .setWhere)))) :: [],
  (.seq sp1 (.seq (.cls [(0, 255)] [.push]) (.seq (.star (.cls [(0, 255)] [.push])) (.act .setWhere)))) :: [],
  (.seq (.cls [(0, 255)] [.push]) (.seq (.star (.cls [(0, 255)] [.push])) (.act .setWhere))) :: [],
  (.seq (.star (.cls [(0, 255)] [.push])) (.act .setWhere)) :: [],
  (.star (.cls [(0, 255)] [.push])) :: (.act .setWhere) :: []]

/-- Their linear forms. -/
def lins : List (List (NLin IndexAct)) := [
  [⟨[(9, 13), (32, 32)], [], 0⟩, ⟨[(67, 67), (99, 99)], [], 1⟩],
  [⟨[(82, 82), (114, 114)], [], 2⟩],
  [⟨[(69, 69), (101, 101)], [], 3⟩],
  [⟨[(65, 65), (97, 97)], [], 4⟩],
  [⟨[(84, 84), (116, 116)], [], 5⟩],
  [⟨[(69, 69), (101, 101)], [], 6⟩],
  [⟨[(9, 13), (32, 32)], [], 7⟩],
  [⟨[(9, 13), (32, 32)], [], 7⟩, ⟨[(85, 85), (117, 117)], [], 8⟩, ⟨[(73, 73), (105, 105)], [], 9⟩],
  [⟨[(78, 78), (110, 110)], [], 10⟩],
  [⟨[(78, 78), (110, 110)], [], 11⟩],
  [⟨[(73, 73), (105, 105)], [], 12⟩],
  [⟨[(68, 68), (100, 100)], [], 13⟩],
  [⟨[(81, 81), (113, 113)], [], 14⟩],
  [⟨[(69, 69), (101, 101)], [], 15⟩],
  [⟨[(85, 85), (117, 117)], [], 16⟩],
  [⟨[(88, 88), (120, 120)], [], 17⟩],
  [⟨[(69, 69), (101, 101)], [.act .matchUnique], 18⟩],
  [⟨[(9, 13), (32, 32)], [], 19⟩],
  [⟨[(9, 13), (32, 32)], [], 20⟩],
  [⟨[(9, 13), (32, 32)], [], 19⟩, ⟨[(65, 90), (97, 122)], [.push], 21⟩],
  [⟨[(9, 13), (32, 32)], [], 20⟩, ⟨[(73, 73), (105, 105)], [], 9⟩],
  [⟨[(48, 57), (65, 90), (95, 95), (97, 122)], [.push], 21⟩, ⟨[(9, 13), (32, 32)], [.act .setName], 22⟩],
  [⟨[(9, 13), (32, 32)], [], 22⟩, ⟨[(79, 79), (111, 111)], [], 23⟩],
  [⟨[(78, 78), (110, 110)], [], 24⟩],
  [⟨[(9, 13), (32, 32)], [], 25⟩],
  [⟨[(9, 13), (32, 32)], [], 25⟩, ⟨[(65, 90), (97, 122)], [.push], 26⟩],
  [⟨[(48, 57), (65, 90), (95, 95), (97, 122)], [.push], 26⟩, ⟨[(9, 13), (32, 32)], [.act .setTable], 27⟩, ⟨[(9, 13), (32, 32)], [.act .setTable], 28⟩],
  [⟨[(9, 13), (32, 32)], [], 27⟩, ⟨[(85, 85), (117, 117)], [], 29⟩],
  [⟨[(9, 13), (32, 32)], [], 28⟩, ⟨[(40, 40)], [], 30⟩],
  [⟨[(83, 83), (115, 115)], [], 31⟩],
  [⟨[(9, 13), (32, 32)], [], 30⟩, ⟨[(40, 40)], [.push], 32⟩, ⟨[(65, 90), (97, 122)], [.push], 33⟩, ⟨[(65, 90), (97, 122)], [.push], 34⟩],
  [⟨[(73, 73), (105, 105)], [], 35⟩],
  [⟨[(0, 40), (42, 255)], [.push], 36⟩],
  [⟨[(48, 57), (65, 90), (95, 95), (97, 122)], [.push], 33⟩, ⟨[(40, 40)], [.push], 36⟩],
  [⟨[(48, 57), (65, 90), (95, 95), (97, 122)], [.push], 34⟩, ⟨[(9, 13), (32, 32)], [.act .addColumn], 37⟩, ⟨[(9, 13), (32, 32)], [.act .addColumn], 38⟩, ⟨[(44, 44)], [.act .addColumn], 39⟩, ⟨[(9, 13), (32, 32)], [.act .addColumn], 40⟩, ⟨[(41, 41)], [.act .addColumn], 41⟩],
  [⟨[(78, 78), (110, 110)], [], 42⟩],
  [⟨[(0, 40), (42, 255)], [.push], 43⟩, ⟨[(41, 41)], [.push], 44⟩],
  [⟨[(9, 13), (32, 32)], [], 37⟩, ⟨[(65, 90), (97, 122)], [.push], 45⟩],
  [⟨[(9, 13), (32, 32)], [], 38⟩, ⟨[(44, 44)], [], 39⟩],
  [⟨[(9, 13), (32, 32)], [], 46⟩, ⟨[(65, 90), (97, 122)], [.push], 47⟩],
  [⟨[(9, 13), (32, 32)], [], 40⟩, ⟨[(41, 41)], [], 41⟩],
  [⟨[(9, 13), (32, 32)], [], 48⟩, ⟨[(9, 13), (32, 32)], [], 49⟩],
  [⟨[(71, 71), (103, 103)], [], 50⟩],
  [⟨[(0, 40), (42, 255)], [.push], 43⟩, ⟨[(41, 41)], [.push], 44⟩],
  [⟨[(9, 13), (32, 32)], [.act .addExpression], 37⟩, ⟨[(9, 13), (32, 32)], [.act .addExpression], 38⟩, ⟨[(44, 44)], [.act .addExpression], 39⟩, ⟨[(9, 13), (32, 32)], [.act .addExpression], 40⟩, ⟨[(41, 41)], [.act .addExpression], 41⟩],
  [⟨[(48, 57), (65, 90), (95, 95), (97, 122)], [.push], 45⟩, ⟨[(9, 13), (32, 32)], [.act .setOpClass], 38⟩, ⟨[(44, 44)], [.act .setOpClass], 39⟩, ⟨[(9, 13), (32, 32)], [.act .setOpClass], 40⟩, ⟨[(41, 41)], [.act .setOpClass], 41⟩],
  [⟨[(9, 13), (32, 32)], [], 46⟩, ⟨[(65, 90), (97, 122)], [.push], 47⟩],
  [⟨[(48, 57), (65, 90), (95, 95), (97, 122)], [.push], 47⟩, ⟨[(9, 13), (32, 32)], [.act .addColumn], 37⟩, ⟨[(9, 13), (32, 32)], [.act .addColumn], 38⟩, ⟨[(44, 44)], [.act .addColumn], 39⟩, ⟨[(9, 13), (32, 32)], [.act .addColumn], 40⟩, ⟨[(41, 41)], [.act .addColumn], 41⟩],
  [⟨[(9, 13), (32, 32)], [], 48⟩, ⟨[(87, 87), (119, 119)], [], 51⟩],
  [⟨[(9, 13), (32, 32)], [], 49⟩],
  [⟨[(9, 13), (32, 32)], [], 52⟩],
  [⟨[(72, 72), (104, 104)], [], 53⟩],
  [⟨[(9, 13), (32, 32)], [], 52⟩, ⟨[(65, 90), (97, 122)], [.push], 54⟩],
  [⟨[(69, 69), (101, 101)], [], 55⟩],
  [⟨[(48, 57), (65, 90), (95, 95), (97, 122)], [.push], 54⟩, ⟨[(9, 13), (32, 32)], [.act .setUsing], 28⟩],
  [⟨[(82, 82), (114, 114)], [], 56⟩],
  [⟨[(69, 69), (101, 101)], [], 57⟩],
  [⟨[(9, 13), (32, 32)], [], 58⟩],
  [⟨[(0, 255)], [.push], 59⟩],
  [⟨[(0, 255)], [.push], 60⟩],
  [⟨[(0, 255)], [.push], 60⟩]]

/-- The ways they match the empty string. -/
def nulls : List (List (List IndexAct)) := [
  [],
  [],
  [],
  [],
  [],
  [],
  [],
  [],
  [],
  [],
  [],
  [],
  [],
  [],
  [],
  [],
  [],
  [],
  [],
  [],
  [],
  [],
  [],
  [],
  [],
  [],
  [],
  [],
  [],
  [],
  [],
  [],
  [],
  [],
  [],
  [],
  [],
  [],
  [],
  [],
  [],
  [[]],
  [],
  [],
  [],
  [],
  [],
  [],
  [],
  [[]],
  [],
  [],
  [],
  [],
  [],
  [],
  [],
  [],
  [],
  [[.setWhere]],
  [[.setWhere]]]

/-- Machine states with the stacks that can remain there. -/
def entries : List Entry := [
  ⟨1, [0], [(9, 13, 0), (32, 32, 0), (67, 67, 1), (99, 99, 1)]⟩,
  ⟨2, [1], [(82, 82, 2), (114, 114, 2)]⟩,
  ⟨3, [2], [(69, 69, 3), (101, 101, 3)]⟩,
  ⟨4, [3], [(65, 65, 4), (97, 97, 4)]⟩,
  ⟨5, [4], [(84, 84, 5), (116, 116, 5)]⟩,
  ⟨6, [5], [(69, 69, 6), (101, 101, 6)]⟩,
  ⟨7, [6], [(9, 13, 7), (32, 32, 7)]⟩,
  ⟨8, [7], [(9, 13, 7), (32, 32, 7), (73, 73, 8), (85, 85, 9), (105, 105, 8), (117, 117, 9)]⟩,
  ⟨9, [9], [(78, 78, 10), (110, 110, 10)]⟩,
  ⟨46, [8], [(78, 78, 11), (110, 110, 11)]⟩,
  ⟨10, [11], [(68, 68, 12), (100, 100, 12)]⟩,
  ⟨47, [10], [(73, 73, 13), (105, 105, 13)]⟩,
  ⟨11, [13], [(69, 69, 14), (101, 101, 14)]⟩,
  ⟨48, [12], [(81, 81, 15), (113, 113, 15)]⟩,
  ⟨12, [15], [(88, 88, 16), (120, 120, 16)]⟩,
  ⟨49, [14], [(85, 85, 17), (117, 117, 17)]⟩,
  ⟨13, [17], [(9, 13, 18), (32, 32, 18)]⟩,
  ⟨50, [16], [(69, 69, 19), (101, 101, 19)]⟩,
  ⟨14, [19], [(9, 13, 18), (32, 32, 18), (65, 90, 20), (97, 122, 20)]⟩,
  ⟨51, [18], [(9, 13, 21), (32, 32, 21)]⟩,
  ⟨15, [21], [(9, 13, 22), (32, 32, 22), (48, 57, 20), (65, 90, 20), (95, 95, 20), (97, 122, 20)]⟩,
  ⟨52, [20], [(9, 13, 21), (32, 32, 21), (73, 73, 8), (105, 105, 8)]⟩,
  ⟨16, [22], [(9, 13, 22), (32, 32, 22), (79, 79, 23), (111, 111, 23)]⟩,
  ⟨17, [23], [(78, 78, 24), (110, 110, 24)]⟩,
  ⟨18, [24], [(9, 13, 25), (32, 32, 25)]⟩,
  ⟨19, [25], [(9, 13, 25), (32, 32, 25), (65, 90, 26), (97, 122, 26)]⟩,
  ⟨20, [26], [(9, 13, 27), (32, 32, 27), (48, 57, 26), (65, 90, 26), (95, 95, 26), (97, 122, 26)]⟩,
  ⟨21, [27, 28], [(9, 13, 27), (32, 32, 27), (40, 40, 28), (85, 85, 29), (117, 117, 29)]⟩,
  ⟨22, [30], [(9, 13, 28), (32, 32, 28), (40, 40, 30), (65, 90, 31), (97, 122, 31)]⟩,
  ⟨38, [29], [(83, 83, 32), (115, 115, 32)]⟩,
  ⟨23, [32], [(0, 40, 33), (42, 255, 33)]⟩,
  ⟨37, [33, 34], [(9, 13, 34), (32, 32, 34), (40, 40, 33), (41, 41, 35), (44, 44, 36), (48, 57, 31), (65, 90, 31), (95, 95, 31), (97, 122, 31)]⟩,
  ⟨39, [31], [(73, 73, 37), (105, 105, 37)]⟩,
  ⟨24, [36], [(0, 40, 38), (41, 41, 39), (42, 255, 38)]⟩,
  ⟨26, [37, 38, 40], [(9, 13, 34), (32, 32, 34), (41, 41, 35), (44, 44, 36), (65, 90, 40), (97, 122, 40)]⟩,
  ⟨53, [41], [(9, 13, 41), (32, 32, 41)]⟩,
  ⟨33, [39], [(9, 13, 42), (32, 32, 42), (65, 90, 43), (97, 122, 43)]⟩,
  ⟨40, [35], [(78, 78, 44), (110, 110, 44)]⟩,
  ⟨24, [43], [(0, 40, 38), (41, 41, 39), (42, 255, 38)]⟩,
  ⟨25, [44], [(9, 13, 34), (32, 32, 34), (41, 41, 35), (44, 44, 36)]⟩,
  ⟨35, [45], [(9, 13, 45), (32, 32, 45), (41, 41, 35), (44, 44, 36), (48, 57, 40), (65, 90, 40), (95, 95, 40), (97, 122, 40)]⟩,
  ⟨54, [48, 49], [(9, 13, 41), (32, 32, 41), (87, 87, 46), (119, 119, 46)]⟩,
  ⟨33, [46], [(9, 13, 42), (32, 32, 42), (65, 90, 43), (97, 122, 43)]⟩,
  ⟨34, [47], [(9, 13, 34), (32, 32, 34), (41, 41, 35), (44, 44, 36), (48, 57, 43), (65, 90, 43), (95, 95, 43), (97, 122, 43)]⟩,
  ⟨41, [42], [(71, 71, 47), (103, 103, 47)]⟩,
  ⟨36, [38, 40], [(9, 13, 45), (32, 32, 45), (41, 41, 35), (44, 44, 36)]⟩,
  ⟨27, [51], [(72, 72, 48), (104, 104, 48)]⟩,
  ⟨42, [50], [(9, 13, 49), (32, 32, 49)]⟩,
  ⟨28, [53], [(69, 69, 50), (101, 101, 50)]⟩,
  ⟨43, [52], [(9, 13, 49), (32, 32, 49), (65, 90, 51), (97, 122, 51)]⟩,
  ⟨29, [55], [(82, 82, 52), (114, 114, 52)]⟩,
  ⟨44, [54], [(9, 13, 53), (32, 32, 53), (48, 57, 51), (65, 90, 51), (95, 95, 51), (97, 122, 51)]⟩,
  ⟨30, [56], [(69, 69, 54), (101, 101, 54)]⟩,
  ⟨45, [28], [(9, 13, 53), (32, 32, 53), (40, 40, 28)]⟩,
  ⟨31, [57], [(9, 13, 55), (32, 32, 55)]⟩,
  ⟨32, [58], [(0, 255, 56)]⟩,
  ⟨55, [59], [(0, 255, 57)]⟩,
  ⟨55, [60], [(0, 255, 57)]⟩]

set_option maxRecDepth 100000 in
theorem nfa_ok : NfaOk conts lins nulls := ⟨rfl, rfl, rfl⟩

theorem items_ok : itemsOk entries 61 = true := by decide +kernel

theorem entries_ok : entries.all (checkEntry indexMachine lins nulls entries) = true := by
  decide +kernel

/-- The machine's successful runs are the derivations of the grammar. -/
theorem trace_iff (s : Str) (es : List (Ev IndexAct)) :
    indexMachine.trace indexMachine.start s = some es ↔ DerivesS t0 s es := by
  have h := check_sound nfa_ok (n := 61) rfl items_ok entries_ok s (e := entries.head (by simp [entries]))
    (List.head_mem _) es
  have h0 : (entries.head (by simp [entries])).items = [0] := rfl
  have h1 : stackAt conts 0 = t0 := rfl
  rw [h0] at h
  simp only [List.mem_singleton, exists_eq_left, h1] at h
  exact h

end Verif.Ddl.IndexG
