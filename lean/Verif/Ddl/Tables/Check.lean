import Verif.Ragel.Machine

/-!
# The state machine of `/repo/internal/ddl/check_parser.go`

Generated by tools/ragel2lean.py from the generated Go code; do not edit.
-/

namespace Verif.Ddl
open Verif.Ragel

/-- The actions of check_parser.rl:1-44 other than `addToBuffer`. -/
inductive CheckAct where
  | setMark1
  | setMark2
  | matchDeferrable
  | matchInitiallyDeferred
deriving DecidableEq, Repr

/-- check_parser.go:160-1046: one row per state. -/
def checkRows : List (Row CheckAct) := [
  { state := 0, rules := [], eof := [] },
  -- check_parser.go:161-176
  { state := 1, rules := [
      ⟨9, 13, [], 1⟩, ⟨32, 32, [], 1⟩, ⟨67, 67, [], 2⟩, ⟨99, 99, [], 2⟩],
    eof := [] },
  -- check_parser.go:182-192
  { state := 2, rules := [
      ⟨72, 72, [], 3⟩, ⟨104, 104, [], 3⟩],
    eof := [] },
  -- check_parser.go:194-204
  { state := 3, rules := [
      ⟨69, 69, [], 4⟩, ⟨101, 101, [], 4⟩],
    eof := [] },
  -- check_parser.go:206-216
  { state := 4, rules := [
      ⟨67, 67, [], 5⟩, ⟨99, 99, [], 5⟩],
    eof := [] },
  -- check_parser.go:218-228
  { state := 5, rules := [
      ⟨75, 75, [], 6⟩, ⟨107, 107, [], 6⟩],
    eof := [] },
  -- check_parser.go:230-243
  { state := 6, rules := [
      ⟨9, 13, [], 6⟩, ⟨32, 32, [], 6⟩, ⟨40, 40, [], 7⟩],
    eof := [] },
  -- check_parser.go:245-252
  { state := 7, rules := [
      ⟨0, 40, [.act .setMark1], 8⟩, ⟨41, 41, [.act .setMark1, .act .setMark2], 56⟩,
      ⟨42, 255, [.act .setMark1], 8⟩],
    eof := [] },
  -- check_parser.go:260-268
  { state := 8, rules := [
      ⟨0, 40, [], 8⟩, ⟨41, 41, [.act .setMark2], 56⟩, ⟨42, 255, [], 8⟩],
    eof := [] },
  -- check_parser.go:329-341
  { state := 9, rules := [
      ⟨0, 40, [], 8⟩, ⟨41, 41, [.act .setMark2], 56⟩, ⟨42, 68, [], 8⟩, ⟨69, 69, [], 10⟩,
      ⟨70, 100, [], 8⟩, ⟨101, 101, [], 10⟩, ⟨102, 255, [], 8⟩],
    eof := [] },
  -- check_parser.go:343-355
  { state := 10, rules := [
      ⟨0, 40, [], 8⟩, ⟨41, 41, [.act .setMark2], 56⟩, ⟨42, 69, [], 8⟩, ⟨70, 70, [], 11⟩,
      ⟨71, 101, [], 8⟩, ⟨102, 102, [], 11⟩, ⟨103, 255, [], 8⟩],
    eof := [] },
  -- check_parser.go:357-369
  { state := 11, rules := [
      ⟨0, 40, [], 8⟩, ⟨41, 41, [.act .setMark2], 56⟩, ⟨42, 68, [], 8⟩, ⟨69, 69, [], 12⟩,
      ⟨70, 100, [], 8⟩, ⟨101, 101, [], 12⟩, ⟨102, 255, [], 8⟩],
    eof := [] },
  -- check_parser.go:371-383
  { state := 12, rules := [
      ⟨0, 40, [], 8⟩, ⟨41, 41, [.act .setMark2], 56⟩, ⟨42, 81, [], 8⟩, ⟨82, 82, [], 13⟩,
      ⟨83, 113, [], 8⟩, ⟨114, 114, [], 13⟩, ⟨115, 255, [], 8⟩],
    eof := [] },
  -- check_parser.go:385-397
  { state := 13, rules := [
      ⟨0, 40, [], 8⟩, ⟨41, 41, [.act .setMark2], 56⟩, ⟨42, 81, [], 8⟩, ⟨82, 82, [], 14⟩,
      ⟨83, 113, [], 8⟩, ⟨114, 114, [], 14⟩, ⟨115, 255, [], 8⟩],
    eof := [] },
  -- check_parser.go:399-411
  { state := 14, rules := [
      ⟨0, 40, [], 8⟩, ⟨41, 41, [.act .setMark2], 56⟩, ⟨42, 64, [], 8⟩, ⟨65, 65, [], 15⟩,
      ⟨66, 96, [], 8⟩, ⟨97, 97, [], 15⟩, ⟨98, 255, [], 8⟩],
    eof := [] },
  -- check_parser.go:413-425
  { state := 15, rules := [
      ⟨0, 40, [], 8⟩, ⟨41, 41, [.act .setMark2], 56⟩, ⟨42, 65, [], 8⟩, ⟨66, 66, [], 16⟩,
      ⟨67, 97, [], 8⟩, ⟨98, 98, [], 16⟩, ⟨99, 255, [], 8⟩],
    eof := [] },
  -- check_parser.go:427-439
  { state := 16, rules := [
      ⟨0, 40, [], 8⟩, ⟨41, 41, [.act .setMark2], 56⟩, ⟨42, 75, [], 8⟩, ⟨76, 76, [], 17⟩,
      ⟨77, 107, [], 8⟩, ⟨108, 108, [], 17⟩, ⟨109, 255, [], 8⟩],
    eof := [] },
  -- check_parser.go:441-453
  { state := 17, rules := [
      ⟨0, 40, [], 8⟩, ⟨41, 41, [.act .setMark2], 56⟩, ⟨42, 68, [], 8⟩, ⟨69, 69, [], 18⟩,
      ⟨70, 100, [], 8⟩, ⟨101, 101, [], 18⟩, ⟨102, 255, [], 8⟩],
    eof := [] },
  -- check_parser.go:455-468
  { state := 18, rules := [
      ⟨0, 8, [], 8⟩, ⟨9, 13, [.act .matchDeferrable], 58⟩, ⟨14, 31, [], 8⟩,
      ⟨32, 32, [.act .matchDeferrable], 58⟩, ⟨33, 40, [], 8⟩,
      ⟨41, 41, [.act .setMark2], 56⟩, ⟨42, 255, [], 8⟩],
    eof := [] },
  -- check_parser.go:494-506
  { state := 19, rules := [
      ⟨0, 40, [], 8⟩, ⟨41, 41, [.act .setMark2], 56⟩, ⟨42, 77, [], 8⟩, ⟨78, 78, [], 20⟩,
      ⟨79, 109, [], 8⟩, ⟨110, 110, [], 20⟩, ⟨111, 255, [], 8⟩],
    eof := [] },
  -- check_parser.go:508-520
  { state := 20, rules := [
      ⟨0, 40, [], 8⟩, ⟨41, 41, [.act .setMark2], 56⟩, ⟨42, 72, [], 8⟩, ⟨73, 73, [], 21⟩,
      ⟨74, 104, [], 8⟩, ⟨105, 105, [], 21⟩, ⟨106, 255, [], 8⟩],
    eof := [] },
  -- check_parser.go:522-534
  { state := 21, rules := [
      ⟨0, 40, [], 8⟩, ⟨41, 41, [.act .setMark2], 56⟩, ⟨42, 83, [], 8⟩, ⟨84, 84, [], 22⟩,
      ⟨85, 115, [], 8⟩, ⟨116, 116, [], 22⟩, ⟨117, 255, [], 8⟩],
    eof := [] },
  -- check_parser.go:536-548
  { state := 22, rules := [
      ⟨0, 40, [], 8⟩, ⟨41, 41, [.act .setMark2], 56⟩, ⟨42, 72, [], 8⟩, ⟨73, 73, [], 23⟩,
      ⟨74, 104, [], 8⟩, ⟨105, 105, [], 23⟩, ⟨106, 255, [], 8⟩],
    eof := [] },
  -- check_parser.go:550-562
  { state := 23, rules := [
      ⟨0, 40, [], 8⟩, ⟨41, 41, [.act .setMark2], 56⟩, ⟨42, 64, [], 8⟩, ⟨65, 65, [], 24⟩,
      ⟨66, 96, [], 8⟩, ⟨97, 97, [], 24⟩, ⟨98, 255, [], 8⟩],
    eof := [] },
  -- check_parser.go:564-576
  { state := 24, rules := [
      ⟨0, 40, [], 8⟩, ⟨41, 41, [.act .setMark2], 56⟩, ⟨42, 75, [], 8⟩, ⟨76, 76, [], 25⟩,
      ⟨77, 107, [], 8⟩, ⟨108, 108, [], 25⟩, ⟨109, 255, [], 8⟩],
    eof := [] },
  -- check_parser.go:578-590
  { state := 25, rules := [
      ⟨0, 40, [], 8⟩, ⟨41, 41, [.act .setMark2], 56⟩, ⟨42, 75, [], 8⟩, ⟨76, 76, [], 26⟩,
      ⟨77, 107, [], 8⟩, ⟨108, 108, [], 26⟩, ⟨109, 255, [], 8⟩],
    eof := [] },
  -- check_parser.go:592-604
  { state := 26, rules := [
      ⟨0, 40, [], 8⟩, ⟨41, 41, [.act .setMark2], 56⟩, ⟨42, 88, [], 8⟩, ⟨89, 89, [], 27⟩,
      ⟨90, 120, [], 8⟩, ⟨121, 121, [], 27⟩, ⟨122, 255, [], 8⟩],
    eof := [] },
  -- check_parser.go:606-619
  { state := 27, rules := [
      ⟨0, 8, [], 8⟩, ⟨9, 13, [], 28⟩, ⟨14, 31, [], 8⟩, ⟨32, 32, [], 28⟩, ⟨33, 40, [], 8⟩,
      ⟨41, 41, [.act .setMark2], 56⟩, ⟨42, 255, [], 8⟩],
    eof := [] },
  -- check_parser.go:621-642
  { state := 28, rules := [
      ⟨0, 8, [], 8⟩, ⟨9, 13, [], 28⟩, ⟨14, 31, [], 8⟩, ⟨32, 32, [], 28⟩, ⟨33, 40, [], 8⟩,
      ⟨41, 41, [.act .setMark2], 56⟩, ⟨42, 67, [], 8⟩, ⟨68, 68, [], 29⟩, ⟨69, 72, [], 8⟩,
      ⟨73, 73, [], 36⟩, ⟨74, 99, [], 8⟩, ⟨100, 100, [], 29⟩, ⟨101, 104, [], 8⟩,
      ⟨105, 105, [], 36⟩, ⟨106, 255, [], 8⟩],
    eof := [] },
  -- check_parser.go:644-656
  { state := 29, rules := [
      ⟨0, 40, [], 8⟩, ⟨41, 41, [.act .setMark2], 56⟩, ⟨42, 68, [], 8⟩, ⟨69, 69, [], 30⟩,
      ⟨70, 100, [], 8⟩, ⟨101, 101, [], 30⟩, ⟨102, 255, [], 8⟩],
    eof := [] },
  -- check_parser.go:658-670
  { state := 30, rules := [
      ⟨0, 40, [], 8⟩, ⟨41, 41, [.act .setMark2], 56⟩, ⟨42, 69, [], 8⟩, ⟨70, 70, [], 31⟩,
      ⟨71, 101, [], 8⟩, ⟨102, 102, [], 31⟩, ⟨103, 255, [], 8⟩],
    eof := [] },
  -- check_parser.go:672-684
  { state := 31, rules := [
      ⟨0, 40, [], 8⟩, ⟨41, 41, [.act .setMark2], 56⟩, ⟨42, 68, [], 8⟩, ⟨69, 69, [], 32⟩,
      ⟨70, 100, [], 8⟩, ⟨101, 101, [], 32⟩, ⟨102, 255, [], 8⟩],
    eof := [] },
  -- check_parser.go:686-698
  { state := 32, rules := [
      ⟨0, 40, [], 8⟩, ⟨41, 41, [.act .setMark2], 56⟩, ⟨42, 81, [], 8⟩, ⟨82, 82, [], 33⟩,
      ⟨83, 113, [], 8⟩, ⟨114, 114, [], 33⟩, ⟨115, 255, [], 8⟩],
    eof := [] },
  -- check_parser.go:700-712
  { state := 33, rules := [
      ⟨0, 40, [], 8⟩, ⟨41, 41, [.act .setMark2], 56⟩, ⟨42, 81, [], 8⟩, ⟨82, 82, [], 34⟩,
      ⟨83, 113, [], 8⟩, ⟨114, 114, [], 34⟩, ⟨115, 255, [], 8⟩],
    eof := [] },
  -- check_parser.go:714-726
  { state := 34, rules := [
      ⟨0, 40, [], 8⟩, ⟨41, 41, [.act .setMark2], 56⟩, ⟨42, 68, [], 8⟩, ⟨69, 69, [], 35⟩,
      ⟨70, 100, [], 8⟩, ⟨101, 101, [], 35⟩, ⟨102, 255, [], 8⟩],
    eof := [] },
  -- check_parser.go:728-740
  { state := 35, rules := [
      ⟨0, 40, [], 8⟩, ⟨41, 41, [.act .setMark2], 56⟩, ⟨42, 67, [], 8⟩,
      ⟨68, 68, [.act .matchInitiallyDeferred], 59⟩, ⟨69, 99, [], 8⟩,
      ⟨100, 100, [.act .matchInitiallyDeferred], 59⟩, ⟨101, 255, [], 8⟩],
    eof := [] },
  -- check_parser.go:762-774
  { state := 36, rules := [
      ⟨0, 40, [], 8⟩, ⟨41, 41, [.act .setMark2], 56⟩, ⟨42, 76, [], 8⟩, ⟨77, 77, [], 37⟩,
      ⟨78, 108, [], 8⟩, ⟨109, 109, [], 37⟩, ⟨110, 255, [], 8⟩],
    eof := [] },
  -- check_parser.go:776-788
  { state := 37, rules := [
      ⟨0, 40, [], 8⟩, ⟨41, 41, [.act .setMark2], 56⟩, ⟨42, 76, [], 8⟩, ⟨77, 77, [], 38⟩,
      ⟨78, 108, [], 8⟩, ⟨109, 109, [], 38⟩, ⟨110, 255, [], 8⟩],
    eof := [] },
  -- check_parser.go:790-802
  { state := 38, rules := [
      ⟨0, 40, [], 8⟩, ⟨41, 41, [.act .setMark2], 56⟩, ⟨42, 68, [], 8⟩, ⟨69, 69, [], 39⟩,
      ⟨70, 100, [], 8⟩, ⟨101, 101, [], 39⟩, ⟨102, 255, [], 8⟩],
    eof := [] },
  -- check_parser.go:804-816
  { state := 39, rules := [
      ⟨0, 40, [], 8⟩, ⟨41, 41, [.act .setMark2], 56⟩, ⟨42, 67, [], 8⟩, ⟨68, 68, [], 40⟩,
      ⟨69, 99, [], 8⟩, ⟨100, 100, [], 40⟩, ⟨101, 255, [], 8⟩],
    eof := [] },
  -- check_parser.go:818-830
  { state := 40, rules := [
      ⟨0, 40, [], 8⟩, ⟨41, 41, [.act .setMark2], 56⟩, ⟨42, 72, [], 8⟩, ⟨73, 73, [], 41⟩,
      ⟨74, 104, [], 8⟩, ⟨105, 105, [], 41⟩, ⟨106, 255, [], 8⟩],
    eof := [] },
  -- check_parser.go:832-844
  { state := 41, rules := [
      ⟨0, 40, [], 8⟩, ⟨41, 41, [.act .setMark2], 56⟩, ⟨42, 64, [], 8⟩, ⟨65, 65, [], 42⟩,
      ⟨66, 96, [], 8⟩, ⟨97, 97, [], 42⟩, ⟨98, 255, [], 8⟩],
    eof := [] },
  -- check_parser.go:846-858
  { state := 42, rules := [
      ⟨0, 40, [], 8⟩, ⟨41, 41, [.act .setMark2], 56⟩, ⟨42, 83, [], 8⟩, ⟨84, 84, [], 43⟩,
      ⟨85, 115, [], 8⟩, ⟨116, 116, [], 43⟩, ⟨117, 255, [], 8⟩],
    eof := [] },
  -- check_parser.go:860-872
  { state := 43, rules := [
      ⟨0, 40, [], 8⟩, ⟨41, 41, [.act .setMark2], 56⟩, ⟨42, 68, [], 8⟩, ⟨69, 69, [], 59⟩,
      ⟨70, 100, [], 8⟩, ⟨101, 101, [], 59⟩, ⟨102, 255, [], 8⟩],
    eof := [] },
  -- check_parser.go:874-886
  { state := 44, rules := [
      ⟨0, 40, [], 8⟩, ⟨41, 41, [.act .setMark2], 56⟩, ⟨42, 78, [], 8⟩, ⟨79, 79, [], 45⟩,
      ⟨80, 110, [], 8⟩, ⟨111, 111, [], 45⟩, ⟨112, 255, [], 8⟩],
    eof := [] },
  -- check_parser.go:888-900
  { state := 45, rules := [
      ⟨0, 40, [], 8⟩, ⟨41, 41, [.act .setMark2], 56⟩, ⟨42, 83, [], 8⟩, ⟨84, 84, [], 46⟩,
      ⟨85, 115, [], 8⟩, ⟨116, 116, [], 46⟩, ⟨117, 255, [], 8⟩],
    eof := [] },
  -- check_parser.go:902-915
  { state := 46, rules := [
      ⟨0, 8, [], 8⟩, ⟨9, 13, [], 47⟩, ⟨14, 31, [], 8⟩, ⟨32, 32, [], 47⟩, ⟨33, 40, [], 8⟩,
      ⟨41, 41, [.act .setMark2], 56⟩, ⟨42, 255, [], 8⟩],
    eof := [] },
  -- check_parser.go:917-934
  { state := 47, rules := [
      ⟨0, 8, [], 8⟩, ⟨9, 13, [], 47⟩, ⟨14, 31, [], 8⟩, ⟨32, 32, [], 47⟩, ⟨33, 40, [], 8⟩,
      ⟨41, 41, [.act .setMark2], 56⟩, ⟨42, 67, [], 8⟩, ⟨68, 68, [], 48⟩, ⟨69, 99, [], 8⟩,
      ⟨100, 100, [], 48⟩, ⟨101, 255, [], 8⟩],
    eof := [] },
  -- check_parser.go:936-948
  { state := 48, rules := [
      ⟨0, 40, [], 8⟩, ⟨41, 41, [.act .setMark2], 56⟩, ⟨42, 68, [], 8⟩, ⟨69, 69, [], 49⟩,
      ⟨70, 100, [], 8⟩, ⟨101, 101, [], 49⟩, ⟨102, 255, [], 8⟩],
    eof := [] },
  -- check_parser.go:950-962
  { state := 49, rules := [
      ⟨0, 40, [], 8⟩, ⟨41, 41, [.act .setMark2], 56⟩, ⟨42, 69, [], 8⟩, ⟨70, 70, [], 50⟩,
      ⟨71, 101, [], 8⟩, ⟨102, 102, [], 50⟩, ⟨103, 255, [], 8⟩],
    eof := [] },
  -- check_parser.go:964-976
  { state := 50, rules := [
      ⟨0, 40, [], 8⟩, ⟨41, 41, [.act .setMark2], 56⟩, ⟨42, 68, [], 8⟩, ⟨69, 69, [], 51⟩,
      ⟨70, 100, [], 8⟩, ⟨101, 101, [], 51⟩, ⟨102, 255, [], 8⟩],
    eof := [] },
  -- check_parser.go:978-990
  { state := 51, rules := [
      ⟨0, 40, [], 8⟩, ⟨41, 41, [.act .setMark2], 56⟩, ⟨42, 81, [], 8⟩, ⟨82, 82, [], 52⟩,
      ⟨83, 113, [], 8⟩, ⟨114, 114, [], 52⟩, ⟨115, 255, [], 8⟩],
    eof := [] },
  -- check_parser.go:992-1004
  { state := 52, rules := [
      ⟨0, 40, [], 8⟩, ⟨41, 41, [.act .setMark2], 56⟩, ⟨42, 81, [], 8⟩, ⟨82, 82, [], 53⟩,
      ⟨83, 113, [], 8⟩, ⟨114, 114, [], 53⟩, ⟨115, 255, [], 8⟩],
    eof := [] },
  -- check_parser.go:1006-1018
  { state := 53, rules := [
      ⟨0, 40, [], 8⟩, ⟨41, 41, [.act .setMark2], 56⟩, ⟨42, 64, [], 8⟩, ⟨65, 65, [], 54⟩,
      ⟨66, 96, [], 8⟩, ⟨97, 97, [], 54⟩, ⟨98, 255, [], 8⟩],
    eof := [] },
  -- check_parser.go:1020-1032
  { state := 54, rules := [
      ⟨0, 40, [], 8⟩, ⟨41, 41, [.act .setMark2], 56⟩, ⟨42, 65, [], 8⟩, ⟨66, 66, [], 55⟩,
      ⟨67, 97, [], 8⟩, ⟨98, 98, [], 55⟩, ⟨99, 255, [], 8⟩],
    eof := [] },
  -- check_parser.go:1034-1046
  { state := 55, rules := [
      ⟨0, 40, [], 8⟩, ⟨41, 41, [.act .setMark2], 56⟩, ⟨42, 75, [], 8⟩, ⟨76, 76, [], 43⟩,
      ⟨77, 107, [], 8⟩, ⟨108, 108, [], 43⟩, ⟨109, 255, [], 8⟩],
    eof := [] },
  -- check_parser.go:286-300
  { state := 56, rules := [
      ⟨0, 8, [], 8⟩, ⟨9, 13, [], 57⟩, ⟨14, 31, [], 8⟩, ⟨32, 32, [], 57⟩, ⟨33, 40, [], 8⟩,
      ⟨41, 41, [.act .setMark2], 56⟩, ⟨42, 255, [], 8⟩],
    eof := [] },
  -- check_parser.go:302-327
  { state := 57, rules := [
      ⟨0, 8, [], 8⟩, ⟨9, 13, [], 57⟩, ⟨14, 31, [], 8⟩, ⟨32, 32, [], 57⟩, ⟨33, 40, [], 8⟩,
      ⟨41, 41, [.act .setMark2], 56⟩, ⟨42, 67, [], 8⟩, ⟨68, 68, [], 9⟩, ⟨69, 72, [], 8⟩,
      ⟨73, 73, [], 19⟩, ⟨74, 77, [], 8⟩, ⟨78, 78, [], 44⟩, ⟨79, 99, [], 8⟩,
      ⟨100, 100, [], 9⟩, ⟨101, 104, [], 8⟩, ⟨105, 105, [], 19⟩, ⟨106, 109, [], 8⟩,
      ⟨110, 110, [], 44⟩, ⟨111, 255, [], 8⟩],
    eof := [] },
  -- check_parser.go:474-492
  { state := 58, rules := [
      ⟨0, 8, [], 8⟩, ⟨9, 13, [.act .matchDeferrable], 58⟩, ⟨14, 31, [], 8⟩,
      ⟨32, 32, [.act .matchDeferrable], 58⟩, ⟨33, 40, [], 8⟩,
      ⟨41, 41, [.act .setMark2], 56⟩, ⟨42, 72, [], 8⟩, ⟨73, 73, [], 19⟩, ⟨74, 104, [], 8⟩,
      ⟨105, 105, [], 19⟩, ⟨106, 255, [], 8⟩],
    eof := [] },
  -- check_parser.go:746-760
  { state := 59, rules := [
      ⟨0, 8, [], 8⟩, ⟨9, 13, [], 59⟩, ⟨14, 31, [], 8⟩, ⟨32, 32, [], 59⟩, ⟨33, 40, [], 8⟩,
      ⟨41, 41, [.act .setMark2], 56⟩, ⟨42, 255, [], 8⟩],
    eof := [] }]

/-- check_parser.go:9-11: the constants and the table. -/
def checkMachine : Machine CheckAct :=
  { start := 1, firstFinal := 56, rows := checkRows }

end Verif.Ddl
