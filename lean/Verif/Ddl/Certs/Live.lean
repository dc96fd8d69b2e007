import Verif.Base.Str

/-!
# From every state of the parsers a final state can be reached: certificates

Generated by tools/gen_live.py from the tables; do not edit.  An entry is a byte to read and the number of bytes to a
final state. -/

namespace Verif.Ddl.Certs

def checkLive : List (UInt8 × Nat) := [
  (0, 0), (67, 7), (72, 6), (69, 5), (67, 4), (75, 3), (40, 2), (41, 1), (41, 1), (41, 1), (41, 1), (41, 1),
  (41, 1), (41, 1), (41, 1), (41, 1), (41, 1), (41, 1), (9, 1), (41, 1), (41, 1), (41, 1), (41, 1), (41, 1),
  (41, 1), (41, 1), (41, 1), (41, 1), (41, 1), (41, 1), (41, 1), (41, 1), (41, 1), (41, 1), (41, 1), (41, 1),
  (41, 1), (41, 1), (41, 1), (41, 1), (41, 1), (41, 1), (41, 1), (41, 1), (41, 1), (41, 1), (41, 1), (41, 1),
  (41, 1), (41, 1), (41, 1), (41, 1), (41, 1), (41, 1), (41, 1), (41, 1), (0, 0), (0, 0), (0, 0), (0, 0)]

def indexLive : List (UInt8 × Nat) := [
  (0, 0), (67, 23), (82, 22), (69, 21), (65, 20), (84, 19), (69, 18), (9, 17), (73, 16), (78, 15), (68, 14),
  (69, 13), (88, 12), (9, 11), (65, 10), (9, 9), (79, 8), (78, 7), (9, 6), (65, 5), (9, 4), (40, 3), (65, 2),
  (0, 3), (41, 2), (41, 1), (41, 1), (72, 6), (69, 5), (82, 4), (69, 3), (9, 2), (0, 1), (65, 2), (41, 1),
  (41, 1), (41, 1), (41, 1), (83, 10), (73, 9), (78, 8), (71, 7), (9, 6), (65, 5), (9, 4), (40, 3), (78, 22),
  (73, 21), (81, 20), (85, 19), (69, 18), (9, 17), (73, 16), (0, 0), (0, 0), (0, 0)]

def foreignKeyLive : List (UInt8 × Nat) := [
  (0, 0), (70, 31), (79, 30), (82, 29), (69, 28), (73, 27), (71, 26), (78, 25), (9, 24), (75, 23), (69, 22),
  (89, 21), (9, 20), (40, 19), (65, 18), (41, 17), (41, 17), (9, 16), (82, 15), (69, 14), (70, 13), (69, 12),
  (82, 11), (69, 10), (78, 9), (67, 8), (69, 7), (83, 6), (9, 5), (65, 4), (40, 3), (65, 2), (41, 1),
  (41, 1), (69, 10), (70, 9), (69, 8), (82, 7), (82, 6), (65, 5), (66, 4), (76, 3), (69, 2), (9, 1),
  (78, 17), (73, 16), (84, 15), (73, 14), (65, 13), (76, 12), (76, 11), (89, 10), (9, 9), (68, 8), (69, 7),
  (70, 6), (69, 5), (82, 4), (82, 3), (69, 2), (68, 1), (77, 8), (77, 7), (69, 6), (68, 5), (73, 4), (65, 3),
  (84, 2), (69, 1), (65, 9), (84, 8), (67, 7), (72, 6), (9, 5), (70, 4), (85, 3), (76, 2), (76, 1), (79, 13),
  (84, 12), (9, 11), (68, 10), (69, 9), (70, 8), (69, 7), (82, 6), (82, 5), (65, 4), (66, 3), (76, 2),
  (78, 16), (9, 15), (68, 14), (69, 13), (76, 12), (69, 11), (84, 10), (69, 9), (9, 8), (67, 7), (65, 6),
  (83, 5), (67, 4), (65, 3), (68, 2), (69, 1), (78, 16), (9, 15), (85, 14), (80, 13), (68, 12), (65, 11),
  (84, 10), (69, 9), (9, 8), (67, 7), (65, 6), (83, 5), (67, 4), (65, 3), (68, 2), (69, 1), (79, 8), (9, 7),
  (65, 6), (67, 5), (84, 4), (73, 3), (79, 2), (78, 1), (69, 7), (83, 6), (84, 5), (82, 4), (73, 3), (67, 2),
  (84, 1), (69, 7), (84, 6), (9, 5), (78, 4), (69, 6), (70, 5), (65, 4), (85, 3), (76, 2), (85, 3), (76, 2),
  (76, 1), (79, 8), (9, 7), (65, 6), (67, 5), (84, 4), (73, 3), (79, 2), (78, 1), (69, 7), (83, 6), (84, 5),
  (82, 4), (73, 3), (67, 2), (84, 1), (69, 7), (84, 6), (9, 5), (78, 4), (69, 6), (70, 5), (65, 4), (85, 3),
  (76, 2), (85, 3), (76, 2), (76, 1), (65, 6), (82, 5), (84, 4), (73, 3), (65, 2), (73, 5), (77, 4), (80, 3),
  (76, 2), (69, 1), (0, 0), (0, 0), (0, 0), (0, 0), (0, 0), (0, 0), (0, 0), (0, 0), (0, 0), (0, 0)]

def triggerLive : List (UInt8 × Nat) := [
  (0, 0), (67, 55), (82, 54), (69, 53), (65, 52), (84, 51), (69, 50), (9, 49), (84, 48), (79, 58), (78, 57),
  (83, 56), (84, 55), (82, 54), (65, 53), (73, 52), (78, 51), (84, 50), (9, 49), (84, 48), (82, 47),
  (73, 46), (71, 45), (71, 44), (69, 43), (82, 42), (9, 41), (65, 40), (9, 39), (65, 38), (70, 37), (84, 36),
  (69, 35), (82, 34), (9, 33), (68, 32), (69, 31), (76, 30), (69, 29), (84, 28), (69, 27), (9, 26), (79, 25),
  (78, 24), (9, 23), (65, 22), (9, 21), (69, 20), (69, 31), (70, 30), (69, 29), (82, 28), (82, 27), (65, 26),
  (66, 25), (76, 24), (69, 23), (9, 22), (9, 21), (69, 20), (88, 19), (69, 18), (67, 17), (85, 16), (84, 15),
  (69, 14), (9, 13), (70, 12), (85, 11), (78, 10), (67, 9), (84, 8), (73, 7), (79, 6), (78, 5), (9, 4),
  (65, 3), (40, 2), (41, 1), (82, 12), (79, 11), (67, 10), (69, 9), (68, 8), (85, 7), (82, 6), (69, 5),
  (79, 27), (82, 26), (9, 25), (82, 24), (65, 28), (67, 27), (72, 26), (9, 25), (82, 24), (79, 23), (87, 22),
  (9, 21), (69, 20), (84, 29), (65, 28), (84, 27), (69, 26), (77, 25), (69, 24), (78, 23), (84, 22),
  (78, 38), (73, 37), (84, 36), (73, 35), (65, 34), (76, 33), (76, 32), (89, 31), (9, 30), (68, 29),
  (69, 28), (70, 27), (69, 26), (82, 25), (82, 24), (69, 23), (68, 22), (9, 21), (69, 20), (77, 29),
  (77, 28), (69, 27), (68, 26), (73, 25), (65, 24), (84, 23), (69, 22), (79, 34), (84, 33), (9, 32),
  (68, 31), (69, 30), (70, 29), (69, 28), (82, 27), (82, 26), (65, 25), (66, 24), (76, 23), (9, 33),
  (78, 31), (83, 30), (69, 29), (82, 28), (84, 27), (82, 33), (85, 32), (78, 31), (67, 30), (65, 29),
  (84, 28), (69, 27), (80, 31), (68, 30), (65, 29), (84, 28), (69, 27), (9, 26), (79, 25), (78, 24), (9, 28),
  (65, 27), (9, 26), (79, 25), (69, 38), (70, 37), (79, 36), (82, 35), (69, 34), (78, 42), (83, 41),
  (84, 40), (69, 39), (65, 38), (68, 37), (9, 36), (79, 35), (70, 34), (0, 0)]

end Verif.Ddl.Certs
