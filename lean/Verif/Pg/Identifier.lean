import Verif.Ddl.SqlProps
import Verif.Sql.Texts

/-!
# C110: the query for the values of a sequence

Servers before version 10 keep the values of a sequence in a relation with the name of the sequence,
so that the name has to be written into the text of the query.
-/

namespace Verif.Pg
open Verif Verif.Ddl Verif.Ddl.Sql

/-- `strings.Join(parts, ".")`. -/
def joinDot : List Str → Str
  | [] => []
  | [p] => p
  | p :: q :: ps => p ++ b!"." ++ joinDot (q :: ps)

/-- util.go:15-18 `Identifier`: `pgx.Identifier(parts).Sanitize()`, which puts each part between double
quotes, doubling those inside, and joins them with dots (pgx v3, conn.go `func (Identifier)
Sanitize`). -/
def identifier (parts : List Str) : Str :=
  joinDot (parts.map fun p => b!"\"" ++ p.flatMap (fun b => if b = 34 then [34, 34] else [b]) ++ b!"\"")

/-- sequence.go:206-214: the text of the query `listSequencesLegacy` sends for each sequence. -/
def legacyQuery (schema name : Str) : Str := Sql.Texts.legacySequence ++ identifier [schema, name]

/-! ## Specification -/

/-- The tokens of a qualified name: quoted identifiers with dots between them. -/
def qualified : List Str → List Tok
  | [] => []
  | [p] => [.ident p]
  | p :: q :: ps => .ident p :: .sym 46 :: qualified (q :: ps)

/-- `text` is the statement `SELECT start_value, min_value, max_value, increment_by, cache_value,
is_cycled FROM schema.name`, with the schema and the name as quoted identifiers, and nothing else. -/
def Asks (text schema name : Str) : Prop :=
  lex text = some [.word b!"SELECT", .word b!"start_value", .sym 44, .word b!"min_value", .sym 44,
    .word b!"max_value", .sym 44, .word b!"increment_by", .sym 44, .word b!"cache_value", .sym 44,
    .word b!"is_cycled", .word b!"FROM", .ident schema, .sym 46, .ident name]

/-! ## Theorems -/

theorem identifier_cons (p q : Str) (ps : List Str) :
    identifier (p :: q :: ps) = quoteName p ++ b!"." ++ identifier (q :: ps) := rfl

theorem run_identifier (p : Str) (ps : List Str) (acc : List Tok) (rest : Str)
    (h : rest.head? ≠ some 34) :
    run .start acc (identifier (p :: ps) ++ rest) =
      run .start ((qualified (p :: ps)).reverse ++ acc) rest := by
  induction ps generalizing p acc with
  | nil =>
    show run .start acc (quoteName p ++ rest) = _
    rw [run_quoteName, run_identQuote _ _ _ h]
    rfl
  | cons q ps ih =>
    rw [identifier_cons, List.append_assoc, List.append_assoc, run_quoteName,
      run_identQuote _ _ _ (by simp)]
    show run .start (.sym 46 :: .ident p :: acc) (identifier (q :: ps) ++ rest) = _
    rw [ih]
    simp [qualified]

/-- C110: an identifier made of one or more parts, followed by any text that does not begin with a
double quote, is read as these parts with dots between them, and then as that text. -/
theorem C110_identifier (parts : List Str) (hne : parts ≠ []) (rest : Str)
    (h : rest.head? ≠ some 34) :
    lex (identifier parts ++ rest) = (lex rest).map (qualified parts ++ ·) := by
  obtain ⟨p, ps, rfl⟩ := List.exists_cons_of_ne_nil hne
  unfold lex
  rw [run_identifier _ _ _ _ h, run_acc]
  simp

example : lex (identifier [b!"my.schema", b!"a\"; DROP TABLE x; --"] ++ b!" x") =
    some [.ident b!"my.schema", .sym 46, .ident b!"a\"; DROP TABLE x; --", .word b!"x"] := by decide

theorem qualified_injective : ∀ (xs ys : List Str), qualified xs = qualified ys → xs = ys
  | [], [], _ => rfl
  | [], [_], h => by simp [qualified] at h
  | [], _ :: _ :: _, h => by simp [qualified] at h
  | [_], [], h => by simp [qualified] at h
  | _ :: _ :: _, [], h => by simp [qualified] at h
  | [p], [q], h => by simpa [qualified] using h
  | [p], q :: r :: rs, h => by simp [qualified] at h
  | p :: q :: qs, [r], h => by simp [qualified] at h
  | p :: q :: qs, r :: s :: ss, h => by
    simp only [qualified, List.cons.injEq, Tok.ident.injEq, true_and] at h
    rw [h.1, qualified_injective (q :: qs) (s :: ss) h.2]

/-- C110: different lists of parts have different identifiers: a dot or a quote in a name is not
mistaken for the end of the name. -/
theorem C110_injective (xs ys : List Str) (h : identifier xs = identifier ys) : xs = ys := by
  have hl : lex [] = some [] := rfl
  have key : ∀ zs : List Str, lex (identifier zs) = some (qualified zs) := by
    intro zs
    cases zs with
    | nil => rfl
    | cons p ps =>
      have := C110_identifier (p :: ps) (by simp) [] (by simp)
      rw [List.append_nil, hl] at this
      simpa using this
  have hx := key xs
  rw [h, key ys] at hx
  exact qualified_injective _ _ (Option.some.inj hx).symm

/-- C110: the query sent for a sequence asks for the values of that sequence and of no other,
whatever bytes its schema and its name are made of. -/
theorem C110_legacy_query (schema name s n : Str) :
    Asks (legacyQuery schema name) s n ↔ s = schema ∧ n = name := by
  have h : lex (legacyQuery schema name) = some [.word b!"SELECT", .word b!"start_value", .sym 44,
      .word b!"min_value", .sym 44, .word b!"max_value", .sym 44, .word b!"increment_by", .sym 44,
      .word b!"cache_value", .sym 44, .word b!"is_cycled", .word b!"FROM", .ident schema, .sym 46,
      .ident name] := by
    have h1 : lex (legacyQuery schema name) = run .start [.word b!"FROM", .word b!"is_cycled",
        .sym 44, .word b!"cache_value", .sym 44, .word b!"increment_by", .sym 44,
        .word b!"max_value", .sym 44, .word b!"min_value", .sym 44, .word b!"start_value",
        .word b!"SELECT"] (identifier [schema, name] ++ []) := by
      rw [List.append_nil]
      rfl
    rw [h1, run_identifier _ _ _ _ (by simp)]
    rfl
  unfold Asks
  rw [h]
  simp only [Option.some.injEq, List.cons.injEq, Tok.ident.injEq, true_and, and_true]
  exact ⟨fun h => ⟨h.1.symm, h.2.symm⟩, fun h => ⟨h.1.symm, h.2.symm⟩⟩

example : Asks (legacyQuery b!"public" b!"odd\"name") b!"public" b!"odd\"name" :=
  (C110_legacy_query _ _ _ _).mpr ⟨rfl, rfl⟩

end Verif.Pg
