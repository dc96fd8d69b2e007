import Verif.Ddl.IndexParse
import Verif.Ddl.FkParse
import Verif.Ddl.TriggerParse
import Verif.Ddl.CheckParse
import Verif.Ddl.NoPanic

/-!
# C41-C46: the parsers accept exactly their grammars and extract the fields

`CheckText`, `IndexText`, `ForeignKeyText` and `TriggerText` are in `ParseSpec`.
-/

namespace Verif.Ddl
open Verif Verif.Ragel

/-- C41: `ParseCheck` succeeds exactly on CHECK clauses and returns an error otherwise. -/
theorem C41_check_grammar (s : Str) :
    ((∃ e d i, CheckText s e d i) → ∃ c, parseCheck s = .ok c) ∧
    ((¬ ∃ e d i, CheckText s e d i) → ∃ cs, parseCheck s = .err cs) := by
  rcases parseCheck_cases s with ⟨h1, h2⟩ | ⟨e, d, i, c, h1, h2, -⟩
  · exact ⟨fun h => absurd h h1, fun _ => h2⟩
  · exact ⟨fun _ => ⟨c, h2⟩, fun h => absurd ⟨e, d, i, h1⟩ h⟩

example : ∃ e d i, CheckText b!" check((a > 0)) DEFERRABLE initially deferred " e d i :=
  ⟨b!"(a > 0)", true, true, b!" ", b!"check", [], b!" DEFERRABLE initially deferred", b!" ", rfl,
    by decide +kernel, by decide +kernel, by simp [Spaces],
    Or.inr (Or.inr ⟨b!" ", b!"DEFERRABLE ", b!"initially deferred", ws_one (by decide +kernel),
      Or.inr ⟨b!"DEFERRABLE", b!" ", kw_refl _, ws_one (by decide +kernel), rfl, rfl⟩,
      Or.inr ⟨b!"initially", b!" ", b!"deferred", by decide +kernel, ws_one (by decide +kernel),
        by decide +kernel, rfl⟩, rfl⟩), by decide +kernel⟩

example : parseCheck b!" check((a > 0)) DEFERRABLE initially deferred " =
    .ok { expression := b!"(a > 0)", deferrable := true, initiallyDeferred := true } := by decide +kernel
example : parseCheck b!"CHECK (a > 0" = .err 8 := by decide +kernel

/-- C42, the expression: the trimmed text between the opening parenthesis and the last closing one
(a clause has no parenthesis outside them). The flags: a trailing clause sets them, and if the expression
has no closing parenthesis nothing else does. The exact condition is in `C42_check_flags`. -/
theorem C42_check_fields_partial (s e : Str) (d i : Bool) (h : CheckText s e d i) (c : Check)
    (hc : parseCheck s = .ok c) :
    Trimmed e c.expression ∧ c.name = [] ∧
    (d = true → c.deferrable = true) ∧ (i = true → c.initiallyDeferred = true) ∧
    ((41 : UInt8) ∉ e → c.deferrable = d ∧ c.initiallyDeferred = i) := by
  rcases parseCheck_cases s with ⟨_, cs, h2⟩ | ⟨e', d', i', c', h1, h2, h3, h4, h5, h6⟩
  · rw [h2] at hc; cases hc
  · rw [h2] at hc
    cases hc
    obtain ⟨rfl, rfl, rfl⟩ := CheckG.checkText_unique h h1
    refine ⟨h4 ▸ trimmed_trim e, h3, fun hd => h5.mpr (Or.inl hd), fun hi => h6.mpr (Or.inl hi), ?_⟩
    intro hne
    have n1 : ¬ StrayDeferrable e := by
      rintro ⟨x, v, k, b, y, rfl, -⟩
      exact hne (by simp)
    have n2 : ¬ StrayDeferred e := by
      rintro ⟨x, v, p, k, w, t, y, rfl, -⟩
      exact hne (by simp)
    simp only [n1, or_false] at h5
    simp only [n2, or_false] at h6
    exact ⟨Bool.eq_iff_iff.mpr h5, Bool.eq_iff_iff.mpr h6⟩

/-- C42: exactly when the flags are set: by the trailing clause, or by text that looks like one inside the
expression. -/
theorem C42_check_flags (s e : Str) (d i : Bool) (h : CheckText s e d i) (c : Check)
    (hc : parseCheck s = .ok c) :
    (c.deferrable = true ↔ d = true ∨ StrayDeferrable e) ∧
    (c.initiallyDeferred = true ↔ i = true ∨ StrayDeferred e) := by
  rcases parseCheck_cases s with ⟨_, cs, h2⟩ | ⟨e', d', i', c', h1, h2, h3, h4, h5, h6⟩
  · rw [h2] at hc; cases hc
  · rw [h2] at hc
    cases hc
    obtain ⟨rfl, rfl, rfl⟩ := CheckG.checkText_unique h h1
    exact ⟨h5, h6⟩

/-- C42 is false: with no trailing clause at all, a string in the expression sets the flag. -/
theorem C42_refuted :
    ∃ (s e : Str) (c : Check), CheckText s e false false ∧ parseCheck s = .ok c ∧ c.deferrable = true := by
  refine ⟨b!"CHECK (a <> ') deferrable ')", b!"a <> ') deferrable '", _, ?_,
    (by decide +kernel : _ = Outcome.ok ({ expression := b!"a <> ') deferrable '", deferrable := true } : Check)), rfl⟩
  exact ⟨[], b!"CHECK", b!" ", [], [], rfl, by simp [Spaces], kw_refl _, by decide +kernel,
    Or.inl ⟨rfl, rfl, rfl⟩, by simp [Spaces]⟩

/-- C43: `ParseIndex` returns `x` exactly if the text is a CREATE INDEX statement for `x`, and an error if
it is none. -/
theorem C43_index_grammar (s : Str) :
    (∀ x, parseIndex s = .ok x ↔ IndexText s x) ∧
    ((¬ ∃ x, IndexText s x) → ∃ cs, parseIndex s = .err cs) := by
  refine ⟨parseIndex_ok_iff s, fun h => ?_⟩
  cases hp : parseIndex s with
  | ok x => exact absurd ⟨x, (parseIndex_ok_iff s x).mp hp⟩ h
  | err cs => exact ⟨cs, rfl⟩
  | panic => exact absurd hp (parseIndex_total s)

example : parseIndex b!"CREATE UNIQUE INDEX i ON t USING btree (lower(a) text_ops, b)  WHERE  a  >  0 " =
    .ok { table := b!"t", name := b!"i", unique := true, using_ := b!"btree", where_ := b!"a > 0"
          keys := [{ expression := b!"lower(a)", opClass := b!"text_ops" }, { column := b!"b" }] } := by
  decide +kernel
example : IndexText b!"CREATE UNIQUE INDEX i ON t USING btree (lower(a) text_ops, b)  WHERE  a  >  0 "
    { table := b!"t", name := b!"i", unique := true, using_ := b!"btree", where_ := b!"a > 0"
      keys := [{ expression := b!"lower(a)", opClass := b!"text_ops" }, { column := b!"b" }] } :=
  ((C43_index_grammar _).1 _).mp (by decide +kernel)
example : parseIndex b!"CREATE INDEX i ON t (a, lower(b))" = .err 0 := by decide +kernel

/-- C44: `ParseForeignKey` returns `x` exactly if the text is a FOREIGN KEY clause for `x`, and an error if
it is none. -/
theorem C44_foreign_key_grammar (s : Str) :
    (∀ x, parseForeignKey s = .ok x ↔ ForeignKeyText s x) ∧
    ((¬ ∃ x, ForeignKeyText s x) → ∃ cs, parseForeignKey s = .err cs) := by
  refine ⟨parseForeignKey_ok_iff s, fun h => ?_⟩
  cases hp : parseForeignKey s with
  | ok x => exact absurd ⟨x, (parseForeignKey_ok_iff s x).mp hp⟩ h
  | err cs => exact ⟨cs, rfl⟩
  | panic => exact absurd hp (parseForeignKey_total s)

example : parseForeignKey b!"foreign key (a, b) references t(c,d) match full on delete set  null deferrable " =
    .ok { table := b!"t", columns := [b!"a", b!"b"], referenced := [b!"c", b!"d"], match_ := b!"FULL"
          onDelete := b!"SET NULL", deferrable := true } := by decide +kernel
example : parseForeignKey b!"FOREIGN KEY (a) REFERENCES t" = .err 30 := by decide +kernel

/-- C45: `ParseTrigger` returns `x` exactly if the text is a CREATE TRIGGER statement for `x`, and an error
if it is none. -/
theorem C45_trigger_grammar (s : Str) :
    (∀ x, parseTrigger s = .ok x ↔ TriggerText s x) ∧
    ((¬ ∃ x, TriggerText s x) → ∃ cs, parseTrigger s = .err cs) := by
  refine ⟨parseTrigger_ok_iff s, fun h => ?_⟩
  cases hp : parseTrigger s with
  | ok x => exact absurd ⟨x, (parseTrigger_ok_iff s x).mp hp⟩ h
  | err cs => exact ⟨cs, rfl⟩
  | panic => exact absurd hp (parseTrigger_total s)

example : parseTrigger b!"CREATE TRIGGER g BEFORE INSERT OR UPDATE OF a, b ON t FOR EACH ROW EXECUTE FUNCTION f()" =
    .ok { name := b!"g", table := b!"t", function := b!"f", when_ := b!"BEFORE", insert := true, update := true
          columns := [b!"a", b!"b"], forEachRow := true } := by decide +kernel
example : parseTrigger b!"CREATE TRIGGER g BEFORE INSERT ON t" = .err 46 := by decide +kernel

/-- C46: no parser panics. -/
theorem C46_parsers_never_panic (s : Str) :
    parseCheck s ≠ .panic ∧ parseIndex s ≠ .panic ∧ parseForeignKey s ≠ .panic ∧ parseTrigger s ≠ .panic := by
  refine ⟨?_, parseIndex_total s, parseForeignKey_total s, parseTrigger_total s⟩
  rcases parseCheck_cases s with ⟨_, cs, h⟩ | ⟨_, _, _, c, _, h, _⟩ <;> rw [h] <;> simp

end Verif.Ddl
