import Verif.Ddl.CreateSpec2
import Verif.Ddl.CreateProps

/-!
# C111 for primary keys and triggers
-/

namespace Verif.Ddl
open Verif Verif.Ddl.Sql Verif.Ddl.Create

theorem readList_commaIdents (n : Str) (ns : List Str) (ts : List Tok) (h : ts.head? ≠ some (.sym 44)) :
    readList (commaIdents (n :: ns) ++ ts) = some (n :: ns, ts) := by
  induction ns generalizing n with
  | nil =>
    cases ts with
    | nil => rfl
    | cons t ts =>
      simp only [commaIdents, List.cons_append, List.nil_append]
      rw [readList]
      rintro x hx
      cases hx
      simp at h
  | cons m ns ih =>
    simp only [commaIdents, List.cons_append, List.nil_append, readList] at ih ⊢
    simp [ih m]

/-- **C111 for primary keys, except for the schema.** The statement of a primary key with columns adds
a primary key on those columns, in this order, to the table with the name of the description, under the
name of the description if it has one. Without columns it is no statement that adds a primary key. -/
theorem C111_key_partial (idx : Index) (hp : idx.primary = true) :
    createsKey idx.toSQL =
      if idx.keys = [] then none
      else some {
        schema := none
        table := idx.table
        name := if idx.name = [] then none else some idx.name
        columns := idx.keys.map IndexKey.column } := by
  unfold createsKey
  rw [C38_index_names_confined_partial idx hp]
  simp only [Option.bind_some, List.append_assoc, List.cons_append, List.nil_append]
  have hk : readKeyColumns (.word b!"PRIMARY" :: .word b!"KEY" :: .sym 40 ::
      (commaIdents (idx.keys.map IndexKey.column) ++ [.sym 41, .sym 59])) =
      if idx.keys = [] then none else some (idx.keys.map IndexKey.column) := by
    cases hkeys : idx.keys with
    | nil => rfl
    | cons k ks =>
      have := readList_commaIdents k.column (ks.map IndexKey.column) [.sym 41, .sym 59] (by simp)
      simp [readKeyColumns, List.map_cons, this]
  by_cases hn : idx.name = []
  · simp only [hn, if_true, List.nil_append]
    simp only [readKey, readAdd, hk, and_self, if_true]
    split <;> rfl
  · simp only [hn, if_false, List.cons_append, List.nil_append]
    simp only [readKey, readAdd, hk, and_self, if_true]
    split <;> rfl

example : createsKey (Index.toSQL {
      schema := b!"s", table := b!"t", name := b!"T \"k\"", primary := true
      keys := [{ column := b!"b" }, { column := b!"a" }] }) =
    some ⟨none, b!"t", some b!"T \"k\"", [b!"b", b!"a"]⟩ := by decide +kernel

/-- The tokens of names with dots between them. -/
def dotted : List Str → List Tok
  | [] => []
  | [w] => [.word w]
  | w :: v :: ws => .word w :: .sym 46 :: dotted (v :: ws)

theorem nameOf_plain (reserved : Str → Bool) (w : Str) (hn : Plain reserved w) :
    nameOf reserved (.word w) = some w := by
  have hlow : w.map lowerByte = w := by
    conv_rhs => rw [← List.map_id w]
    apply List.map_congr_left
    intro b hb
    have := hn.2.2.1 b hb
    simp only [lowerByte, Bool.and_eq_true, decide_eq_true_eq, this, if_false, id]
  rw [nameOf, hlow, if_neg]
  rintro (h | h)
  · rw [hn.2.2.2.2] at h; cases h
  · cases hh : w.head? with
    | none => rw [hh] at h; cases h
    | some b =>
      rw [hh] at h
      exact hn.2.2.2.1 b hh (by simpa using h)

theorem readNames_dotted (reserved : Str → Bool) (w : Str) (ws : List Str)
    (h : ∀ v ∈ w :: ws, Plain reserved v) (ts : List Tok) :
    readNames reserved (dotted (w :: ws) ++ .sym 40 :: ts) = some (w :: ws, ts) := by
  induction ws generalizing w with
  | nil => simp [dotted, readNames, nameOf_plain reserved w (h w (by simp))]
  | cons v ws ih =>
    have := ih v (fun x hx => h x (by simp at hx ⊢; tauto))
    simp only [dotted, List.cons_append, readNames, nameOf_plain reserved w (h w (by simp)), this]

theorem readTiming_of (w : Str) (k : Timing) (hk : timingOf w = some k) :
    ∃ toks, Fragment w toks ∧ ∀ ts, readTiming (toks ++ ts) = some (k, ts) := by
  unfold timingOf at hk
  split at hk
  · rename_i h; subst h; cases hk
    exact ⟨[.word b!"BEFORE"], fragment_word _ (by simp) (by decide +kernel), fun ts => rfl⟩
  split at hk
  · rename_i h; subst h; cases hk
    exact ⟨[.word b!"AFTER"], fragment_word _ (by simp) (by decide +kernel), fun ts => rfl⟩
  split at hk
  · rename_i h; subst h; cases hk
    refine ⟨[.word b!"INSTEAD", .word b!"OF"], fun acc b rest hb => ?_, fun ts => rfl⟩
    have h2 := fragment_word b!"OF" (by simp) (by decide +kernel) (.word b!"INSTEAD" :: acc) b rest hb
    exact h2
  · cases hk

theorem fragment_dotted (w : Str) (ws : List Str)
    (h : ∀ v ∈ w :: ws, v ≠ [] ∧ ∀ b ∈ v, isWord b = true) :
    Fragment (dotNames (w :: ws)) (dotted (w :: ws)) := by
  induction ws generalizing w with
  | nil => exact fragment_word w (h w (by simp)).1 (h w (by simp)).2
  | cons v ws ih =>
    intro acc b rest hb
    simp only [dotNames, List.append_assoc, List.cons_append, List.nil_append]
    rw [run_word w (h w (by simp)).1 (h w (by simp)).2 acc 46 _ (by decide +kernel)]
    have := ih v (fun x hx => h x (by simp at hx ⊢; tauto)) (.sym 46 :: .word w :: acc) b rest hb
    simp only [dotted, List.reverse_cons, List.append_assoc, List.cons_append, List.nil_append] at this ⊢
    exact this

/-- **C111 for triggers, except for the schema and the events.** If `When` is one of PostgreSQL's
timings and `Function` a name that need not be quoted, with or without a schema, the statement creates a
trigger with the name of the description, at that time, on the table with that name, for each row if the
description says so, which executes that function; its one event is UPDATE. If the description does not
have the event UPDATE, the statement is no CREATE TRIGGER statement. -/
theorem C111_trigger_partial (reserved : Str → Bool) (t : Trigger) (k : Timing) (f : Str) (fs : List Str)
    (hw : timingOf t.when_ = some k) (hf : t.function = dotNames (f :: fs))
    (hp : ∀ v ∈ f :: fs, Plain reserved v) :
    createsTrigger reserved t.toSQL =
      if t.update = false then none
      else some {
        name := t.name
        timing := k
        events := [.update]
        schema := none
        table := t.table
        forEachRow := t.forEachRow
        function := f :: fs } := by
  obtain ⟨toks, htoks, hread⟩ := readTiming_of t.when_ k hw
  unfold createsTrigger
  rw [C38_trigger_names_confined t toks (dotted (f :: fs)) htoks
    (hf ▸ fragment_dotted f fs fun v hv => ⟨(hp v hv).1, (hp v hv).2.1⟩)]
  simp only [Option.bind_some, List.append_assoc, List.cons_append, List.nil_append]
  have hx : readExecute reserved (.word b!"EXECUTE" :: .word b!"PROCEDURE" ::
      (dotted (f :: fs) ++ [.sym 40, .sym 41, .sym 59])) = some (f :: fs) := by
    simp [readExecute, readNames_dotted reserved f fs hp]
  simp only [readTrigger, and_self, if_true, hread, Option.bind_some]
  cases t.update with
  | false =>
    simp only [Bool.false_eq_true, if_false, List.nil_append, if_true]
    rfl
  | true =>
    simp only [if_true, List.cons_append, List.nil_append, Bool.true_eq_false, if_false]
    have he : ∀ ts, readEvents (.word b!"UPDATE" :: .word b!"ON" :: ts) = some ([.update], ts) :=
      fun ts => by simp [readEvents, readEvent]
    rw [he]
    simp only [Option.bind_some]
    cases t.forEachRow with
    | true =>
      simp only [if_true, List.cons_append, List.nil_append]
      simp [readOn, readLevel, hx]
    | false =>
      simp only [Bool.false_eq_true, if_false, List.nil_append]
      have hl : ∀ ts, readLevel reserved (.word b!"EXECUTE" :: .word b!"PROCEDURE" :: ts) =
          (readExecute reserved (.word b!"EXECUTE" :: .word b!"PROCEDURE" :: ts)).map (false, ·) := by
        intro ts
        match ts with
        | [] => rfl
        | .word w :: ts => simp [readLevel]
        | .ident w :: ts => simp [readLevel]
        | .str w :: ts => simp [readLevel]
        | .dollar w :: ts => simp [readLevel]
        | .sym w :: ts => simp [readLevel]
      simp [readOn, hl, hx]

example : createsTrigger (fun w => w == b!"select") (Trigger.toSQL {
      schema := b!"s", table := b!"T 1", name := b!"x", function := b!"audit.log", when_ := b!"INSTEAD OF"
      update := true, forEachRow := true }) =
    some ⟨b!"x", .insteadOf, [.update], none, b!"T 1", true, [b!"audit", b!"log"]⟩ := by decide +kernel

end Verif.Ddl
