import Verif.Pg.ListProps
import Verif.Pg.Inspect

/-!
# C68: the search path

How PostgreSQL writes a list of names in a setting (`SplitIdentifierString` and `quote_identifier`), and
what `ListParameters` makes of it.
-/

namespace Verif.Pg
open Verif

/-- A name that needs no quotes: lower case letters, digits, underscores and dollars. -/
def PlainName (n : Str) : Prop :=
  n ≠ [] ∧ ∀ c ∈ n, (97 ≤ c ∧ c ≤ 122) ∨ (48 ≤ c ∧ c ≤ 57) ∨ c = 95 ∨ c = 36

/-- A name in double quotes, with quotes in it doubled. -/
def quoted (n : Str) : Str := b!"\"" ++ n.flatMap (fun c => if c = 34 then b!"\"\"" else [c]) ++ b!"\""

/-- One item of the list: a plain or quoted name with blanks around it. -/
def Item (item name : Str) : Prop :=
  ∃ a b core : Str, (∀ c ∈ a, c = 32) ∧ (∀ c ∈ b, c = 32) ∧ item = a ++ core ++ b ∧
    ((PlainName name ∧ core = name) ∨ core = quoted name)

/-- Items separated by commas. -/
def commaJoin : List Str → Str
  | [] => []
  | [x] => x
  | x :: y :: l => x ++ b!"," ++ commaJoin (y :: l)

/-- `text` is a setting of the search path to `names`, written as `items`. -/
def SettingOf (text : Str) (items names : List Str) : Prop :=
  text = commaJoin items ∧ List.Forall₂ Item items names

section lemmas

theorem splitComma_ne_nil (s : Str) : splitComma s ≠ [] := by
  cases s with
  | nil => simp [splitComma]
  | cons b s =>
    rw [splitComma]
    split
    · simp
    · split <;> simp

theorem splitComma_length (s : Str) : (splitComma s).length = s.count 44 + 1 := by
  induction s with
  | nil => rfl
  | cons b s ih =>
    rw [splitComma]
    split
    · rename_i h; subst h; simp [ih]
    · rename_i h
      rw [List.count_cons_of_ne h]
      split
      · rename_i h'; exact absurd h' (splitComma_ne_nil s)
      · rename_i w ws h'; rw [h'] at ih; simpa using ih

theorem splitComma_noComma {x : Str} (h : (44 : UInt8) ∉ x) : splitComma x = [x] := by
  induction x with
  | nil => rfl
  | cons b x ih =>
    simp only [List.mem_cons, not_or] at h
    rw [splitComma, if_neg (fun e => h.1 e.symm), ih h.2]

theorem splitComma_append {x s : Str} (h : (44 : UInt8) ∉ x) :
    splitComma (x ++ b!"," ++ s) = x :: splitComma s := by
  induction x with
  | nil => simp [splitComma]
  | cons b x ih =>
    simp only [List.mem_cons, not_or] at h
    simp only [List.cons_append]
    rw [splitComma, if_neg (fun e => h.1 e.symm), ih h.2]

theorem splitComma_commaJoin {items : List Str} (hne : items ≠ [])
    (h : ∀ x ∈ items, (44 : UInt8) ∉ x) : splitComma (commaJoin items) = items := by
  induction items with
  | nil => exact absurd rfl hne
  | cons x l ih =>
    cases l with
    | nil => exact splitComma_noComma (h x (by simp))
    | cons y l =>
      rw [commaJoin, splitComma_append (h x (by simp)), ih (by simp) fun z hz => h z (by simp [hz])]

theorem count_commaJoin (items : List Str) :
    (commaJoin items).count 44 + 1 = (items.map (·.count 44)).sum + items.length ∨ items = [] := by
  induction items with
  | nil => exact .inr rfl
  | cons x l ih =>
    left
    cases l with
    | nil => simp [commaJoin]
    | cons y l =>
      rcases ih with ih | ih
      · rw [commaJoin]
        simp only [List.count_append, List.map_cons, List.sum_cons, List.length_cons] at ih ⊢
        have : (b!",").count 44 = 1 := by decide
        omega
      · cases ih

theorem sum_zero {l : List Nat} (h : l.sum = 0) : ∀ n ∈ l, n = 0 := by
  induction l with
  | nil => simp
  | cons a l ih =>
    simp only [List.sum_cons] at h
    intro n hn
    rcases List.mem_cons.1 hn with rfl | hn
    · omega
    · exact ih (by omega) n hn

theorem splitComma_eq_items {items names : List Str} (hlen : items.length = names.length)
    (hne : items ≠ []) (h : splitComma (commaJoin items) = names) :
    splitComma (commaJoin items) = items := by
  refine splitComma_commaJoin hne ?_
  have h1 := splitComma_length (commaJoin items)
  rw [h, ← hlen] at h1
  rcases count_commaJoin items with h2 | h2
  · have h3 : (items.map (·.count 44)).sum = 0 := by omega
    intro x hx
    have := sum_zero h3 (x.count 44) (List.mem_map.2 ⟨x, hx, rfl⟩)
    exact List.count_eq_zero.1 this
  · exact absurd h2 hne

theorem plain_noComma {n : Str} (h : PlainName n) : (44 : UInt8) ∉ n := by
  intro hc
  rcases h.2 44 hc with h | h | h | h <;> revert h <;> decide

theorem quoted_length (n : Str) : n.length + 2 ≤ (quoted n).length := by
  have : n.length ≤ (n.flatMap (fun c => if c = 34 then b!"\"\"" else [c])).length := by
    induction n with
    | nil => simp
    | cons a n ih =>
      simp only [List.flatMap_cons, List.length_append, List.length_cons]
      split <;> simp only [List.length_cons, List.length_nil] <;> omega
  simp only [quoted, List.length_append, List.length_cons, List.length_nil]
  omega

theorem listParameters_searchPath {c : Catalog} {text tz : Str}
    (h1 : c.searchPath = .ok (some (some text))) (h2 : c.timezone = .ok (some (some tz))) :
    c.listParameters = .ok { searchPath := splitComma text, timezone := tz } := by
  simp [Catalog.listParameters, h1, h2, queryRow, scan, bind, Except.bind, pure, Except.pure]

end lemmas

/-- C68, the part that holds: the search path is reported as it is set exactly if the setting
is a list of plain names without blanks. What is missing: settings with blanks or quoted names. -/
theorem C68_search_path_partial (c : Catalog) (text tz : Str) (items names : List Str)
    (h1 : c.searchPath = .ok (some (some text))) (h2 : c.timezone = .ok (some (some tz)))
    (hs : SettingOf text items names) (hne : names ≠ []) :
    (∃ p, c.listParameters = .ok p ∧ p.searchPath = names) ↔
      (items = names ∧ ∀ n ∈ names, PlainName n) := by
  rw [listParameters_searchPath h1 h2]
  obtain ⟨rfl, hi⟩ := hs
  have hlen := hi.length_eq
  have hine : items ≠ [] := by rintro rfl; cases hi; exact hne rfl
  simp only [Except.ok.injEq, exists_eq_left']
  constructor
  · intro h
    have := splitComma_eq_items hlen hine h
    have he : items = names := this.symm.trans h
    refine ⟨he, ?_⟩
    subst he
    clear this h hlen hne hine
    intro n hn
    obtain ⟨i, hi', rfl⟩ := List.getElem_of_mem hn
    obtain ⟨a, b, core, -, -, hitem, hc⟩ := hi.get hi' hi'
    simp only [List.get_eq_getElem] at hitem hc
    rcases hc with ⟨hp, -⟩ | hq
    · exact hp
    · exfalso
      have := congrArg List.length hitem
      simp only [List.length_append, hq] at this
      have := quoted_length items[i]
      omega
  · rintro ⟨rfl, hp⟩
    exact splitComma_commaJoin hine fun x hx => plain_noComma (hp x hx)

/-- A setting of both kinds. -/
example : SettingOf b!"public,extra" [b!"public", b!"extra"] [b!"public", b!"extra"] ∧
    PlainName b!"public" ∧ PlainName b!"extra" := by
  have h1 : PlainName b!"public" := ⟨by decide, by decide +kernel⟩
  have h2 : PlainName b!"extra" := ⟨by decide, by decide +kernel⟩
  refine ⟨⟨rfl, .cons ⟨[], [], b!"public", by simp, by simp, rfl, .inl ⟨h1, rfl⟩⟩
    (.cons ⟨[], [], b!"extra", by simp, by simp, rfl, .inl ⟨h2, rfl⟩⟩ .nil)⟩, h1, h2⟩

/-- How PostgreSQL prints a list of names itself: separated by a comma and a blank. -/
def printNames (quote : Str → Str) : List Str → List Str
  | [] => []
  | n :: l => quote n :: l.map (fun m => b!" " ++ quote m)

/-- C68 is false of the code: with two or more schemas as PostgreSQL prints them, whatever their names
and whichever of them are quoted, the reported search path is wrong; with PostgreSQL's default setting
it has the names `"$user"`, in quotes, and ` public`, with a blank; and an empty search path is reported
as one schema with an empty name. -/
theorem C68_refuted :
    (∀ (c : Catalog) (tz : Str) (quote : Str → Str) (names : List Str),
      (∀ n, quote n = n ∨ quote n = quoted n) → 2 ≤ names.length →
      c.searchPath = .ok (some (some (commaJoin (printNames quote names)))) →
      c.timezone = .ok (some (some tz)) →
      ∀ p, c.listParameters = .ok p → p.searchPath ≠ names) ∧
    (∀ (c : Catalog) (tz : Str), c.searchPath = .ok (some (some b!"\"$user\", public")) →
      c.timezone = .ok (some (some tz)) →
      c.listParameters = .ok { searchPath := [b!"\"$user\"", b!" public"], timezone := tz }) ∧
    (∀ (c : Catalog) (tz : Str), c.searchPath = .ok (some (some [])) →
      c.timezone = .ok (some (some tz)) →
      c.listParameters = .ok { searchPath := [[]], timezone := tz }) := by
  refine ⟨?_, ?_, ?_⟩
  · intro c tz quote names hq hl h1 h2 p hp he
    rw [listParameters_searchPath h1 h2] at hp
    obtain rfl := Except.ok.inj hp
    simp only at he
    have hlen : (printNames quote names).length = names.length := by
      cases names <;> simp [printNames]
    have hne : printNames quote names ≠ [] := by
      intro h; rw [h] at hlen; simp only [List.length_nil] at hlen; omega
    have hi := (splitComma_eq_items hlen hne he).symm.trans he
    cases names with
    | nil => simp at hl
    | cons n l =>
      cases l with
      | nil => simp at hl
      | cons m l =>
        simp only [printNames, List.map_cons, List.cons.injEq] at hi
        have h3 := congrArg List.length hi.2.1
        simp only [List.length_append, List.length_cons, List.length_nil] at h3
        have h4 := quoted_length m
        rcases hq m with h5 | h5 <;> rw [h5] at h3 <;> omega
  · intro c tz h1 h2
    rw [listParameters_searchPath h1 h2]
    rfl
  · intro c tz h1 h2
    rw [listParameters_searchPath h1 h2]
    rfl

/-- A server as in the first part. -/
example : ∃ c : Catalog, c.searchPath =
      .ok (some (some (commaJoin (printNames id [b!"a", b!"b"])))) ∧
    c.timezone = .ok (some (some b!"UTC")) ∧ commaJoin (printNames id [b!"a", b!"b"]) = b!"a, b" :=
  ⟨{ deadServer with
      searchPath := .ok (some (some (commaJoin (printNames id [b!"a", b!"b"]))))
      timezone := .ok (some (some b!"UTC")) }, rfl, rfl, rfl⟩

end Verif.Pg
