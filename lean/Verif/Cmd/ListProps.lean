import Verif.Cmd.List

/-!
# C63: `pgutil runbook list`
-/

namespace Verif.Cmd
open Verif

/-- `out` consists of the lines `ls`. -/
def Lines (out : Str) (ls : List Str) : Prop :=
  out = ls.flatMap (· ++ b!"\n") ∧ ∀ l ∈ ls, (10 : UInt8) ∉ l

/-- The line of a task: indented, the id, at least two blanks, and the target in column `column`, counted
in characters. -/
def TaskLine (column : Nat) (id target line : Str) : Prop :=
  ∃ blanks, 2 ≤ blanks ∧ 2 + runeCount id + blanks = column ∧
    line = b!"  " ++ id ++ List.replicate blanks 32 ++ target

section lemmas

theorem decodeSkip_length (k : Nat) (s : Str) : (Utf8.decodeSkip k s).length ≤ s.length := by
  induction s generalizing k with
  | nil => cases k <;> simp [Utf8.decodeSkip]
  | cons b s ih =>
    cases k with
    | zero => simp only [Utf8.decodeSkip, List.length_cons]; have := ih ((Utf8.decode1 b s).2 - 1); omega
    | succ k => simp only [Utf8.decodeSkip, List.length_cons]; have := ih k; omega

theorem runeCount_le (s : Str) : runeCount s ≤ s.length := decodeSkip_length 0 s

theorem runeCount_ascii {s : Str} (h : ∀ c ∈ s, c < 128) : runeCount s = s.length := by
  unfold runeCount Utf8.decode
  induction s with
  | nil => rfl
  | cons b s ih =>
    have hb : b < 128 := h b (by simp)
    have hw : (Utf8.decode1 b s).2 = 1 := by
      have : b.toNat < 128 := hb
      simp [Utf8.decode1, this]
    rw [Utf8.decodeSkip, hw]
    simp only [Nat.sub_self, List.length_cons, Nat.add_right_cancel_iff]
    exact ih fun c hc => h c (by simp [hc])

theorem listLoop_get {tasks : GoMap Str Book.Task} (wf : tasks.WF) (result : GoMap Str Str)
    (hw : result.WF) : (listLoop tasks result).WF ∧ ∀ id, (listLoop tasks result).get? id =
      match tasks.get? id with
      | some t => some t.target
      | none => result.get? id := by
  induction tasks generalizing result with
  | nil => exact ⟨hw, fun _ => rfl⟩
  | cons p tasks ih =>
    obtain ⟨a, t⟩ := p
    simp only [GoMap.WF, GoMap.keys, List.map_cons, List.nodup_cons] at wf
    obtain ⟨h1, h2⟩ := ih wf.2 (result.set a t.target) (hw.set _ _)
    refine ⟨h1, fun id => ?_⟩
    rw [listLoop, h2, GoMap.get?_set, GoMap.get?_cons]
    by_cases h : a = id
    · subst h
      have : GoMap.get? tasks a = none := GoMap.get?_eq_none.2 wf.1
      simp [this]
    · simp [h]

theorem collect_spec (tasks : GoMap Str Str) (longest : Nat) (sorted : List Str) :
    (collect tasks longest sorted).2 = sorted ++ tasks.keys ∧
    longest ≤ (collect tasks longest sorted).1 ∧
    (∀ id ∈ tasks.keys, id.length ≤ (collect tasks longest sorted).1) ∧
    ((collect tasks longest sorted).1 = longest ∨
      ∃ id ∈ tasks.keys, (collect tasks longest sorted).1 = id.length) := by
  induction tasks generalizing longest sorted with
  | nil => simp [collect, GoMap.keys]
  | cons p tasks ih =>
    obtain ⟨a, t⟩ := p
    obtain ⟨h1, h2, h3, h4⟩ := ih (if a.length > longest then a.length else longest) (sorted ++ [a])
    have hle : longest ≤ (if a.length > longest then a.length else longest) ∧
        a.length ≤ (if a.length > longest then a.length else longest) := by split <;> omega
    rw [collect]
    refine ⟨by rw [h1]; simp [GoMap.keys], by omega, ?_, ?_⟩
    · intro id hid
      simp only [GoMap.keys, List.map_cons, List.mem_cons] at hid
      rcases hid with rfl | hid
      · omega
      · exact h3 id hid
    · rcases h4 with h4 | ⟨id, hid, h4⟩
      · rw [h4]
        split
        · exact .inr ⟨a, by simp [GoMap.keys], rfl⟩
        · exact .inl rfl
      · exact .inr ⟨id, by simp only [GoMap.keys, List.map_cons, List.mem_cons]; exact .inr hid, h4⟩

theorem list_keys {book : Book.Runbook} (wf : book.tasks.WF) :
    (list book).WF ∧ (∀ id, id ∈ (list book).keys ↔ id ∈ book.tasks.keys) ∧
    ∀ id t, (id, t) ∈ book.tasks → (list book).get? id = some t.target := by
  obtain ⟨h1, h2⟩ := listLoop_get wf [] GoMap.WF.nil
  refine ⟨h1, fun id => ?_, fun id t h => ?_⟩
  · rw [list, ← GoMap.get?_isSome, ← GoMap.get?_isSome, h2]
    cases book.tasks.get? id <;> simp
  · rw [list, h2, GoMap.get?_of_mem wf h]

theorem pairwise_lt {l : List Str} (hs : l.Pairwise Str.Le) (hn : l.Nodup) :
    l.Pairwise (fun a b => Str.lt a b = true) := by
  induction l with
  | nil => exact .nil
  | cons a l ih =>
    rw [List.pairwise_cons] at hs
    rw [List.nodup_cons] at hn
    refine List.pairwise_cons.2 ⟨fun b hb => ?_, ih hs.2 hn.2⟩
    have h1 : Str.le a b = true := hs.1 b hb
    unfold Str.lt
    cases h : Str.le b a with
    | false => rfl
    | true => exact absurd (Str.le_antisymm h h1 ▸ hb) hn.1

end lemmas

/-- C63, for ids of at most a million bytes and ids and targets without line breaks: the output is the
header and one line per task, the ids in strictly ascending byte order, and the target column starts at
the same character of every line (of every byte, for ASCII ids). What is missing: the excluded
ids and targets, for which it is false (`C63_refuted`). -/
theorem C63_list_partial (book : Book.Runbook) (wf : book.tasks.WF)
    (hnl : ∀ id t, (id, t) ∈ book.tasks → (10 : UInt8) ∉ id ∧ (10 : UInt8) ∉ t.target)
    (hlen : ∀ id t, (id, t) ∈ book.tasks → id.length ≤ 1000000) :
    ∃ (ids : List Str) (lines : List Str) (column : Nat),
      Lines (runList book) (b!"Tasks & Targets:" :: lines) ∧
      ids.Perm book.tasks.keys ∧ ids.Pairwise (fun a b => Str.lt a b = true) ∧
      List.Forall₂ (fun id line => ∃ t, (id, t) ∈ book.tasks ∧ TaskLine column id t.target line)
        ids lines ∧
      (∀ id ∈ ids, (∀ c ∈ id, c < 128) → runeCount id = id.length) := by
  obtain ⟨k1, k2, k3⟩ := list_keys wf
  obtain ⟨c1, c2, c3, c4⟩ := collect_spec (list book) 0 []
  rw [List.nil_append] at c1
  generalize hL : (collect (list book) 0 []).1 = L at *
  have hLle : L ≤ 1000000 := by
    rcases c4 with h | ⟨id, hid, h⟩
    · omega
    · rw [h]
      obtain ⟨⟨a, t⟩, hp, rfl⟩ := List.mem_map.1 ((k2 id).1 hid)
      exact hlen a t hp
  have key : ∀ ids : List Str, (∀ id ∈ ids, id ∈ book.tasks.keys) → ∃ lines,
      printTasks (list book) L ids = lines.flatMap (· ++ b!"\n") ∧
      (∀ l ∈ lines, (10 : UInt8) ∉ l) ∧
      List.Forall₂ (fun id line => ∃ t, (id, t) ∈ book.tasks ∧ TaskLine (2 + L + 2) id t.target line)
        ids lines := by
    intro ids
    induction ids with
    | nil => intro _; exact ⟨[], rfl, by simp, .nil⟩
    | cons id ids ih =>
      intro h
      obtain ⟨lines, l1, l2, l3⟩ := ih fun x hx => h x (by simp [hx])
      obtain ⟨⟨a, t⟩, hp, rfl⟩ := List.mem_map.1 (h id (by simp))
      have hg := k3 a t hp
      have hr := runeCount_le a
      have hla := c3 a ((k2 a).2 (GoMap.mem_keys_of_mem hp))
      refine ⟨(b!"  " ++ a ++ List.replicate (L - runeCount a + 2) 32 ++ t.target) :: lines, ?_, ?_, ?_⟩
      · rw [printTasks, l1, listLine, hg, padRight, if_neg (by omega)]
        simp only [List.flatMap_cons, List.replicate_add, List.append_assoc]
        rfl
      · intro l hl
        rcases List.mem_cons.1 hl with rfl | hl
        · obtain ⟨n1, n2⟩ := hnl a t hp
          simp only [List.mem_append, List.mem_replicate, not_or]
          refine ⟨⟨⟨by decide, n1⟩, ?_⟩, n2⟩
          rintro ⟨-, h⟩
          revert h; decide
        · exact l2 l hl
      · exact .cons ⟨t, hp, _, by omega, by simp only; omega, rfl⟩ l3
  have hperm : (sortStrs (list book).keys).Perm book.tasks.keys := by
    refine (sortStrs_perm _).trans ?_
    exact (List.perm_ext_iff_of_nodup k1 wf).2 k2
  obtain ⟨lines, l1, l2, l3⟩ := key (sortStrs (list book).keys) fun id hid => hperm.mem_iff.1 hid
  refine ⟨sortStrs (list book).keys, lines, 2 + L + 2, ⟨?_, ?_⟩, hperm,
    pairwise_lt (sortStrs_sorted _) (sortStrs_nodup k1), l3, fun id _ h => runeCount_ascii h⟩
  · rw [runList]
    simp only [hL, c1, l1, List.flatMap_cons]
    rfl
  · intro l hl
    rcases List.mem_cons.1 hl with rfl | hl
    · decide
    · exact l2 l hl

/-- A runbook with three tasks, one of them with an id that is not ASCII. -/
def listExample : Book.Runbook where
  targets := [(b!"db", .pg {})]
  tasks := [(b!"load", ⟨b!"db", [], [], .pgExec b!"SELECT 1"⟩), (b!"ä", ⟨b!"db", [], [], .pgExec b!"SELECT 2"⟩),
    (b!"a", ⟨b!"db", [], [], .pgExec b!"SELECT 3"⟩)]

example : listExample.tasks.WF ∧
    (∀ id t, (id, t) ∈ listExample.tasks → (10 : UInt8) ∉ id ∧ (10 : UInt8) ∉ t.target) ∧
    (∀ id t, (id, t) ∈ listExample.tasks → id.length ≤ 1000000) ∧
    runList listExample = b!"Tasks & Targets:\n  a     db\n  load  db\n  ä     db\n" := by
  refine ⟨by decide, ?_, ?_, by decide +kernel⟩
  · intro id t h
    simp only [listExample, List.mem_cons, Prod.mk.injEq, List.not_mem_nil, or_false] at h
    rcases h with ⟨rfl, rfl⟩ | ⟨rfl, rfl⟩ | ⟨rfl, rfl⟩ <;> decide
  · intro id t h
    simp only [listExample, List.mem_cons, Prod.mk.injEq, List.not_mem_nil, or_false] at h
    rcases h with ⟨rfl, rfl⟩ | ⟨rfl, rfl⟩ | ⟨rfl, rfl⟩ <;> decide

/-- C63 is false of the code: one task whose id has a line break is listed in two lines, and one task
with an id of more than a million bytes is listed with a formatting error. -/
theorem C63_refuted :
    (∃ (book : Book.Runbook) (lines : List Str), book.tasks.WF ∧ book.tasks.length = 1 ∧
      Lines (runList book) (b!"Tasks & Targets:" :: lines) ∧ lines.length = 2) ∧
    ∀ (id : Str) (t : Book.Task), 1000000 < id.length →
      runList { targets := [], tasks := [(id, t)] } =
        b!"Tasks & Targets:\n  %!(BADWIDTH)" ++ id ++ b!"  " ++ t.target ++ b!"\n" := by
  refine ⟨⟨{ targets := [], tasks := [(b!"a\nb", ⟨b!"db", [], [], .pgExec b!"SELECT 1"⟩)] },
    [b!"  a", b!"b  db"], by decide, rfl, ⟨by decide +kernel, ?_⟩, rfl⟩, ?_⟩
  · intro l hl
    simp only [List.mem_cons, List.not_mem_nil, or_false] at hl
    rcases hl with rfl | rfl | rfl <;> decide
  · intro id t h
    have hs : sortStrs [id] = [id] := rfl
    have hg : ∀ v : Str, GoMap.get? [(id, v)] id = some v := fun v => by simp [GoMap.get?_cons]
    simp only [runList, list, listLoop, GoMap.set, collect, List.nil_append, hs, printTasks, listLine, hg]
    rw [if_pos (by omega), padRight, if_pos h]
    simp

/-- A string followed by a blank does not begin with something without blanks and the string. -/
theorem no_blank : ∀ (id p x y : Str), p ≠ [] → (32 : UInt8) ∉ p → p ++ id ++ x ≠ id ++ 32 :: y
  | [], p, x, y, hp, hb, h => by
    obtain ⟨c, p', rfl⟩ := List.exists_cons_of_ne_nil hp
    simp only [List.append_nil, List.cons_append, List.nil_append, List.cons.injEq] at h
    exact hb (by simp [h.1])
  | a :: id, p, x, y, hp, hb, h => by
    obtain ⟨c, p', rfl⟩ := List.exists_cons_of_ne_nil hp
    simp only [List.append_assoc, List.cons_append, List.cons.injEq] at h
    refine no_blank id (p' ++ [c]) x y (by simp) (by simpa [and_comm, eq_comm] using hb) ?_
    simpa [h.1] using h.2

/-- **C63, exactly**: the output is as it should be if and only if no id and no target of a task has a line break and
no id is longer than a million bytes. -/
theorem C63_exact (book : Book.Runbook) (wf : book.tasks.WF) :
    (∃ (ids : List Str) (lines : List Str) (column : Nat),
      Lines (runList book) (b!"Tasks & Targets:" :: lines) ∧
      ids.Perm book.tasks.keys ∧ ids.Pairwise (fun a b => Str.lt a b = true) ∧
      List.Forall₂ (fun id line => ∃ t, (id, t) ∈ book.tasks ∧ TaskLine column id t.target line)
        ids lines) ↔
    ∀ id t, (id, t) ∈ book.tasks → (10 : UInt8) ∉ id ∧ (10 : UInt8) ∉ t.target ∧ id.length ≤ 1000000 := by
  constructor
  · rintro ⟨ids, lines, column, ⟨ho, hl⟩, hp, hs, hf⟩
    have hbr : ∀ id t, (id, t) ∈ book.tasks → (10 : UInt8) ∉ id ∧ (10 : UInt8) ∉ t.target := by
      intro id t ht
      have hid : id ∈ ids := hp.mem_iff.2 (GoMap.mem_keys_of_mem ht)
      obtain ⟨i, hi, rfl⟩ := List.mem_iff_getElem.1 hid
      have hi' : i < lines.length := hf.length_eq ▸ hi
      obtain ⟨t', ht', n, -, -, e⟩ := (List.forall₂_iff_get.1 hf).2 i hi hi'
      have hn := hl lines[i] (List.mem_cons_of_mem _ (List.getElem_mem hi'))
      simp only [List.get_eq_getElem] at e ht'
      rw [e] at hn
      have : t' = t := by
        have h1 := GoMap.get?_of_mem wf ht'
        rw [GoMap.get?_of_mem wf ht] at h1
        cases h1; rfl
      subst this
      simp only [List.mem_append, not_or] at hn
      exact ⟨hn.1.1.2, hn.2⟩
    refine fun id t ht => ⟨(hbr id t ht).1, (hbr id t ht).2, ?_⟩
    by_contra hlen
    obtain ⟨k1, k2, k3⟩ := list_keys wf
    obtain ⟨c1, c2, c3, c4⟩ := collect_spec (list book) 0 []
    rw [List.nil_append] at c1
    have hL := c3 id ((k2 id).2 (GoMap.mem_keys_of_mem ht))
    rw [runList] at ho
    simp only [c1] at ho
    generalize (collect (list book) 0 []).1 = L at ho hL
    have he : sortStrs (list book).keys = ids := by
      have hperm : (sortStrs (list book).keys).Perm ids :=
        (sortStrs_perm _).trans (((List.perm_ext_iff_of_nodup k1 wf).2 k2).trans hp.symm)
      refine hperm.eq_of_pairwise ?_ (pairwise_lt (sortStrs_sorted _) (sortStrs_nodup k1)) hs
      intro a b _ _ h1 h2
      unfold Str.lt at h1 h2
      simp only [Bool.not_eq_true'] at h1 h2
      rcases Str.le_total a b with h | h
      · rw [h] at h2; cases h2
      · rw [h] at h1; cases h1
    rw [he] at ho
    cases hf with
    | nil => exact absurd (hp.mem_iff.2 (GoMap.mem_keys_of_mem ht)) (by simp)
    | @cons a line ids lines h _ =>
      obtain ⟨t', -, n, hn, -, rfl⟩ := h
      rw [printTasks, listLine, padRight, if_pos (by omega)] at ho
      obtain ⟨m, rfl⟩ : ∃ m, n = m + 1 := ⟨n - 1, by omega⟩
      simp only [List.append_assoc, List.flatMap_cons, List.replicate_succ] at ho
      have hno : ∀ x y : Str, b!"Tasks & Targets:\n" ++ (b!"  " ++ (b!"%!(BADWIDTH)" ++ (a ++ x))) ≠
          b!"Tasks & Targets:" ++ (b!"\n" ++ (b!"  " ++ (a ++ 32 :: y))) := by
        intro x y h
        have h' : b!"Tasks & Targets:\n  " ++ (b!"%!(BADWIDTH)" ++ (a ++ x)) =
          b!"Tasks & Targets:\n  " ++ (a ++ 32 :: y) := h
        refine no_blank a b!"%!(BADWIDTH)" x y (by decide) (by decide) ?_
        rw [List.append_assoc]
        exact List.append_cancel_left h'
      exact hno _ _ ho
  · intro h
    obtain ⟨ids, lines, column, h1, h2, h3, h4, -⟩ := C63_list_partial book wf
      (fun id t ht => ⟨(h id t ht).1, (h id t ht).2.1⟩) (fun id t ht => (h id t ht).2.2)
    exact ⟨ids, lines, column, h1, h2, h3, h4⟩

end Verif.Cmd
