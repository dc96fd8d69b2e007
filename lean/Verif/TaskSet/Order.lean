import Verif.TaskSet.DocProps

/-!
# C154: the order in which a task set file is written
-/

namespace Verif.TaskSet
open Verif Hcl Spec DocSpec

/-! ## Specification -/

section
variable {F N : Type}

/-- The same attribute, or blocks with the same labels and the same items in any order. -/
inductive Alike : Item N → Item N → Prop where
  | attr (n : Str) (v : Value N) : Alike (.attr n v) (.attr n v)
  | block (t : Str) (ls : List Str) {b b' : List (Item N)} (h : b.Perm b') : Alike (.block t ls b) (.block t ls b')

/-- The blocks of a file in another order, and the attributes in each of them in another order. -/
def Reordered (doc doc' : List (Item N)) : Prop := ∃ mid, List.Forall₂ Alike doc mid ∧ mid.Perm doc'

/-- Two targets of the same type and name, or two tasks of the same name. -/
def SameName (i j : Item N) : Prop :=
  (∃ typ id b b', i = .block b!"target" [typ, id] b ∧ j = .block b!"target" [typ, id] b') ∨
  ∃ typ typ' id b b', i = .block b!"task" [typ, id] b ∧ j = .block b!"task" [typ', id] b'

/-- No name is given twice. -/
def Distinct (doc : List (Item N)) : Prop := doc.Pairwise fun i j => ¬ SameName i j

/-- Two task sets are the same: they have the same targets, and the same tasks. -/
def Equal (ts ts' : Loaded) : Prop :=
  (∀ typ id t, (∃ m, ts.targets.get? typ = some m ∧ m.get? id = some t) ↔
    ∃ m, ts'.targets.get? typ = some m ∧ m.get? id = some t) ∧
  ∀ id, ts.tasks.get? id = ts'.tasks.get? id

/-! ## Lemmas -/

theorem Alike.symm {i j : Item N} (h : Alike i j) : Alike j i := by
  cases h with
  | attr n v => exact .attr n v
  | block t ls h => exact .block t ls h.symm

theorem SameName.symm {i j : Item N} (h : SameName i j) : SameName j i := by
  rcases h with ⟨typ, id, b, b', rfl, rfl⟩ | ⟨typ, typ', id, b, b', rfl, rfl⟩
  · exact .inl ⟨typ, id, b', b, rfl, rfl⟩
  · exact .inr ⟨typ', typ, id, b', b, rfl, rfl⟩

theorem SameName.alike {i j i' j' : Item N} (h : SameName i' j') (hi : Alike i i') (hj : Alike j j') : SameName i j := by
  rcases h with ⟨typ, id, b, b', rfl, rfl⟩ | ⟨typ, typ', id, b, b', rfl, rfl⟩
  · cases hi; cases hj
    exact .inl ⟨typ, id, _, _, rfl, rfl⟩
  · cases hi; cases hj
    exact .inr ⟨typ, typ', id, _, _, rfl, rfl⟩

/-- Everything of the one is in the other. -/
def Covers (doc doc' : List (Item N)) : Prop := ∀ i ∈ doc, ∃ j ∈ doc', Alike i j

theorem forall₂_covers {doc mid : List (Item N)} (h : List.Forall₂ Alike doc mid) : Covers doc mid ∧ Covers mid doc := by
  induction h with
  | nil => exact ⟨fun i hi => by simp at hi, fun i hi => by simp at hi⟩
  | cons h hl ih =>
    rename_i a b l1 l2
    constructor
    · intro i hi
      rcases List.mem_cons.1 hi with rfl | hi
      · exact ⟨b, by simp, h⟩
      · obtain ⟨j, hj, g⟩ := ih.1 i hi
        exact ⟨j, by simp [hj], g⟩
    · intro i hi
      rcases List.mem_cons.1 hi with rfl | hi
      · exact ⟨a, by simp, h.symm⟩
      · obtain ⟨j, hj, g⟩ := ih.2 i hi
        exact ⟨j, by simp [hj], g⟩

theorem forall₂_distinct {doc mid : List (Item N)} (h : List.Forall₂ Alike doc mid) (hd : Distinct doc) : Distinct mid := by
  induction h with
  | nil => exact .nil
  | cons h hl ih =>
    rename_i a b l1 l2
    obtain ⟨h1, h2⟩ := List.pairwise_cons.1 hd
    refine List.pairwise_cons.2 ⟨fun j hj hs => ?_, ih h2⟩
    obtain ⟨i, hi, g⟩ := (forall₂_covers hl).2 j hj
    exact h1 i hi (hs.alike h g.symm)

theorem Reordered.covers {doc doc' : List (Item N)} (h : Reordered doc doc') : Covers doc doc' ∧ Covers doc' doc := by
  obtain ⟨mid, h1, h2⟩ := h
  obtain ⟨c1, c2⟩ := forall₂_covers h1
  exact ⟨fun i hi => (c1 i hi).imp fun j hj => ⟨h2.mem_iff.1 hj.1, hj.2⟩, fun i hi => c2 i (h2.mem_iff.2 hi)⟩

theorem Reordered.distinct {doc doc' : List (Item N)} (h : Reordered doc doc') (hd : Distinct doc) : Distinct doc' := by
  obtain ⟨mid, h1, h2⟩ := h
  exact (h2.pairwise_iff fun h g => h g.symm).1 (forall₂_distinct h1 hd)

theorem lastWith_mem {doc : List (Item N)} (hd : Distinct doc) {P : Item N → Prop} {x : Item N}
    (hP : ∀ y, P x → P y → SameName x y) : LastWith doc P x ↔ x ∈ doc ∧ P x := by
  constructor
  · rintro ⟨u, v, rfl, hp, -⟩
    exact ⟨by simp, hp⟩
  · rintro ⟨hx, hp⟩
    obtain ⟨u, v, rfl⟩ := List.append_of_mem hx
    refine ⟨u, v, rfl, hp, fun y hy hpy => ?_⟩
    have := (List.pairwise_append.1 hd).2.1
    exact (List.pairwise_cons.1 this).1 y hy (hP y hp hpy)

theorem last_target {doc : List (Item N)} (hd : Distinct doc) {typ id : Str} {b : List (Item N)} :
    LastWith doc (fun i => ∃ b, i = .block b!"target" [typ, id] b) (.block b!"target" [typ, id] b) ↔
      .block b!"target" [typ, id] b ∈ doc := by
  rw [lastWith_mem hd]
  · exact ⟨fun h => h.1, fun h => ⟨h, b, rfl⟩⟩
  · rintro y - ⟨b', rfl⟩
    exact .inl ⟨typ, id, b, b', rfl, rfl⟩

theorem last_task {doc : List (Item N)} (hd : Distinct doc) {typ id : Str} {b : List (Item N)} :
    LastWith doc (fun i => ∃ typ b, i = .block b!"task" [typ, id] b) (.block b!"task" [typ, id] b) ↔
      .block b!"task" [typ, id] b ∈ doc := by
  rw [lastWith_mem hd]
  · exact ⟨fun h => h.1, fun h => ⟨h, typ, b, rfl⟩⟩
  · rintro y - ⟨typ', b', rfl⟩
    exact .inr ⟨typ, typ', id, b, b', rfl, rfl⟩

section
variable {L : Lib F N} {p : GoMap Str Factory} {b b' : List (Item N)}

theorem Only.perm (h : b.Perm b') {names : List Str} (ho : Only names b) : Only names b' :=
  ⟨fun i hi => ho.1 i (h.mem_iff.2 hi), (h.map _).nodup_iff.1 ho.2⟩

theorem Absent.perm (h : b.Perm b') {n : Str} (ha : Absent b n) : Absent b' n := fun v hv => ha v (h.mem_iff.2 hv)

theorem GivesText.perm (h : b.Perm b') {n s : Str} (hg : GivesText L b n s) : GivesText L b' n s := by
  obtain ⟨v, hv, hc⟩ := hg
  exact ⟨v, h.mem_iff.1 hv, hc⟩

theorem GivesTexts.perm (h : b.Perm b') {n : Str} {l : List Str} (hg : GivesTexts L b n l) : GivesTexts L b' n l := by
  obtain ⟨v, hv, hc⟩ := hg
  exact ⟨v, h.mem_iff.1 hv, hc⟩

theorem TargetBody.perm (h : b.Perm b') {f : Factory} {t : Target} (ht : TargetBody L b f t) : TargetBody L b' f t := by
  cases ht with
  | demo ho hs hm =>
    refine .demo (Only.perm h ho) (GivesText.perm h hs) ?_
    rcases hm with ⟨v, n, hv, hc⟩ | ⟨ha, e⟩
    · exact .inl ⟨v, n, h.mem_iff.1 hv, hc⟩
    · exact .inr ⟨Absent.perm h ha, e⟩
  | pg e => subst e; exact .pg h.nil_eq.symm
  | sh e => subst e; exact .sh h.nil_eq.symm

theorem TaskBody.perm (h : b.Perm b') {t : Target} {kind : Str} {k : Kind} (ht : TaskBody L b t kind k) : TaskBody L b' t kind k := by
  cases ht with
  | echo ho => exact .echo (Only.perm h ho)
  | fail ho => exact .fail (Only.perm h ho)
  | rev ho => exact .rev (Only.perm h ho)
  | rot13 ho => exact .rot13 (Only.perm h ho)
  | sleep ho => exact .sleep (Only.perm h ho)
  | pg ho hs => exact .pg (Only.perm h ho) (GivesText.perm h hs)
  | sh ho hs => exact .sh (Only.perm h ho) (GivesTexts.perm h hs)

theorem Common.perm (h : b.Perm b') {target : Str} (hc : Common L b target) : Common L b' target where
  target := hc.target.imp (GivesText.perm h) fun g => ⟨Absent.perm h g.1, g.2⟩
  lists n hn := (hc.lists n hn).imp (Absent.perm h) fun ⟨l, g⟩ => ⟨l, GivesTexts.perm h g⟩

variable {doc doc' : List (Item N)}

theorem hasTarget_covers (hd : Distinct doc) (hd' : Distinct doc') (c : Covers doc doc') (c' : Covers doc' doc) {typ id : Str}
    {t : Target} (h : HasTarget L p doc typ id t) : HasTarget L p doc' typ id t := by
  rcases h with ⟨body, hl, f, hf, hb⟩ | ⟨hn, hid, hf⟩
  · obtain ⟨j, hj, ha⟩ := c _ ((last_target hd).1 hl)
    cases ha with
    | block _ _ hp => exact .inl ⟨_, (last_target hd').2 hj, f, hf, TargetBody.perm hp hb⟩
  · refine .inr ⟨fun body hb => ?_, hid, hf⟩
    obtain ⟨j, hj, ha⟩ := c' _ hb
    cases ha with
    | block _ _ hp => exact hn _ hj

theorem taskBlock_covers (hd : Distinct doc) (hd' : Distinct doc') (c : Covers doc doc') (c' : Covers doc' doc) {typ : Str}
    {k : Task} (h : b.Perm b') (ht : TaskBlock L p doc typ b k) : TaskBlock L p doc' typ b' k := by
  obtain ⟨base, kind, name, t, h1, h2, h3, h4, h5⟩ := ht
  exact ⟨base, kind, name, t, h1, Common.perm h h2, hasTarget_covers hd hd' c c' h3, TaskBody.perm h h4, h5⟩

theorem describes_covers (hd : Distinct doc) (hd' : Distinct doc') (c : Covers doc doc') (c' : Covers doc' doc)
    (h : Describes L p doc) : Describes L p doc' := by
  intro j hj
  obtain ⟨i, hi, ha⟩ := c' j hj
  obtain ⟨typ, id, body, ⟨rfl, t, f, hf, hb⟩ | ⟨rfl, k, hk⟩⟩ := h i hi
  · cases ha with
    | block _ _ hp => exact ⟨typ, id, _, .inl ⟨rfl, t, f, hf, TargetBody.perm hp.symm hb⟩⟩
  · cases ha with
    | block _ _ hp => exact ⟨typ, id, _, .inr ⟨rfl, k, taskBlock_covers hd hd' c c' hp.symm hk⟩⟩

theorem task_covers (hd : Distinct doc) (hd' : Distinct doc') (c : Covers doc doc') (c' : Covers doc' doc) {id : Str} {k : Task}
    (h : ∃ typ body, LastWith doc (fun i => ∃ typ b, i = .block b!"task" [typ, id] b) (.block b!"task" [typ, id] body) ∧
      TaskBlock L p doc typ body k) :
    ∃ typ body, LastWith doc' (fun i => ∃ typ b, i = .block b!"task" [typ, id] b) (.block b!"task" [typ, id] body) ∧
      TaskBlock L p doc' typ body k := by
  obtain ⟨typ, body, hl, ht⟩ := h
  obtain ⟨j, hj, ha⟩ := c _ ((last_task hd).1 hl)
  cases ha with
  | block _ _ hp => exact ⟨typ, _, (last_task hd').2 hj, taskBlock_covers hd hd' c c' hp ht⟩

end

/-! ## The property -/

/-- **C154 (partial).** A file in which no name is given twice, and the same with its blocks, and the attributes in them, in
another order: either both are refused, or both are accepted, with the same targets and the same tasks.
Missing: files in which a name is given twice (`C154_refuted`). -/
theorem C154_order_partial (L : Lib F N) (p : GoMap Str Factory) (wf : p.WF) {doc doc' : List (Item N)} (hd : Distinct doc)
    (h : Reordered doc doc') :
    ((∃ ts, parseDoc L p doc = .ok ts) ↔ ∃ ts', parseDoc L p doc' = .ok ts') ∧
    ∀ ts ts', parseDoc L p doc = .ok ts → parseDoc L p doc' = .ok ts' → Equal ts ts' := by
  have hd' := h.distinct hd
  obtain ⟨c, c'⟩ := h.covers
  obtain ⟨-, a1, a2⟩ := C113_document L p wf doc
  obtain ⟨-, b1, b2⟩ := C113_document L p wf doc'
  refine ⟨a1.trans (Iff.trans ⟨describes_covers hd hd' c c', describes_covers hd' hd c' c⟩ b1.symm), ?_⟩
  intro ts ts' g g'
  refine ⟨fun typ id t => ?_, fun id => ?_⟩
  · exact ((a2 ts g).1 typ id t).trans (Iff.trans ⟨hasTarget_covers hd hd' c c', hasTarget_covers hd' hd c' c⟩
      ((b2 ts' g').1 typ id t).symm)
  · exact Option.ext fun k => ((a2 ts g).2 id k).trans (Iff.trans ⟨task_covers hd hd' c c', task_covers hd' hd c' c⟩
      ((b2 ts' g').2 id k).symm)

/-- Two tasks of the same name. -/
def twoTasks : List (Item Int) :=
  [.block b!"task" [b!"demo/echo", b!"a"] [], .block b!"task" [b!"demo/rev", b!"a"] []]

/-- **C154 refuted**: if a name is given twice the last of the blocks counts. -/
theorem C154_refuted : ¬ ∀ (doc doc' : List (Item Int)) (ts ts' : Loaded), doc.Perm doc' →
    parseDoc (plain id) [(b!"demo", .demo)] doc = .ok ts → parseDoc (plain id) [(b!"demo", .demo)] doc' = .ok ts' →
    Equal ts ts' := by
  intro h
  have h2 : ∃ ts, parseDoc (plain id) [(b!"demo", .demo)] twoTasks = .ok ts ∧ ts.tasks.get? b!"a" = some { kind := .rev } :=
    ⟨_, rfl, rfl⟩
  have h3 : ∃ ts, parseDoc (plain id) [(b!"demo", .demo)] twoTasks.reverse = .ok ts ∧
      ts.tasks.get? b!"a" = some { kind := .echo } := ⟨_, rfl, rfl⟩
  obtain ⟨ts, h2, g2⟩ := h2
  obtain ⟨ts', h3, g3⟩ := h3
  have := (h _ _ ts ts' (List.reverse_perm twoTasks).symm h2 h3).2 b!"a"
  rw [g2, g3] at this
  exact absurd this (by decide)

/-! ## Cases -/

/-- A target and a task that uses it. -/
def targetAndTask : List (Item Int) :=
  [.block b!"target" [b!"demo", b!"t"] [.attr b!"string" (.str b!"x"), .attr b!"max_concurrency" (.num 2)],
    .block b!"task" [b!"demo/echo", b!"a"] [.attr b!"target" (.str b!"t")]]

/-- The same the other way round. -/
def taskAndTarget : List (Item Int) :=
  [.block b!"task" [b!"demo/echo", b!"a"] [.attr b!"target" (.str b!"t")],
    .block b!"target" [b!"demo", b!"t"] [.attr b!"max_concurrency" (.num 2), .attr b!"string" (.str b!"x")]]

example : Distinct targetAndTask ∧ Reordered targetAndTask taskAndTarget ∧
    (∃ ts, parseDoc (plain id) [(b!"demo", .demo)] targetAndTask = .ok ts ∧ ts.tasks.get? b!"a" = some { kind := .echo }) := by
  refine ⟨?_, ⟨_, .cons (.block _ _ (.swap ..)) (.cons (.block _ _ (.refl _)) .nil), .swap ..⟩, _, rfl, rfl⟩
  refine List.pairwise_cons.2 ⟨fun j hj hs => ?_, List.pairwise_singleton ..⟩
  simp only [List.mem_singleton] at hj
  subst hj
  rcases hs with ⟨_, _, _, _, _, h⟩ | ⟨_, _, _, _, _, h, _⟩ <;> simp at h

end

end Verif.TaskSet
