import Verif.TaskSet.DocLemmas
import Verif.Hcl.TextProps
import Verif.TaskSet.ParseProps
import Verif.TaskSet.Texts

/-!
# C113: what a task set file means
-/

namespace Verif.TaskSet
open Verif Hcl Spec DocSpec

section
variable {F N : Type} {L : Lib F N} {p : GoMap Str Factory} {doc : List (Item N)}

namespace DocLemmas

/-- The structure of the file, if it can be decoded. -/
def srcOf (L : Lib F N) (doc : List (Item N)) : Src (List (Item N)) :=
  { targets := doc.filterMap targetBlock, tasks := doc.filterMap (taskBlock L) }

theorem docTarget_iff {w : TargetSrc (List (Item N))} {t : Target} :
    TargetOf (docDecoder L) p w t ↔ TargetBlock L p w.typ w.config t := by
  unfold TargetOf TargetBlock
  simp only [targetBody_iff]

theorem named_iff {typ id : Str} {t : Target} :
    TargetNamed (docDecoder L) p (srcOf L doc) typ id t ↔ HasTarget L p doc typ id t := by
  have hpred : (fun i : Item N => ∃ w, targetBlock i = some w ∧ w.typ = typ ∧ w.id = id) =
      fun i => ∃ b, i = .block b!"target" [typ, id] b := by
    funext i
    apply propext
    constructor
    · rintro ⟨w, hw, rfl, rfl⟩
      exact ⟨_, targetBlock_some.1 hw⟩
    · rintro ⟨b, rfl⟩
      exact ⟨⟨typ, id, b⟩, rfl, rfl, rfl⟩
  unfold TargetNamed HasTarget srcOf
  simp only [lastWith_filterMap, hpred, docTarget_iff]
  refine or_congr ?_ (and_congr_left' ?_)
  · constructor
    · rintro ⟨w, ⟨i, hi, hw⟩, ht⟩
      have := targetBlock_some.1 hw
      obtain ⟨u, v, e, ⟨b, hb⟩, hv⟩ := hi
      rw [this] at hb
      cases hb
      exact ⟨w.config, ⟨u, v, this ▸ e, ⟨_, rfl⟩, hv⟩, ht⟩
    · rintro ⟨body, h, ht⟩
      exact ⟨⟨typ, id, body⟩, ⟨_, h, rfl⟩, ht⟩
  · constructor
    · intro h body hb
      exact h ⟨typ, id, body⟩ (List.mem_filterMap.2 ⟨_, hb, rfl⟩) ⟨rfl, rfl⟩
    · rintro h w hw ⟨rfl, rfl⟩
      obtain ⟨i, hi, e⟩ := List.mem_filterMap.1 hw
      exact h w.config (targetBlock_some.1 e ▸ hi)

theorem docTask_iff {typ id : Str} {body : List (Item N)} {k : Task} :
    (∃ w, decodeTask L [typ, id] body = .ok w ∧
      TaskOf (docDecoder L) (TargetNamed (docDecoder L) p (srcOf L doc)) w k) ↔ TaskBlock L p doc typ body k := by
  constructor
  · rintro ⟨w, hw, base, kind, t, h1, h2, h3, h4⟩
    have hd := decodeTask_ok.1 hw
    have hl := hd.labels
    simp only [List.cons.injEq, and_true] at hl
    obtain ⟨ho, hc⟩ := head_iff.1 ⟨w, hw, rfl⟩
    rw [hd.config] at h3
    exact ⟨base, kind, w.target, t, hl.1 ▸ h1, hc, named_iff.1 h2, taskBody_iff.1 ⟨ho, h3⟩, h4⟩
  · rintro ⟨base, kind, target, t, h1, hc, h2, h3, h4⟩
    obtain ⟨ho, hm⟩ := taskBody_iff.2 h3
    obtain ⟨w, hw, rfl⟩ := (head_iff (typ := typ) (id := id)).2 ⟨ho, hc⟩
    have hd := decodeTask_ok.1 hw
    have hl := hd.labels
    simp only [List.cons.injEq, and_true] at hl
    exact ⟨w, hw, base, kind, t, hl.1 ▸ h1, named_iff.2 h2, hd.config ▸ hm, h4⟩

end DocLemmas

open DocLemmas

/-- C113. For every set of registered types and every document: loading never panics; it succeeds exactly if
the document describes a task set; then the targets are those the document describes and the default ones,
and each task id is mapped to what the last task block with this id describes, and no other id to anything. -/
theorem C113_document (L : Lib F N) (p : GoMap Str Factory) (wf : p.WF) (doc : List (Item N)) :
    parseDoc L p doc ≠ .panic ∧
    ((∃ ts, parseDoc L p doc = .ok ts) ↔ Describes L p doc) ∧
    ∀ ts, parseDoc L p doc = .ok ts →
      (∀ typ id t, (∃ m, ts.targets.get? typ = some m ∧ m.get? id = some t) ↔ HasTarget L p doc typ id t) ∧
      (∀ id k, ts.tasks.get? id = some k ↔ ∃ typ body,
        LastWith doc (fun i => ∃ typ b, i = .block b!"task" [typ, id] b) (.block b!"task" [typ, id] body) ∧
        TaskBlock L p doc typ body k) := by
  obtain ⟨c1, c2, c3, -⟩ := C62_task_sets (docDecoder L) p wf (srcOf L doc)
  have hcase : (∃ e, decodeFile L doc = .error e) ∨ decodeFile L doc = .ok (srcOf L doc) := by
    cases h : decodeFile L doc with
    | error e => exact .inl ⟨e, rfl⟩
    | ok src => exact .inr (by rw [(decodeFile_ok.1 h).2]; rfl)
  have hparse : ∀ ts, parseDoc L p doc = .ok ts ↔
      decodeFile L doc = .ok (srcOf L doc) ∧ parse (docDecoder L) p (srcOf L doc) = .ok ts := by
    intro ts
    unfold parseDoc
    rcases hcase with ⟨e, h⟩ | h
    · rw [h]; simp
    · rw [h]; simp
  refine ⟨?_, ?_, ?_⟩
  · unfold parseDoc
    rcases hcase with ⟨e, h⟩ | h
    · rw [h]; simp
    · rw [h]; exact c1
  · simp only [hparse, exists_and_left, ← c2, decodeFile_ok]
    constructor
    · rintro ⟨⟨h1, -⟩, h2, h3⟩ i hi
      obtain ⟨typ, id, body, rfl | ⟨rfl, w, hw⟩⟩ := h1 i hi
      · obtain ⟨t, ht⟩ := h2 ⟨typ, id, body⟩ (List.mem_filterMap.2 ⟨_, hi, rfl⟩)
        exact ⟨typ, id, body, .inl ⟨rfl, t, docTarget_iff.1 ht⟩⟩
      · have hl := (decodeTask_ok.1 hw).labels
        simp only [List.cons.injEq, and_true] at hl
        obtain ⟨k, hk⟩ := h3 w (List.mem_filterMap.2 ⟨_, hi, taskBlock_some.2
          ⟨body, by rw [hl.1, hl.2], by rw [← hl.1, ← hl.2]; exact hw⟩⟩)
        exact ⟨typ, id, body, .inr ⟨rfl, k, docTask_iff.1 ⟨w, hw, hk⟩⟩⟩
    · intro h
      refine ⟨⟨?_, rfl⟩, ?_, ?_⟩
      · intro i hi
        obtain ⟨typ, id, body, ⟨rfl, -⟩ | ⟨rfl, k, hk⟩⟩ := h i hi
        · exact ⟨typ, id, body, .inl rfl⟩
        · obtain ⟨w, hw, -⟩ := (docTask_iff (id := id)).2 hk
          exact ⟨typ, id, body, .inr ⟨rfl, w, hw⟩⟩
      · intro w hw
        obtain ⟨i, hi, e⟩ := List.mem_filterMap.1 hw
        obtain ⟨typ, id, body, ⟨rfl, t, ht⟩ | ⟨rfl, -⟩⟩ := h i hi
        · cases e
          exact ⟨t, docTarget_iff.2 ht⟩
        · cases targetBlock_some.1 e
      · intro w hw
        obtain ⟨i, hi, e⟩ := List.mem_filterMap.1 hw
        obtain ⟨body', rfl, hw'⟩ := taskBlock_some.1 e
        obtain ⟨typ, id, body, ⟨e, -⟩ | ⟨e, k, hk⟩⟩ := h _ hi
        · cases e
        · cases e
          obtain ⟨w2, hw2, hk⟩ := (docTask_iff (id := w.id)).2 hk
          rw [hw'] at hw2
          cases hw2
          exact ⟨k, hk⟩
  · intro ts hts
    obtain ⟨hf, hp⟩ := (hparse ts).1 hts
    obtain ⟨h1, h2⟩ := c3 ts hp
    refine ⟨fun typ id t => (h1 typ id t).trans named_iff, fun id k => (h2 id k).trans ?_⟩
    have hdec := (decodeFile_ok.1 hf).1
    have hpred : ∀ i ∈ doc, ((∃ w, taskBlock L i = some w ∧ w.id = id) ↔
        ∃ typ b, i = .block b!"task" [typ, id] b) := by
      intro i hi
      constructor
      · rintro ⟨w, hw, rfl⟩
        obtain ⟨body, e, -⟩ := taskBlock_some.1 hw
        exact ⟨_, body, e⟩
      · rintro ⟨typ, b, rfl⟩
        obtain ⟨typ', id', body, e | ⟨e, w, hw⟩⟩ := hdec _ hi
        · cases e
        · cases e
          have hl := (decodeTask_ok.1 hw).labels
          simp only [List.cons.injEq, and_true] at hl
          exact ⟨w, taskBlock_some.2 ⟨b, by rw [hl.1, hl.2], by rw [← hl.1, ← hl.2]; exact hw⟩, hl.2.symm⟩
    constructor
    · rintro ⟨w, hl, hk⟩
      obtain ⟨i, ⟨u, v, e, ⟨x, hx, hid⟩, hv⟩, hi⟩ := lastWith_filterMap.1 hl
      obtain ⟨body, rfl, hw⟩ := taskBlock_some.1 hi
      rw [hi] at hx
      cases hx
      subst hid
      refine ⟨w.typ, body, ⟨u, v, e, ⟨_, _, rfl⟩, fun j hj hc => hv j hj ?_⟩, docTask_iff.1 ⟨w, hw, hk⟩⟩
      exact (hpred j (by rw [e]; simp [hj])).2 hc
    · rintro ⟨typ, body, ⟨u, v, e, -, hv⟩, ht⟩
      obtain ⟨w, hw, hk⟩ := (docTask_iff (id := id)).2 ht
      have hl := (decodeTask_ok.1 hw).labels
      simp only [List.cons.injEq, and_true] at hl
      have hb : taskBlock L (.block b!"task" [typ, id] body) = some w :=
        taskBlock_some.2 ⟨body, by rw [hl.1, hl.2], by rw [← hl.1, ← hl.2]; exact hw⟩
      refine ⟨w, lastWith_filterMap.2 ⟨_, ⟨u, v, e, ⟨w, hb, hl.2.symm⟩, fun j hj hc => hv j hj ?_⟩, hb⟩, hk⟩
      exact (hpred j (by rw [e]; simp [hj])).1 hc

end

/-- `Parse` on the text of a file. -/
def load (p : GoMap Str Factory) (text : Str) : Option (GoMap Str (GoMap Str Target) × GoMap Str Task) :=
  match Read.document readInt text with
  | none => none
  | some doc =>
    match parseDoc (plain id) p doc with
    | .ok ts => some (ts.targets, ts.tasks)
    | _ => none

/-- C113 for the file of taskset_test.go:91. -/
theorem demo_loads : load [(b!"demo", .demo)] Texts.demoText = some (
    [(b!"demo", [
      ([], .demo 1 []),
      (b!"msg1", .demo 3 b!"!abbcF"),
      (b!"msg2", .demo 3 b!".rvy n fv rxnp ruG"),
      (b!"msg3", .demo 3 b!".revczni n fv qyebj ruG")])],
    [(b!"msg1/decrypted", { kind := .echo }), (b!"msg1/reverse", { kind := .rev }),
      (b!"msg1/rotate", { kind := .rot13 }),
      (b!"msg2/decrypted", { kind := .echo }), (b!"msg2/reverse", { kind := .rev }),
      (b!"msg2/rotate", { kind := .rot13 }),
      (b!"msg3/decrypted", { kind := .echo }), (b!"msg3/reverse", { kind := .rev }),
      (b!"msg3/rotate", { kind := .rot13 })]) := by kernel_rfl

/-- C113 for the file of taskset_test.go:35. -/
theorem measurements_load : load [(b!"pg", .pg), (b!"sh", .sh)] Texts.measurementsText = some (
    [(b!"pg", [([], .pg), (b!"src", .pg)]), (b!"sh", [([], .sh)])],
    [(b!"create-dir", { kind := .sh [b!"mkdir", b!"-p", b!"/tmp/pgutil-simple-example"] }),
      (b!"remove-dir", { kind := .sh [b!"rmdir", b!"/tmp/pgutil-simple-example"] }),
      (b!"create-table", { kind := .pg b!"SELECT now()" }),
      (b!"insert-new-measurements", { kind := .pg b!"SELECT now() + '1 hour'" }),
      (b!"delete-old-measurements", { kind := .pg b!"SELECT now() + '1 day'" })]) := by kernel_rfl

/-- The file of parser_test.go:34 is accepted. -/
example : (load [(b!"pg", .pg), (b!"sh", .sh)] Texts.parserText).isSome = true := by kernel_rfl

/-! ## C69: the dependencies of a task -/

/-- What a body says about a list: nothing is an empty list. -/
def Says {F N : Type} (L : Lib F N) (body : List (Item N)) (name : Str) (l : List Str) : Prop :=
  GivesTexts L body name l ∨ Absent body name ∧ l = []

/-- C69, exactly. Every task of every task set comes from a block that says something about `after`,
`requires` and `provides`, and reports this as its dependencies and what it provides if and only if it is
nothing. -/
theorem C69_exact {F N : Type} (L : Lib F N) (p : GoMap Str Factory) (wf : p.WF) (doc : List (Item N))
    (ts : Loaded) (h : parseDoc L p doc = .ok ts) (id : Str) (k : Task) (hk : ts.tasks.get? id = some k) :
    ∃ typ body after requires provides,
      LastWith doc (fun i => ∃ typ b, i = .block b!"task" [typ, id] b) (.block b!"task" [typ, id] body) ∧
      Says L body b!"after" after ∧ Says L body b!"requires" requires ∧ Says L body b!"provides" provides ∧
      (k.base.dependencies = after.map (b!"task:" ++ ·) ++ requires ∧ k.base.provides = provides ↔
        after = [] ∧ requires = [] ∧ provides = []) := by
  obtain ⟨typ, body, hl, base, kind, name, t, -, hc, -, -, hb⟩ :=
    (((C113_document L p wf doc).2.2 ts h).2 id k).1 hk
  have hsay : ∀ n ∈ [b!"after", b!"provides", b!"requires"], ∃ l, Says L body n l := by
    intro n hn
    rcases hc.lists n hn with h | ⟨l, h⟩
    · exact ⟨[], .inr ⟨h, rfl⟩⟩
    · exact ⟨l, .inl h⟩
  obtain ⟨after, ha⟩ := hsay b!"after" (by simp)
  obtain ⟨provides, hp⟩ := hsay b!"provides" (by simp)
  obtain ⟨requires, hr⟩ := hsay b!"requires" (by simp)
  refine ⟨typ, body, after, requires, provides, hl, ha, hr, hp, ?_⟩
  rw [hb]
  show [] = _ ∧ [] = _ ↔ _
  constructor
  · rintro ⟨h1, h2⟩
    have h1 := List.append_eq_nil_iff.1 h1.symm
    exact ⟨List.map_eq_nil_iff.1 h1.1, h1.2, h2.symm⟩
  · rintro ⟨rfl, rfl, rfl⟩
    exact ⟨rfl, rfl⟩

/-- In the file of taskset_test.go:91 a task is to come after two others, and depends on nothing when it has
been read. -/
theorem C69_demo : ∃ doc, Read.document readInt Texts.demoText = some doc ∧
    (∃ body, .block b!"task" [b!"demo/echo", b!"msg1/decrypted"] body ∈ doc ∧
      .attr b!"after" (.list [.str b!"msg1/reverse", .str b!"msg1/rotate"]) ∈ body) ∧
    ∃ ts k, parseDoc (plain id) [(b!"demo", .demo)] doc = .ok ts ∧
      ts.tasks.get? b!"msg1/decrypted" = some k ∧ k.base.dependencies = [] := by
  have key : ∃ doc ts, Read.document readInt Texts.demoText = some doc ∧
      parseDoc (plain id) [(b!"demo", .demo)] doc = .ok ts ∧
      ts.tasks.get? b!"msg1/decrypted" = some { kind := .echo } ∧
      doc[3]? = some (.block b!"task" [b!"demo/echo", b!"msg1/decrypted"]
        [.attr b!"after" (.list [.str b!"msg1/reverse", .str b!"msg1/rotate"]),
         .attr b!"target" (.str b!"msg1")]) := by
    have h := demo_loads
    unfold load at h
    split at h
    · cases h
    · rename_i doc hd
      split at h
      · rename_i ts ht
        refine ⟨doc, ts, hd, ht, ?_, ?_⟩
        · have := congrArg (fun o => o.map fun x => x.2.get? b!"msg1/decrypted") h
          simp only [Option.map_some, Option.some.injEq] at this
          rw [this]
          decide +kernel
        · have hx : (Read.document readInt Texts.demoText).bind (·[3]?) = some (.block b!"task"
              [b!"demo/echo", b!"msg1/decrypted"]
              [.attr b!"after" (.list [.str b!"msg1/reverse", .str b!"msg1/rotate"]),
               .attr b!"target" (.str b!"msg1")]) := by kernel_rfl
          rw [hd] at hx
          exact hx
      · cases h
  obtain ⟨doc, ts, h1, h2, h3, h4⟩ := key
  exact ⟨doc, h1, ⟨_, List.mem_of_getElem? h4, by simp⟩, ts, _, h2, h3, rfl⟩

/-- Unknown attributes and blocks, and missing and double attributes, are refused. -/
example :
    load [(b!"sh", .sh)] b!"task \"sh\" \"a\" {\n  args = []\n}\n" =
      some ([(b!"sh", [([], .sh)])], [(b!"a", { kind := .sh [] })]) ∧
    load [(b!"sh", .sh)] b!"task \"sh\" \"a\" {}\n" = none ∧
    load [(b!"sh", .sh)] b!"task \"sh\" \"a\" {\n  args = []\n  sql = \"\"\n}\n" = none ∧
    load [(b!"sh", .sh)] b!"task \"sh\" \"a\" {\n  args = []\n  after {}\n}\n" = none ∧
    load [(b!"sh", .sh)] b!"task \"sh\" \"a\" {\n  args = []\n  args = []\n}\n" = none ∧
    load [(b!"sh", .sh)] b!"task \"sh\" \"a\" {\n  args = []\n  target = \"b\"\n}\n" = none ∧
    load [(b!"sh", .sh)] b!"task \"sh\" {\n  args = []\n}\n" = none := by
  refine ⟨?_, ?_, ?_, ?_, ?_, ?_, ?_⟩ <;> kernel_rfl

end Verif.TaskSet
