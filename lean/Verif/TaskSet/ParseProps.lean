import Verif.TaskSet.ParseSpec
import Verif.Sh.Lemmas

/-!
# C62, C69: loading a task set
-/

namespace Verif.TaskSet
open Verif Spec

section lemmas
variable {B : Type}

theorem lastWith_cons {α : Type} {a x : α} {l : List α} {p : α → Prop} :
    LastWith (a :: l) p x ↔ LastWith l p x ∨ ((∀ y ∈ l, ¬ p y) ∧ p a ∧ x = a) := by
  constructor
  · rintro ⟨before, after, he, hp, hn⟩
    cases before with
    | nil =>
      simp only [List.nil_append, List.cons.injEq] at he
      obtain ⟨rfl, rfl⟩ := he
      exact .inr ⟨hn, hp, rfl⟩
    | cons b before =>
      simp only [List.cons_append, List.cons.injEq] at he
      exact .inl ⟨before, after, he.2, hp, hn⟩
  · rintro (⟨before, after, rfl, hp, hn⟩ | ⟨hn, hp, rfl⟩)
    · exact ⟨a :: before, after, rfl, hp, hn⟩
    · exact ⟨[], l, rfl, hp, hn⟩

theorem not_lastWith_nil {α : Type} {x : α} {p : α → Prop} : ¬ LastWith [] p x := by
  rintro ⟨b, a, h, -⟩; simp at h

theorem lastWith_none {α : Type} {l : List α} {p : α → Prop} {x : α} (h : ∀ y ∈ l, ¬ p y) :
    ¬ LastWith l p x := by
  rintro ⟨b, a, rfl, hp, -⟩
  exact h x (by simp) hp

/-- The target `id` of type `typ` in the groups. -/
def lookup (g : GoMap Str (GoMap Str Target)) (typ id : Str) : Option Target :=
  match g.get? typ with
  | none => none
  | some m => m.get? id

theorem lookup_set {g : GoMap Str (GoMap Str Target)} {typ id : Str} {m : GoMap Str Target}
    {t : Target} (h : g.get? typ = some m) (typ' id' : Str) :
    lookup (g.set typ (m.set id t)) typ' id' =
      if typ = typ' ∧ id = id' then some t else lookup g typ' id' := by
  unfold lookup
  rw [GoMap.get?_set]
  by_cases h1 : typ = typ'
  · subst h1
    simp only [if_true, true_and, h, GoMap.get?_set]
  · simp only [h1, if_false, false_and]

theorem loadDefault_get {p : GoMap Str Factory} (wf : p.WF) (g : GoMap Str (GoMap Str Target))
    (typ : Str) : (loadDefaultTargets p g).get? typ =
      match p.get? typ with
      | some f => some [([], f.newTarget)]
      | none => g.get? typ := by
  induction p generalizing g with
  | nil => rfl
  | cons e p ih =>
    obtain ⟨a, f⟩ := e
    simp only [GoMap.WF, GoMap.keys, List.map_cons, List.nodup_cons] at wf
    rw [loadDefaultTargets, ih wf.2, GoMap.get?_set, GoMap.get?_cons]
    by_cases h : a = typ
    · subst h
      have : GoMap.get? p a = none := GoMap.get?_eq_none.2 wf.1
      simp [this]
    · simp [h]

theorem default_iff {f : Factory} {t : Target} : Default f t ↔ t = f.newTarget := by
  constructor
  · intro h; cases h <;> rfl
  · rintro rfl; cases f
    · exact .demo
    · exact .pg
    · exact .sh

theorem configured_iff {d : Decoder B} {body : B} {f : Factory} {t : Target} :
    Configured d body f t ↔ f.newTarget.decode d body = .ok t := by
  constructor
  · intro h
    cases h with
    | demo h => simp only [Factory.newTarget, Target.decode, h]
    | demoDefault h => simp only [Factory.newTarget, Target.decode, h]
    | pg h => simp only [Factory.newTarget, Target.decode, h]
    | sh h => simp only [Factory.newTarget, Target.decode, h]
  · intro h
    cases f with
    | demo =>
      simp only [Factory.newTarget, Target.decode] at h
      split at h
      · cases h
      · rename_i n s hd; obtain rfl := Except.ok.inj h; exact .demo hd
      · rename_i s hd; obtain rfl := Except.ok.inj h; exact .demoDefault hd
    | pg =>
      simp only [Factory.newTarget, Target.decode] at h
      split at h
      · cases h
      · rename_i hd; obtain rfl := Except.ok.inj h; exact .pg hd
    | sh =>
      simp only [Factory.newTarget, Target.decode] at h
      split at h
      · cases h
      · rename_i hd; obtain rfl := Except.ok.inj h; exact .sh hd

theorem targetOf_iff {d : Decoder B} {p : GoMap Str Factory} (wf : p.WF) {w : TargetSrc B}
    {t : Target} : TargetOf d p w t ↔
      ∃ f, p.get? w.typ = some f ∧ f.newTarget.decode d w.config = .ok t := by
  simp only [TargetOf, GoMap.get?_iff_mem wf, configured_iff]

theorem makes_iff {d : Decoder B} {body : B} {t : Target} {kind : Str} {k : Task} :
    Makes d body t kind k.kind ∧ k.base = ⟨[], [], [], []⟩ ↔
      ∃ k0, t.newTask kind = .ok k0 ∧ k0.decode d body = .ok k := by
  obtain ⟨b, kk⟩ := k
  constructor
  · rintro ⟨h, rfl⟩
    simp only at h
    cases h with
    | echo h => exact ⟨_, rfl, by simp only [Task.decode, h]⟩
    | fail h => exact ⟨_, rfl, by simp only [Task.decode, h]⟩
    | rev h => exact ⟨_, rfl, by simp only [Task.decode, h]⟩
    | rot13 h => exact ⟨_, rfl, by simp only [Task.decode, h]⟩
    | sleep h => exact ⟨_, rfl, by simp only [Task.decode, h]⟩
    | pg h => exact ⟨_, rfl, by simp only [Task.decode, h]⟩
    | sh h => exact ⟨_, rfl, by simp only [Task.decode, h]⟩
  · rintro ⟨k0, h0, h1⟩
    cases t with
    | demo n s =>
      simp only [Target.newTask] at h0
      split at h0
      · rename_i hc; subst hc; obtain rfl := Except.ok.inj h0
        simp only [Task.decode] at h1
        split at h1
        · cases h1
        · rename_i hd; obtain ⟨rfl, rfl⟩ := Task.mk.inj (Except.ok.inj h1); exact ⟨.echo hd, rfl⟩
      split at h0
      · rename_i hc; subst hc; obtain rfl := Except.ok.inj h0
        simp only [Task.decode] at h1
        split at h1
        · cases h1
        · rename_i hd; obtain ⟨rfl, rfl⟩ := Task.mk.inj (Except.ok.inj h1); exact ⟨.fail hd, rfl⟩
      split at h0
      · rename_i hc; subst hc; obtain rfl := Except.ok.inj h0
        simp only [Task.decode] at h1
        split at h1
        · cases h1
        · rename_i hd; obtain ⟨rfl, rfl⟩ := Task.mk.inj (Except.ok.inj h1); exact ⟨.rev hd, rfl⟩
      split at h0
      · rename_i hc; subst hc; obtain rfl := Except.ok.inj h0
        simp only [Task.decode] at h1
        split at h1
        · cases h1
        · rename_i hd; obtain ⟨rfl, rfl⟩ := Task.mk.inj (Except.ok.inj h1); exact ⟨.rot13 hd, rfl⟩
      split at h0
      · rename_i hc; subst hc; obtain rfl := Except.ok.inj h0
        simp only [Task.decode] at h1
        split at h1
        · cases h1
        · rename_i hd; obtain ⟨rfl, rfl⟩ := Task.mk.inj (Except.ok.inj h1); exact ⟨.sleep hd, rfl⟩
      · cases h0
    | pg =>
      obtain rfl := Except.ok.inj h0
      simp only [Task.decode] at h1
      split at h1
      · cases h1
      · rename_i hd; obtain ⟨rfl, rfl⟩ := Task.mk.inj (Except.ok.inj h1); exact ⟨.pg hd, rfl⟩
    | sh =>
      obtain rfl := Except.ok.inj h0
      simp only [Task.decode] at h1
      split at h1
      · cases h1
      · rename_i hd; obtain ⟨rfl, rfl⟩ := Task.mk.inj (Except.ok.inj h1); exact ⟨.sh hd, rfl⟩

/-- The loop over the target blocks. -/
theorem loadExplicit_spec {d : Decoder B} {p : GoMap Str Factory} (wf : p.WF)
    (l : List (TargetSrc B)) (g : GoMap Str (GoMap Str Target))
    (hg : ∀ typ, (p.get? typ).isSome = (g.get? typ).isSome) :
    loadExplicitTargets d p l g ≠ .panic ∧
    ((∀ w ∈ l, ∃ t, TargetOf d p w t) ↔ ∃ g', loadExplicitTargets d p l g = .ok g') ∧
    ∀ g', loadExplicitTargets d p l g = .ok g' →
      (∀ typ, (p.get? typ).isSome = (g'.get? typ).isSome) ∧
      ∀ typ id t, lookup g' typ id = some t ↔
        (∃ w, LastWith l (fun w => w.typ = typ ∧ w.id = id) w ∧ TargetOf d p w t) ∨
        ((∀ w ∈ l, ¬ (w.typ = typ ∧ w.id = id)) ∧ lookup g typ id = some t) := by
  induction l generalizing g with
  | nil =>
    simp only [loadExplicitTargets]
    refine ⟨by simp, by simp, ?_⟩
    intro g' h
    obtain rfl := Res.ok.inj h
    exact ⟨hg, fun typ id t => by simp [not_lastWith_nil]⟩
  | cons w l ih =>
    rw [loadExplicitTargets]
    cases h1 : p.get? w.typ with
    | none =>
      refine ⟨by simp, ?_, by simp⟩
      simp only [reduceCtorEq, exists_false, iff_false]
      intro h
      obtain ⟨t, ht⟩ := h w (by simp)
      obtain ⟨f, hf, -⟩ := (targetOf_iff wf).1 ht
      rw [h1] at hf; cases hf
    | some f =>
      simp only
      cases h2 : f.newTarget.decode d w.config with
      | error m =>
        refine ⟨by simp, ?_, by simp⟩
        simp only [reduceCtorEq, exists_false, iff_false]
        intro h
        obtain ⟨t, ht⟩ := h w (by simp)
        obtain ⟨f', hf, hd⟩ := (targetOf_iff wf).1 ht
        rw [h1] at hf
        obtain rfl := Option.some.inj hf
        rw [h2] at hd; cases hd
      | ok target =>
        simp only
        cases h3 : g.get? w.typ with
        | none => have := hg w.typ; simp [h1, h3] at this
        | some m =>
          simp only
          have hw : TargetOf d p w target := (targetOf_iff wf).2 ⟨f, h1, h2⟩
          have hg' : ∀ typ, (p.get? typ).isSome =
              ((g.set w.typ (m.set w.id target)).get? typ).isSome := by
            intro typ
            rw [GoMap.get?_set, hg typ]
            by_cases h : w.typ = typ
            · subst h; simp [h3]
            · simp [h]
          obtain ⟨i1, i2, i3⟩ := ih _ hg'
          refine ⟨i1, ?_, ?_⟩
          · rw [← i2]
            constructor
            · intro h w' hw'; exact h w' (by simp [hw'])
            · intro h w' hw'
              rcases List.mem_cons.1 hw' with rfl | hw'
              · exact ⟨_, hw⟩
              · exact h w' hw'
          · intro g' h
            obtain ⟨j1, j2⟩ := i3 g' h
            refine ⟨j1, fun typ id t => ?_⟩
            rw [j2, lookup_set h3]
            constructor
            · rintro (⟨w', hl, ht⟩ | ⟨hn, hl⟩)
              · exact .inl ⟨w', lastWith_cons.2 (.inl hl), ht⟩
              · split at hl
                · rename_i hc
                  obtain rfl := Option.some.inj hl
                  exact .inl ⟨w, lastWith_cons.2 (.inr ⟨hn, hc, rfl⟩), hw⟩
                · rename_i hc
                  refine .inr ⟨?_, hl⟩
                  intro w' hw'
                  rcases List.mem_cons.1 hw' with rfl | hw'
                  · exact hc
                  · exact hn w' hw'
            · rintro (⟨w', hl, ht⟩ | ⟨hn, hl⟩)
              · rcases lastWith_cons.1 hl with hl | ⟨hn, hc, rfl⟩
                · exact .inl ⟨w', hl, ht⟩
                · refine .inr ⟨hn, ?_⟩
                  rw [if_pos hc]
                  obtain ⟨f', hf, hd⟩ := (targetOf_iff wf).1 ht
                  rw [h1] at hf
                  obtain rfl := Option.some.inj hf
                  rw [h2] at hd
                  rw [Except.ok.inj hd]
              · refine .inr ⟨fun w' hw' => hn w' (by simp [hw']), ?_⟩
                rw [if_neg (hn w (by simp))]
                exact hl

theorem typeIs_iff {s typ kind : Str} : TypeIs s typ kind ↔ splitType s = (typ, kind) := by
  unfold TypeIs splitType
  constructor
  · rintro ⟨h, ⟨rfl, rfl⟩ | rfl⟩
    · rw [Sh.indexByte_none.mpr h]
    · have := Sh.indexByte_append (t := kind) h
      rw [show typ ++ b!"/" ++ kind = typ ++ 47 :: kind by simp, this]
      simp
  · cases h : Sh.indexByte 47 s with
    | none =>
      simp only [Prod.mk.injEq]
      rintro ⟨rfl, rfl⟩
      exact ⟨Sh.indexByte_none.mp h, Or.inl ⟨rfl, rfl⟩⟩
    | some i =>
      simp only [Prod.mk.injEq]
      rintro ⟨rfl, rfl⟩
      obtain ⟨t, ht, hn⟩ := Sh.indexByte_some h
      refine ⟨hn, Or.inr ?_⟩
      have hl : (s.take i).length = i := by
        rw [List.length_take]
        by_contra hne
        have : s.length ≤ i := by omega
        rw [List.take_of_length_le this] at ht
        have := congrArg List.length ht
        simp at this
      have hd : s.drop (i + 1) = t := by
        conv => lhs; rw [ht]
        rw [List.drop_append]
        simp [hl]
      rw [hd]
      simpa using ht

theorem loadTask_ok {d : Decoder B} {g : GoMap Str (GoMap Str Target)} {w : TaskSrc B} {k : Task} :
    loadTask d g w = .ok k ↔ TaskOf d (fun typ id t => lookup g typ id = some t) w k := by
  unfold loadTask TaskOf
  simp only [typeIs_iff, makes_iff]
  constructor
  · intro h
    cases h1 : g.get? (splitType w.typ).1 with
    | none => rw [h1] at h; cases h
    | some m =>
      rw [h1] at h; simp only at h
      cases h2 : m.get? w.target with
      | none => rw [h2] at h; cases h
      | some t =>
        rw [h2] at h; simp only at h
        cases h3 : t.newTask (splitType w.typ).2 with
        | error e => rw [h3] at h; cases h
        | ok k0 =>
          rw [h3] at h; simp only at h
          cases h4 : k0.decode d w.config with
          | error e => rw [h4] at h; cases h
          | ok k1 =>
            rw [h4] at h
            obtain rfl := Except.ok.inj h
            have hl : lookup g (splitType w.typ).1 w.target = some t := by rw [lookup, h1]; exact h2
            exact ⟨_, _, t, rfl, hl, k0, h3, h4⟩
  · rintro ⟨typ, kind, t, h1, h2, k0, h3, h4⟩
    rw [h1]
    simp only [lookup] at h2 ⊢
    cases h5 : g.get? typ with
    | none => rw [h5] at h2; cases h2
    | some m =>
      rw [h5] at h2
      simp only [h2, h3, h4]

/-- The loop over the task blocks. -/
theorem loadTasks_spec {d : Decoder B} {g : GoMap Str (GoMap Str Target)} (l : List (TaskSrc B))
    (m : GoMap Str Task) :
    ((∀ w ∈ l, ∃ k, loadTask d g w = .ok k) ↔ ∃ m', loadTasks d g l m = .ok m') ∧
    ∀ m', loadTasks d g l m = .ok m' → ∀ id k, m'.get? id = some k ↔
      (∃ w, LastWith l (fun w => w.id = id) w ∧ loadTask d g w = .ok k) ∨
      ((∀ w ∈ l, ¬ w.id = id) ∧ m.get? id = some k) := by
  induction l generalizing m with
  | nil =>
    refine ⟨by simp [loadTasks], ?_⟩
    intro m' h
    obtain rfl := Except.ok.inj h
    simp [not_lastWith_nil]
  | cons w l ih =>
    rw [loadTasks]
    cases h1 : loadTask d g w with
    | error e =>
      refine ⟨?_, by simp⟩
      simp only [reduceCtorEq, exists_false, iff_false]
      intro h
      obtain ⟨k, hk⟩ := h w (by simp)
      rw [h1] at hk; cases hk
    | ok k1 =>
      obtain ⟨i1, i2⟩ := ih (m.set w.id k1)
      refine ⟨?_, ?_⟩
      · rw [← i1]
        constructor
        · intro h w' hw'; exact h w' (by simp [hw'])
        · intro h w' hw'
          rcases List.mem_cons.1 hw' with rfl | hw'
          · exact ⟨_, h1⟩
          · exact h w' hw'
      · intro m' h id k
        rw [i2 m' h, GoMap.get?_set]
        constructor
        · rintro (⟨w', hl, ht⟩ | ⟨hn, hl⟩)
          · exact .inl ⟨w', lastWith_cons.2 (.inl hl), ht⟩
          · split at hl
            · rename_i hc
              obtain rfl := Option.some.inj hl
              exact .inl ⟨w, lastWith_cons.2 (.inr ⟨hn, hc, rfl⟩), h1⟩
            · rename_i hc
              refine .inr ⟨?_, hl⟩
              intro w' hw'
              rcases List.mem_cons.1 hw' with rfl | hw'
              · exact hc
              · exact hn w' hw'
        · rintro (⟨w', hl, ht⟩ | ⟨hn, hl⟩)
          · rcases lastWith_cons.1 hl with hl | ⟨hn, hc, rfl⟩
            · exact .inl ⟨w', hl, ht⟩
            · refine .inr ⟨hn, ?_⟩
              rw [if_pos hc]
              rw [h1] at ht
              rw [Except.ok.inj ht]
          · refine .inr ⟨fun w' hw' => hn w' (by simp [hw']), ?_⟩
            rw [if_neg (hn w (by simp))]
            exact hl

theorem dependenciesLoop_eq (l deps : List Str) :
    BaseTask.dependenciesLoop l deps = deps ++ l.map (b!"task:" ++ ·) := by
  induction l generalizing deps with
  | nil => simp [BaseTask.dependenciesLoop]
  | cons a l ih => rw [BaseTask.dependenciesLoop, ih]; simp

theorem lookup_default {p : GoMap Str Factory} (wf : p.WF) {typ id : Str} {t : Target} :
    lookup (loadDefaultTargets p []) typ id = some t ↔
      id = [] ∧ ∃ f, (typ, f) ∈ p ∧ Default f t := by
  unfold lookup
  simp only [default_iff]
  rw [loadDefault_get wf]
  simp only [← GoMap.get?_iff_mem wf]
  cases h : p.get? typ with
  | none => simp
  | some f =>
    by_cases hid : id = []
    · subst hid; simp [GoMap.get?_cons, eq_comm]
    · have : ¬ ([] : Str) = id := fun e => hid e.symm
      simp [GoMap.get?_cons, hid, this]

end lemmas

/-- C62. For every set of registered types and every decoded file: loading never panics; it succeeds
exactly if every block is acceptable; then the targets of each type are those the file and the
registered types give it, and each task id is mapped to what the last block with this id describes,
and no other id to anything. The dependencies of a task are its `After` with the prefix, then its
`Require`, in order. -/
theorem C62_task_sets {B : Type} (d : Decoder B) (p : GoMap Str Factory) (wf : p.WF) (src : Src B) :
    parse d p src ≠ .panic ∧
    (Acceptable d p src ↔ ∃ ts, parse d p src = .ok ts) ∧
    (∀ ts, parse d p src = .ok ts →
      (∀ typ id t, (∃ m, ts.targets.get? typ = some m ∧ m.get? id = some t) ↔
        TargetNamed d p src typ id t) ∧
      (∀ id k, ts.tasks.get? id = some k ↔
        ∃ w, LastWith src.tasks (fun w => w.id = id) w ∧ TaskOf d (TargetNamed d p src) w k)) ∧
    (∀ b : BaseTask, b.dependencies = b.after.map (b!"task:" ++ ·) ++ b.require) := by
  have hg : ∀ typ, (p.get? typ).isSome = ((loadDefaultTargets p []).get? typ).isSome := by
    intro typ
    rw [loadDefault_get wf]
    cases p.get? typ <;> simp
  obtain ⟨e1, e2, e3⟩ := loadExplicit_spec (d := d) wf src.targets (loadDefaultTargets p []) hg
  have named : ∀ g, loadExplicitTargets d p src.targets (loadDefaultTargets p []) = .ok g →
      (fun typ id t => lookup g typ id = some t) = TargetNamed d p src := by
    intro g h
    funext typ id t
    rw [(e3 g h).2, lookup_default wf]
    rfl
  have look : ∀ g : GoMap Str (GoMap Str Target), ∀ typ id t,
      (∃ m, g.get? typ = some m ∧ m.get? id = some t) ↔ lookup g typ id = some t := by
    intro g typ id t
    unfold lookup
    cases g.get? typ <;> simp
  refine ⟨?_, ?_, ?_, ?_⟩
  · unfold parse
    cases h : loadExplicitTargets d p src.targets (loadDefaultTargets p []) with
    | panic => exact absurd h e1
    | error e => simp
    | ok g => simp only; cases loadTasks d g src.tasks [] <;> simp
  · unfold Acceptable parse
    rw [e2]
    cases h : loadExplicitTargets d p src.targets (loadDefaultTargets p []) with
    | panic => exact absurd h e1
    | error e => simp
    | ok g =>
      have ht := (loadTasks_spec (d := d) (g := g) src.tasks []).1
      simp only [loadTask_ok, named g h] at ht
      simp only [Res.ok.injEq, exists_eq', true_and]
      rw [ht]
      cases loadTasks d g src.tasks [] <;> simp
  · intro ts hts
    unfold parse at hts
    cases h : loadExplicitTargets d p src.targets (loadDefaultTargets p []) with
    | panic => exact absurd h e1
    | error e => rw [h] at hts; cases hts
    | ok g =>
      rw [h] at hts; simp only at hts
      cases h2 : loadTasks d g src.tasks [] with
      | error e => rw [h2] at hts; cases hts
      | ok m =>
        rw [h2] at hts
        obtain rfl := Res.ok.inj hts
        refine ⟨fun typ id t => ?_, fun id k => ?_⟩
        · simp only [look]
          have := congrFun (congrFun (congrFun (named g h) typ) id) t
          exact iff_of_eq this
        · rw [(loadTasks_spec (d := d) (g := g) src.tasks []).2 m h2]
          simp only [loadTask_ok, named g h]
          simp
  · intro b
    rw [BaseTask.dependencies, dependenciesLoop_eq, List.nil_append]

/-- A body given by its attributes: `sql` as text, or nothing. -/
def exampleDecoder : Decoder (Option Str) where
  demoTarget := fun
    | some s => .ok (none, s)
    | none => .error b!"missing string"
  sql := fun
    | some s => .ok s
    | none => .error b!"missing sql"
  args := fun
    | some s => .ok [s]
    | none => .error b!"missing args"
  nothing := fun
    | some _ => .error b!"unsupported argument"
    | none => .ok ()

/-- A task set with a named target, a default target and a task defined twice. -/
def exampleSrc : Src (Option Str) where
  targets := [{ typ := b!"pg", id := b!"src", config := none }]
  tasks := [
    { typ := b!"sh", id := b!"a", config := some b!"ls" },
    { typ := b!"pg", id := b!"b", target := b!"src", config := some b!"SELECT 1", after := [b!"a"] },
    { typ := b!"sh", id := b!"a", config := some b!"pwd" }]

example : ∃ ts, parse exampleDecoder [(b!"pg", .pg), (b!"sh", .sh)] exampleSrc = .ok ts ∧
    ts.tasks = [(b!"a", { kind := .sh [b!"pwd"] }), (b!"b", { kind := .pg b!"SELECT 1" })] :=
  ⟨_, rfl, by decide +kernel⟩

example : BaseTask.dependencies { after := [b!"a"], require := [b!"x:y"] } = [b!"task:a", b!"x:y"] := by
  decide +kernel

/-- C69 is false of the code. What a file says about the dependencies of a task is read and dropped:
every task of every loaded task set reports no dependencies and provides nothing. -/
theorem C69_refuted :
    (∀ {B : Type} (d : Decoder B) (p : GoMap Str Factory) (src : Src B) (ts : Loaded),
      p.WF → parse d p src = .ok ts → ∀ id k, ts.tasks.get? id = some k →
        k.base.dependencies = [] ∧ k.base.provides = []) ∧
    ∃ (d : Decoder (Option Str)) (p : GoMap Str Factory) (src : Src (Option Str)) (ts : Loaded)
      (w : TaskSrc (Option Str)) (k : Task),
      p.WF ∧ parse d p src = .ok ts ∧ src.tasks = [w] ∧ w.after = [b!"a"] ∧
        ts.tasks.get? w.id = some k ∧ k.base.dependencies ≠ [b!"task:a"] := by
  refine ⟨?_, exampleDecoder, [(b!"sh", .sh)],
    { targets := [], tasks := [{ typ := b!"sh", id := b!"b", config := some b!"ls", after := [b!"a"] }] },
    _, _, { kind := .sh [b!"ls"] }, by decide, rfl, rfl, rfl, by decide +kernel, by decide +kernel⟩
  intro B d p src ts wf h id k hk
  obtain ⟨w, -, typ, kind, t, -, -, -, hb⟩ :=
    (((C62_task_sets d p wf src).2.2.1 ts h).2 id k).1 hk
  rw [hb]
  exact ⟨rfl, rfl⟩

end Verif.TaskSet
