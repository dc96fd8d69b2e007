import Verif.Dot.Spec
import Verif.Json.Props
import Verif.Main.Exit

/-!
# C101: drawings of runbooks
-/

namespace Verif.Dot
open Verif Book Spec

variable {esc : Str → Str}

theorem set_new {m : GoMap Str (GoMap Str Str)} {k : Str} {v : GoMap Str Str} (h : k ∉ m.keys) :
    m.set k v = m ++ [(k, v)] := by
  induction m with
  | nil => rfl
  | cons p m ih =>
    obtain ⟨a, w⟩ := p
    simp only [GoMap.keys, List.map_cons, List.mem_cons, not_or] at h
    rw [GoMap.set, if_neg (fun e => h.1 e.symm), ih h.2]
    rfl

theorem set_last {m : GoMap Str (GoMap Str Str)} {k : Str} {u v : GoMap Str Str} (h : k ∉ m.keys) :
    GoMap.set (m ++ [(k, u)]) k v = m ++ [(k, v)] := by
  induction m with
  | nil => simp [GoMap.set]
  | cons p m ih =>
    obtain ⟨a, w⟩ := p
    simp only [GoMap.keys, List.map_cons, List.mem_cons, not_or] at h
    rw [List.cons_append, GoMap.set, if_neg (fun e => h.1 e.symm), ih h.2]
    rfl

theorem get_last {m : GoMap Str (GoMap Str Str)} {k : Str} {u : GoMap Str Str} (h : k ∉ m.keys) :
    GoMap.get? (m ++ [(k, u)]) k = some u := by
  induction m with
  | nil => simp [GoMap.get?]
  | cons p m ih =>
    obtain ⟨a, w⟩ := p
    simp only [GoMap.keys, List.map_cons, List.mem_cons, not_or] at h
    rw [List.cons_append, GoMap.get?_cons, if_neg (fun e => h.1 e.symm), ih h.2]

theorem relate_fields (g : Graph) (p c : Str) :
    (g.relate p c).name = g.name ∧ (g.relate p c).directed = g.directed ∧ (g.relate p c).attrs = g.attrs ∧
    (g.relate p c).subGraphs = g.subGraphs ∧ (g.relate p c).nodes = g.nodes ∧
    (g.relate p c).edges = g.edges ∧
    ∀ x, x ∈ (g.relate p c).relations ↔ x ∈ g.relations ∨ x = (p, c) := by
  unfold Graph.relate
  split
  · rename_i h
    refine ⟨rfl, rfl, rfl, rfl, rfl, rfl, fun x => ⟨.inl, fun hx => ?_⟩⟩
    rcases hx with hx | rfl
    · exact hx
    · exact h
  · exact ⟨rfl, rfl, rfl, rfl, rfl, rfl, fun x => by simp⟩

/-- What the targets add. -/
theorem targets_fold (ids : List Str) (g : Graph) (hname : g.name = esc b!"runbook")
    (hne : ∀ q ∈ ids, esc (box q) ≠ esc b!"runbook")
    (hnd : (g.subGraphs.keys ++ ids.map fun q => esc (box q)).Nodup) :
    let r := ids.foldl (addTarget esc) g
    r.name = g.name ∧ r.directed = g.directed ∧ r.attrs = g.attrs ∧ r.nodes = g.nodes ∧ r.edges = g.edges ∧
    r.subGraphs = g.subGraphs ++ (ids.map fun q => (esc (box q), [(esc b!"label", esc q)])) ∧
    ∀ x, x ∈ r.relations ↔ x ∈ g.relations ∨ ∃ q ∈ ids, x = (esc b!"runbook", esc (box q)) := by
  induction ids generalizing g with
  | nil => simp
  | cons q ids ih =>
    have hq : esc (box q) ∉ g.subGraphs.keys := by
      intro h
      rw [List.nodup_append] at hnd
      exact hnd.2.2 _ h _ (by simp) rfl
    have hstep : ∃ g', addTarget esc g q = g' ∧ g'.name = g.name ∧ g'.directed = g.directed ∧
        g'.attrs = g.attrs ∧ g'.nodes = g.nodes ∧ g'.edges = g.edges ∧
        g'.subGraphs = g.subGraphs ++ [(esc (box q), [(esc b!"label", esc q)])] ∧
        ∀ x, x ∈ g'.relations ↔ x ∈ g.relations ∨ x = (esc b!"runbook", esc (box q)) := by
      refine ⟨_, rfl, ?_⟩
      obtain ⟨h1, h2, h3, h4, h5, h6, h7⟩ := relate_fields
        { g with subGraphs := if g.subGraphs.has (esc (box q)) then g.subGraphs
                              else g.subGraphs.set (esc (box q)) [] } (esc b!"runbook") (esc (box q))
      have hs : (g.addSubGraph (esc b!"runbook") (esc (box q))).subGraphs =
          g.subGraphs ++ [(esc (box q), [])] := by
        rw [Graph.addSubGraph, h4]
        simp only [GoMap.has_false.2 hq, Bool.false_eq_true, if_false, set_new hq]
      have hn : ¬ (g.addSubGraph (esc b!"runbook") (esc (box q))).name = esc (box q) := by
        rw [Graph.addSubGraph, h1, hname]
        exact fun e => hne q (by simp) e.symm
      have he : addTarget esc g q =
          { g.addSubGraph (esc b!"runbook") (esc (box q)) with
              subGraphs := g.subGraphs ++ [(esc (box q), [(esc b!"label", esc q)])] } := by
        show Graph.addAttr (g.addSubGraph (esc b!"runbook") (esc (box q))) (esc (box q)) _ _ = _
        rw [Graph.addAttr, if_neg hn, hs, get_last hq]
        simp only [set_last hq, GoMap.set]
      rw [he]
      exact ⟨h1, h2, h3, h5, h6, rfl, h7⟩
    obtain ⟨g', e, s1, s2, s3, s4, s5, s6, s7⟩ := hstep
    have := ih g' (by rw [s1, hname]) (fun q hq => hne q (by simp [hq])) (by
      rw [s6]
      simpa [GoMap.keys] using hnd)
    obtain ⟨r1, r2, r3, r4, r5, r6, r7⟩ := this
    rw [List.foldl_cons, e]
    refine ⟨r1.trans s1, r2.trans s2, r3.trans s3, r4.trans s4, r5.trans s5, ?_, fun x => ?_⟩
    · rw [r6, s6]; simp
    · rw [r7, s7]
      simp only [List.mem_cons, exists_eq_or_imp, or_assoc]

theorem edges_fold (after : List Str) (id : Str) (g : Graph) :
    addEdges esc g id after =
      { g with edges := g.edges ++ after.map fun b => ⟨esc b, esc id, true⟩ } := by
  unfold addEdges
  induction after generalizing g with
  | nil => simp
  | cons b after ih => rw [List.foldl_cons, ih]; simp [Graph.addEdge]

/-- What the tasks add. -/
theorem tasks_fold (tasks : List (Str × Task)) (g : Graph)
    (hnd : (g.nodes ++ tasks.map fun p => esc p.1).Nodup) :
    let r := tasks.foldl (addTask esc) g
    r.name = g.name ∧ r.directed = g.directed ∧ r.attrs = g.attrs ∧ r.subGraphs = g.subGraphs ∧
    r.nodes = g.nodes ++ (tasks.map fun p => esc p.1) ∧
    r.edges = g.edges ++ (tasks.flatMap fun p => p.2.after.map fun b => ⟨esc b, esc p.1, true⟩) ∧
    ∀ x, x ∈ r.relations ↔ x ∈ g.relations ∨ ∃ p ∈ tasks, x = (esc (box p.2.target), esc p.1) := by
  induction tasks generalizing g with
  | nil => simp
  | cons p tasks ih =>
    have hp : esc p.1 ∉ g.nodes := by
      intro h
      rw [List.nodup_append] at hnd
      exact hnd.2.2 _ h _ (by simp) rfl
    obtain ⟨h1, h2, h3, h4, h5, h6, h7⟩ := relate_fields
      { g with nodes := if esc p.1 ∈ g.nodes then g.nodes else g.nodes ++ [esc p.1] }
      (esc (box p.2.target)) (esc p.1)
    have hstep : ∃ g', addTask esc g p = g' ∧ g'.name = g.name ∧ g'.directed = g.directed ∧
        g'.attrs = g.attrs ∧ g'.subGraphs = g.subGraphs ∧ g'.nodes = g.nodes ++ [esc p.1] ∧
        g'.edges = g.edges ++ (p.2.after.map fun b => ⟨esc b, esc p.1, true⟩) ∧
        ∀ x, x ∈ g'.relations ↔ x ∈ g.relations ∨ x = (esc (box p.2.target), esc p.1) := by
      refine ⟨_, rfl, ?_⟩
      rw [addTask, edges_fold]
      refine ⟨h1, h2, h3, h4, ?_, ?_, h7⟩
      · exact h5.trans (if_neg hp)
      · exact congrArg (· ++ _) h6
    obtain ⟨g', e, s1, s2, s3, s4, s5, s6, s7⟩ := hstep
    obtain ⟨r1, r2, r3, r4, r5, r6, r7⟩ := ih g' (by rw [s5]; simpa using hnd)
    rw [List.foldl_cons, e]
    refine ⟨r1.trans s1, r2.trans s2, r3.trans s3, r4.trans s4, ?_, ?_, fun x => ?_⟩
    · rw [r5, s5]; simp
    · rw [r6, s6]; simp
    · rw [r7, s7]
      simp only [List.mem_cons, exists_eq_or_imp, or_assoc]

theorem nodup_map {α : Type} {l : GoMap Str α} {f : Str → Str} (h : l.WF)
    (hf : ∀ p ∈ l, ∀ q ∈ l, f p.1 = f q.1 → p.1 = q.1) : (l.map fun p => f p.1).Nodup := by
  have : (l.map fun p => f p.1) = (l.map Prod.fst).map f := by simp
  rw [this]
  refine List.Nodup.map_on ?_ h
  intro a ha b hb e
  obtain ⟨p, hp, rfl⟩ := List.mem_map.1 ha
  obtain ⟨q, hq, rfl⟩ := List.mem_map.1 hb
  exact hf p hp q hq e

/-- **C101.** The graph drawn for a runbook shows it, in whatever order the maps are iterated over, if
what is written for different names is different. -/
theorem C101_draws_runbook (esc : Str → Str) (book : Runbook) (splines : Str) (h1 : book.targets.WF)
    (h2 : book.tasks.WF) (ha : Apart esc book) : Shows esc book splines (draw esc book splines) := by
  have hs : start esc splines =
      { directed := true, name := esc b!"runbook",
        attrs := (esc b!"newrank", esc b!"true") ::
          (if splines = [] then [] else [(esc b!"splines", esc splines)]) } := by
    unfold start
    by_cases h : splines = []
    · simp [h, Graph.addAttr, GoMap.set]
    · simp [h, Graph.addAttr, GoMap.set, ha.names]
  have hb := nodup_map (f := fun q => esc (box q)) h1 ha.boxes
  obtain ⟨r1, r2, r3, r4, r5, r6, r7⟩ := targets_fold (esc := esc) (book.targets.map Prod.fst)
    (start esc splines) (by rw [hs]) (by
      intro q hq
      obtain ⟨p, hp, rfl⟩ := List.mem_map.1 hq
      exact ha.graph p hp) (by rw [hs]; simpa [GoMap.keys, Function.comp_def] using hb)
  have hn := nodup_map (f := esc) h2 ha.tasks
  obtain ⟨q1, q2, q3, q4, q5, q6, q7⟩ := tasks_fold (esc := esc) book.tasks
    ((book.targets.map Prod.fst).foldl (addTarget esc) (start esc splines))
    (by rw [r4, hs]; simpa using hn)
  have e4 : (draw esc book splines).subGraphs =
      book.targets.map fun p => (esc (box p.1), [(esc b!"label", esc p.1)]) := by
    rw [draw, q4, r6, hs]; simp
  have e5 : (draw esc book splines).nodes = book.tasks.map fun p => esc p.1 := by
    rw [draw, q5, r4, hs]; simp
  refine ⟨?_, ?_, ?_, e4, ?_, e5, ?_, ?_, ?_⟩
  · rw [draw, q1, r1, hs]
  · rw [draw, q2, r2, hs]
  · rw [draw, q3, r3, hs]
  · rw [e4]; simpa [Function.comp_def] using hb
  · rw [e5]; exact hn
  · intro parent child
    rw [draw, q7, r7, hs]
    simp only [List.not_mem_nil, false_or, List.mem_map, exists_exists_and_eq_and, Prod.mk.injEq]
    constructor
    · rintro (⟨p, hp, rfl, rfl⟩ | h)
      · exact .inl ⟨rfl, p, hp, rfl⟩
      · exact .inr h
    · rintro (⟨rfl, p, hp, rfl⟩ | h)
      · exact .inl ⟨p, hp, rfl, rfl⟩
      · exact .inr h
  · rw [draw, q6, r5, hs]; simp

/-- **C101, for files.** The graph drawn for a file that was read shows the targets, tasks and
dependencies the file lists (see C93). -/
theorem C101_draws_file (esc : Str → Str) (tx : Json.Text) (basedir : Str) (doc : Json.Value)
    (hp : Json.Spec.Plain doc) (book : Runbook) (h : Json.parse tx basedir doc = .ok book) (splines : Str)
    (ha : Apart esc book) :
    Json.Spec.Describes basedir doc book ∧ Shows esc book splines (draw esc book splines) := by
  obtain ⟨hd, h1, h2⟩ := Json.C93_reads_partial tx basedir doc hp book h
  exact ⟨hd, C101_draws_runbook esc book splines h1 h2 ha⟩

/-- **C101, for the command.** If `pgutil runbook dot` exits with status 0 (and writing does not fail) the
output holds the text of a graph that shows the runbook of the file, and nothing else. -/
theorem C101_command {F N : Type} (env : Main.Env F N) (hw : Main.Spec.Writes env.os) (message : Str)
    (esc : Str → Str) (print : Graph → Str)
    (hg : env.libs.graph = fun book splines => print (draw esc book splines))
    (hwf : ∀ files file book, env.libs.parse files file = .ok book → book.targets.WF ∧ book.tasks.WF)
    (c : Cmd.DotCmd) (w w' : Cmd.World) (h : Main.main env message (some (.dot c)) w = (w', 0)) :
    ∃ files book g, Main.Spec.Seen c.target w files ∧ env.libs.parse files c.file = .ok book ∧
      Main.Spec.Left c.target (print g) w w' ∧ (Apart esc book → Shows esc book c.splines g) := by
  rcases Main.C96_exit_status_partial env hw message (.dot c) w _ _ h with ⟨-, hd⟩ | ⟨e, -⟩
  · obtain ⟨files, book, h1, h2, h3⟩ := hd
    rw [hg] at h3
    obtain ⟨w1, w2⟩ := hwf _ _ _ h2
    exact ⟨files, book, _, h1, h2, h3, C101_draws_runbook esc book c.splines w1 w2⟩
  · cases e

/-! ## An example -/

/-- Two targets, three tasks. -/
def sample : Runbook where
  targets := [(b!"db", .demo {}), (b!"host", .demo {})]
  tasks := [(b!"stop", ⟨b!"host", [], [], .echo⟩), (b!"dump", ⟨b!"db", [b!"stop"], [], .echo⟩),
    (b!"start", ⟨b!"host", [b!"dump", b!"stop"], [], .echo⟩)]

/-- Names of letters are written as they are. -/
example : Apart id sample := by
  refine ⟨?_, ?_, ?_, ?_⟩ <;> simp [sample, box]

example : (draw id sample b!"ortho").edges =
    [⟨b!"stop", b!"dump", true⟩, ⟨b!"dump", b!"start", true⟩, ⟨b!"stop", b!"start", true⟩] ∧
    (draw id sample b!"ortho").relations =
      [(b!"runbook", b!"cluster_db"), (b!"runbook", b!"cluster_host"), (b!"cluster_host", b!"stop"),
       (b!"cluster_db", b!"dump"), (b!"cluster_host", b!"start")] := by
  decide +kernel

end Verif.Dot
