import Verif.Run.Output
import Verif.Run.Exact

/-!
# C86: everything a run does, in its order
-/

namespace Verif.Run
open Verif Book Spec

variable {dec : Decoder} {basedir : Str} {proc : Proc} {src : Src} {book : Runbook} {st : Runner.St} {w : World}

theorem mem_callsAt {environ : List Str} {e : Runner.Event} {x : Str × Call × Bool}
    (h : x ∈ callsAt environ book e) : ∃ q, e = .handleEnd q x.1 x.2.2 ∧ x.2.1 ∈ callsOf environ book q x.1 := by
  cases e with
  | handleEnd q t ok =>
    simp only [callsAt, List.mem_map] at h
    obtain ⟨c, hc, rfl⟩ := h
    exact ⟨q, rfl, hc⟩
  | _ => simp [callsAt] at h

theorem callsOf_length {environ : List Str} {q t : Str} : (callsOf environ book q t).length ≤ 1 := by
  unfold callsOf
  split
  · simp
  · rename_i s x _ _
    cases x.command (s.start environ) <;> simp
  · simp

/-- The calls of two events of a run are those of different tasks, and the earlier one's does not follow the later one's. -/
theorem calls_pairwise (hj : Json dec) (hw1 : src.targets.WF) (hw2 : src.tasks.WF)
    (hne : ∀ o, ([], o) ∉ src.tasks) (h : Reach dec basedir proc src (.running book st w)) :
    w.calls.Pairwise fun a b => a.1 ≠ b.1 ∧ ¬ Follows src a.1 b.1 := by
  have hp := parsed hj hw1 hw2 h.parse
  rw [h.calls hj hw1 hw2]
  have key : ∀ tr s, st.trace = s ++ tr → (tr.flatMap (callsAt proc.environ book)).Pairwise
      fun a b => a.1 ≠ b.1 ∧ ¬ Follows src a.1 b.1 := by
    intro tr
    induction tr with
    | nil => intros; exact List.Pairwise.nil
    | cons e tr ih =>
      intro s he
      rw [List.flatMap_cons, List.pairwise_append]
      refine ⟨?_, ih (s ++ [e]) (by rw [he]; simp), ?_⟩
      · have hl : (callsAt proc.environ book e).length ≤ 1 := by
          cases e with
          | handleEnd q t ok => simp only [callsAt, List.length_map]; exact callsOf_length
          | _ => simp [callsAt]
        rcases hc : callsAt proc.environ book e with _ | ⟨x, _ | ⟨y, l⟩⟩
        · exact List.Pairwise.nil
        · exact List.pairwise_singleton _ _
        · simp [hc] at hl
      · intro a ha b hb
        obtain ⟨q, rfl, _⟩ := mem_callsAt ha
        obtain ⟨e', he', hb'⟩ := List.mem_flatMap.1 hb
        obtain ⟨q', rfl, _⟩ := mem_callsAt hb'
        refine ⟨fun hab => ?_, fun hf => ?_⟩
        · exact end_once hp h.runner he q' b.2.2 (by rw [hab]; simp [he'])
        · obtain ⟨q2, h2⟩ := follows_end hj hw1 hw2 hne h hf he
          obtain ⟨t1, t2, rfl⟩ := List.append_of_mem he'
          refine end_once hp h.runner (p := s ++ .handleEnd q a.1 a.2.2 :: t1) (s := t2) (q := q') (t := b.1) (ok := b.2.2)
            (by rw [he]; simp) q2 true ?_
          simp [h2]
  exact key st.trace [] rfl

/-- **C86, the whole run.** The statements sent and commands run in a run are those of different tasks of the file that
are not demo tasks, one for each, as `Does` says.  None of them belongs to a task that comes, directly or not, after
that of a later one; when one has been sent or run, those of all tasks its task comes after have been, with success.
If the dependencies are in order and `Run` returned nil, they are those of all the tasks of the file but the demo tasks,
and all of them succeeded. -/
theorem C86_sequence (hj : Json dec) (hw1 : src.targets.WF) (hw2 : src.tasks.WF)
    (hne : ∀ o, ([], o) ∉ src.tasks) (h : Reach dec basedir proc src (.running book st w)) :
    (w.calls.map Prod.fst).Nodup ∧ (w.calls.map Prod.fst).Pairwise (fun a b => ¬ Follows src a b) ∧
    (∀ x ∈ w.calls, ∃ task tgt, (x.1, task) ∈ book.tasks ∧ (task.target, tgt) ∈ book.targets ∧
      Does proc.environ task.target tgt task.config [x.2.1]) ∧
    (∀ x ∈ w.calls, ∀ m task tgt, Follows src x.1 m → (m, task) ∈ book.tasks → (task.target, tgt) ∈ book.targets →
      (∀ d, tgt ≠ .demo d) → ∃ c, (m, c, true) ∈ w.calls) ∧
    (Ordered src → st.main = .returned none → (∀ x ∈ w.calls, x.2.2 = true) ∧
      ∀ id task tgt, (id, task) ∈ book.tasks → (task.target, tgt) ∈ book.targets → (∀ d, tgt ≠ .demo d) →
        id ∈ w.calls.map Prod.fst) := by
  have hp := parsed hj hw1 hw2 h.parse
  have hpw := calls_pairwise hj hw1 hw2 hne h
  have hcalls := h.calls hj hw1 hw2
  have ended : ∀ {x}, x ∈ w.calls → ∃ q, .handleEnd q x.1 x.2.2 ∈ st.trace ∧ x.2.1 ∈ callsOf proc.environ book q x.1 := by
    intro x hx
    rw [hcalls] at hx
    obtain ⟨e, he, hxe⟩ := List.mem_flatMap.1 hx
    obtain ⟨q, rfl, hc⟩ := mem_callsAt hxe
    exact ⟨q, he, hc⟩
  have made : ∀ {id q ok task tgt}, .handleEnd q id ok ∈ st.trace → (id, task) ∈ book.tasks →
      (task.target, tgt) ∈ book.targets → (∀ d, tgt ≠ .demo d) → ∃ c, (id, c, ok) ∈ w.calls := by
    intro id q ok task tgt he hk ht hd
    obtain ⟨_, calls, hdoes, hf⟩ := (C86_effects hj hw1 hw2 h hk ht).1 q ok he
    have hin : ∀ c, c ∈ calls → (id, c, ok) ∈ w.calls := by
      intro c hc
      have : (id, c, ok) ∈ w.calls.filter (fun c => c.1 = id) := by rw [hf]; exact List.mem_map.2 ⟨c, hc, rfl⟩
      exact List.mem_of_mem_filter this
    generalize task.config = cfg at hdoes
    cases hdoes with
    | sql => exact ⟨_, hin _ List.mem_cons_self⟩
    | command => exact ⟨_, hin _ List.mem_cons_self⟩
    | @demo t _ => exact absurd rfl (hd t)
  refine ⟨?_, ?_, ?_, ?_, ?_⟩
  · rw [List.Nodup, List.pairwise_map]
    exact hpw.imp And.left
  · rw [List.pairwise_map]
    exact hpw.imp And.right
  · intro x hx
    obtain ⟨q, he, hc⟩ := ended hx
    obtain ⟨task, t0, d, h1, rfl, h3, _⟩ := h.outcome hj hw1 hw2 he
    refine ⟨task, t0, GoMap.mem_of_get? h1, GoMap.mem_of_get? h3, ?_⟩
    have hdoes := callsOf_does hp (environ := proc.environ) h1 h3
    have hl := callsOf_length (book := book) (environ := proc.environ) (q := task.target) (t := x.1)
    generalize callsOf proc.environ book task.target x.1 = l at *
    rcases l with _ | ⟨y, _ | ⟨z, l⟩⟩
    · simp at hc
    · simp only [List.mem_singleton] at hc
      subst hc
      exact hdoes
    · simp at hl
  · intro x hx m task tgt hf hk ht hd
    obtain ⟨q, he, _⟩ := ended hx
    obtain ⟨p, s, e⟩ := List.append_of_mem he
    obtain ⟨q', hm⟩ := follows_end hj hw1 hw2 hne h hf e
    exact made (q := q') (by rw [e]; simp [hm]) hk ht hd
  · intro ho hret
    have all := C85_success_means_done_partial hj hw1 hw2 ho h hret
    have hdone : ∀ {id task}, (id, task) ∈ book.tasks → ∃ q, .handleEnd q id true ∈ st.trace := by
      intro id task hk
      obtain ⟨s, hs, _⟩ := ((C35_parse_result _ basedir src book hw1 hw2 h.parse).2.2.2 id task).mp hk
      obtain ⟨q, _, pre, mid, post, _, htr, _⟩ := all id s hs
      exact ⟨q, by rw [htr]; simp⟩
    refine ⟨?_, ?_⟩
    · intro x hx
      obtain ⟨q, he, _⟩ := ended hx
      obtain ⟨task, _, _, h1, _⟩ := h.outcome hj hw1 hw2 he
      obtain ⟨q', he'⟩ := hdone (GoMap.mem_of_get? h1)
      by_contra hfalse
      have hfalse : x.2.2 = false := by simpa using hfalse
      rw [hfalse] at he
      obtain ⟨p, s, e⟩ := List.append_of_mem he
      refine end_once hp h.runner e q' true ?_
      rw [e] at he'
      simpa using he'
    · intro id task tgt hk ht hd
      obtain ⟨q, he⟩ := hdone hk
      obtain ⟨c, hc⟩ := made he hk ht hd
      exact List.mem_map.2 ⟨_, hc, rfl⟩

/-- A task that follows one whose deed is in the list has its own later. -/
theorem before_of {l : List Str} (h2 : l.Pairwise (fun a b => ¬ Follows src a b))
    (h1 : l.Nodup) {a b : Str} (ha : a ∈ l) (hb : b ∈ l) (hne : a ≠ b) (hf : Follows src b a) : Before l a b := by
  obtain ⟨pre, post, rfl⟩ := List.append_of_mem hb
  refine ⟨pre, post, rfl, ?_⟩
  rw [List.pairwise_append] at h2
  rw [List.pairwise_cons] at h2
  have hpost : a ∉ b :: post := by
    intro hin
    rcases List.mem_cons.1 hin with e | hin
    · exact hne e
    · exact h2.2.1.1 a hin hf
  refine ⟨?_, hpost⟩
  rcases List.mem_append.1 ha with h | h
  · exact h
  · exact absurd h hpost

/-- What is done is what the configs say. -/
theorem calls_deeds (hj : Json dec) (hw1 : src.targets.WF) (hw2 : src.tasks.WF)
    (hne : ∀ o, ([], o) ∉ src.tasks) (h : Reach dec basedir proc src (.running book st w)) :
    ∀ x ∈ w.calls, (x.1, deed x.2.1) ∈ deeds basedir book := by
  have hp := parsed hj hw1 hw2 h.parse
  obtain ⟨_, _, h3, _⟩ := C86_sequence hj hw1 hw2 hne h
  intro x hx
  obtain ⟨task, tgt, hk, ht, hd⟩ := h3 x hx
  refine List.mem_filterMap.2 ⟨_, hk, ?_⟩
  simp only [Says]
  generalize hcfg : task.config = cfg at hd
  generalize hc : [x.2.1] = cs at hd
  cases hd with
  | sql =>
    simp only [List.cons.injEq, and_true] at hc
    simp [hc, deed]
  | @command t _ _ _ c e1 e2 e3 _ =>
    have := hp.basedir _ t (GoMap.get?_of_mem hp.wfT ht)
    simp only [List.cons.injEq, and_true] at hc
    rw [hc]
    simp [deed, e1, e2, e3, this]
  | demo => cases hc

theorem says_of (hw : book.tasks.WF) {id : Str} {task : Task} {d : Deed} (hk : (id, task) ∈ book.tasks)
    (h : (id, d) ∈ deeds basedir book) : Says basedir task = some d := by
  obtain ⟨⟨_, task'⟩, hk', he⟩ := List.mem_filterMap.1 h
  rw [Option.map_eq_some_iff] at he
  obtain ⟨d', hs, e⟩ := he
  simp only [Prod.mk.injEq] at e
  obtain ⟨rfl, rfl⟩ := e
  have := GoMap.get?_of_mem hw hk'
  rw [GoMap.get?_of_mem hw hk] at this
  cases this
  exact hs

/-- **C86, a successful run.** If the dependencies are in order and `Run` returned nil, what was sent and run is exactly
what the configs of the tasks say, each once and with success, in an order in which each task comes after all those it
is written, directly or not, to come after. -/
theorem C86_all (hj : Json dec) (hw1 : src.targets.WF) (hw2 : src.tasks.WF)
    (hne : ∀ o, ([], o) ∉ src.tasks) (ho : Ordered src) (h : Reach dec basedir proc src (.running book st w))
    (hret : st.main = .returned none) :
    (w.calls.map fun x => (x.1, deed x.2.1)).Perm (deeds basedir book) ∧ (∀ x ∈ w.calls, x.2.2 = true) ∧
    ∀ a b, a ∈ (deeds basedir book).map Prod.fst → b ∈ (deeds basedir book).map Prod.fst → Follows src b a →
      Before (w.calls.map Prod.fst) a b := by
  have hp := parsed hj hw1 hw2 h.parse
  obtain ⟨h1, h2, h3, h4, h5⟩ := C86_sequence hj hw1 hw2 hne h
  obtain ⟨hok, hall⟩ := h5 ho hret
  have hperm : (w.calls.map fun x => (x.1, deed x.2.1)).Perm (deeds basedir book) := by
    have n1 : (w.calls.map fun x => (x.1, deed x.2.1)).Nodup := by
      refine List.Nodup.of_map Prod.fst ?_
      rw [List.map_map]
      exact h1
    have e2 : ∀ l : List (Str × Task), ((l.filterMap fun p => (Says basedir p.2).map fun d => (p.1, d)).map
        Prod.fst).Sublist (l.map Prod.fst) := by
      intro l
      induction l with
      | nil => simp
      | cons p l ih =>
        rw [List.filterMap_cons]
        cases Says basedir p.2 with
        | none => exact List.Sublist.cons _ ih
        | some d => exact List.Sublist.cons_cons _ ih
    have n2 : (deeds basedir book).Nodup := List.Nodup.of_map Prod.fst ((e2 _).nodup hp.wfK)
    rw [List.perm_ext_iff_of_nodup n1 n2]
    have step := calls_deeds hj hw1 hw2 hne h
    rintro ⟨id, d⟩
    constructor
    · intro hin
      obtain ⟨x, hx, e⟩ := List.mem_map.1 hin
      rw [← e]
      exact step x hx
    · intro hin
      obtain ⟨⟨id', task⟩, hk, he⟩ := List.mem_filterMap.1 hin
      rw [Option.map_eq_some_iff] at he
      obtain ⟨d', hs, e⟩ := he
      simp only [Prod.mk.injEq] at e
      obtain ⟨rfl, rfl⟩ := e
      obtain ⟨tgt, ht, hcfg⟩ := hp.task _ task (GoMap.get?_of_mem hp.wfK hk)
      have hin' := hall _ task tgt hk (GoMap.mem_of_get? ht) (by
        rintro t rfl
        simp only at hcfg
        unfold Says at hs
        rcases hcfg with e | e | e | e | ⟨_, e⟩ <;> simp [e] at hs)
      obtain ⟨x, hx, rfl⟩ := List.mem_map.1 hin'
      have hx' := step x hx
      obtain ⟨⟨_, task'⟩, hk', he⟩ := List.mem_filterMap.1 hx'
      rw [Option.map_eq_some_iff] at he
      obtain ⟨d'', hs', e⟩ := he
      cases e
      have := GoMap.get?_of_mem hp.wfK hk'
      rw [GoMap.get?_of_mem hp.wfK hk] at this
      cases this
      rw [hs] at hs'
      cases hs'
      exact List.mem_map.2 ⟨x, hx, rfl⟩
  refine ⟨hperm, hok, ?_⟩
  have hids := hperm.map Prod.fst
  rw [List.map_map] at hids
  intro a b ha hb hf
  refine before_of h2 h1 (hids.mem_iff.2 ha) (hids.mem_iff.2 hb) ?_ hf
  rintro rfl
  exact ho.acyclic _ hf

end Verif.Run
