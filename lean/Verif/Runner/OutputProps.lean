import Verif.Runner.Output
import Verif.Runner.Props

/-!
# C142: what tasks write does not get mixed up
-/

namespace Verif.Runner
open Verif Sched

variable {targets : GoMap Str Int} {tasks : GoMap Str Task} {s : Shown}

/-- The events of the runner that have been seen. -/
def events (log : List Item) : List Event :=
  log.filterMap fun
    | .event e => some e
    | .wrote .. => none

@[simp] theorem events_append (a b : List Item) : events (a ++ b) = events a ++ events b := List.filterMap_append

@[simp] theorem events_cons_event (e : Event) (a : List Item) : events (.event e :: a) = e :: events a := rfl

@[simp] theorem events_cons_wrote (q t c : Str) (a : List Item) : events (.wrote q t c :: a) = events a := rfl

@[simp] theorem events_nil : events [] = [] := rfl

@[simp] theorem events_map (l : List Event) : events (l.map .event) = l := by
  induction l with
  | nil => rfl
  | cons e l ih => rw [List.map_cons, events_cons_event, ih]

theorem mem_events {e : Event} {log : List Item} : e ∈ events log ↔ .event e ∈ log := by
  unfold events
  rw [List.mem_filterMap]
  constructor
  · rintro ⟨x, hx, h⟩
    cases x with
    | event e' => cases h; exact hx
    | wrote => cases h
  · intro h
    exact ⟨_, h, rfl⟩

theorem ShownReach.reach (h : ShownReach targets tasks s) : Reach targets tasks s.st ∧ s.st.trace = events s.log := by
  induction h with
  | init order h => exact ⟨.init order h, rfl⟩
  | step _ hs ih =>
    cases hs with
    | act new hs hn => exact ⟨.step ih.1 hs, by rw [hn, ih.2]; simp⟩
    | write => exact ⟨ih.1, by rw [ih.2]; simp⟩

/-- When something is written the task is being executed. -/
theorem ShownReach.at_write (h : ShownReach targets tasks s) {pre post : List Item} {q t c : Str}
    (e : s.log = pre ++ .wrote q t c :: post) :
    ∃ st, Reach targets tasks st ∧ st.trace = events pre ∧ st.tgt q = .running t := by
  induction h generalizing post with
  | init order h => simp at e
  | @step s s' h hs ih =>
    cases hs with
    | act new hs hn =>
      rcases List.append_eq_append_iff.1 e with ⟨a, e1, e2⟩ | ⟨a, e1, e2⟩
      · cases new with
        | nil =>
          simp at e2
        | cons x new =>
          have : Item.wrote q t c ∈ (x :: new).map Item.event := by rw [e2]; simp
          obtain ⟨y, _, hy⟩ := List.mem_map.1 this
          cases hy
      · cases a with
        | nil =>
          rw [List.nil_append] at e2
          cases new with
          | nil => cases e2
          | cons x new => cases e2
        | cons x a =>
          rw [List.cons_append] at e2
          cases e2
          exact ih e1
    | write q' t' c' hr =>
      simp only at e
      rcases List.eq_nil_or_concat post with rfl | ⟨post', x, rfl⟩
      · have e' : s.log ++ [Item.wrote q' t' c'] = pre ++ [Item.wrote q t c] := e
        obtain ⟨e1, e2⟩ := List.append_inj' e' rfl
        cases e2
        exact ⟨_, h.reach.1, by rw [h.reach.2, e1], hr⟩
      · rw [List.concat_eq_append, ← List.cons_append, ← List.append_assoc] at e
        exact ih (List.append_inj' e rfl).1

/-- A task that is being executed has begun and not ended. -/
theorem running_facts (wf : targets.WF) (wft : tasks.WF) {st : St} (h : Reach targets tasks st) {q t : Str}
    (hr : st.tgt q = .running t) : .handleStart q t ∈ st.trace ∧ ∀ q' ok, .handleEnd q' t ok ∉ st.trace := by
  obtain ⟨hc, hf⟩ := h.inv wf wft
  refine ⟨hf.runTr q t hr, ?_⟩
  intro q' ok he
  have hk : q ∈ targets.keys := by
    exact hc.isTarget q (by rw [hr]; simp)
  have h1 : 1 ≤ nRuns targets st t := by
    unfold nRuns
    rw [Nat.one_le_iff_ne_zero, ← Nat.pos_iff_ne_zero, List.countP_pos_iff]
    exact ⟨q, hk, by simp [hr, TgtPC.runs]⟩
  have h2 : 1 ≤ ends st.trace t := by
    unfold ends
    rw [Nat.one_le_iff_ne_zero, ← Nat.pos_iff_ne_zero, List.countP_pos_iff]
    exact ⟨_, he, by simp [Event.isEnd]⟩
  have := hf.le_one wft t
  have := hf.nends t
  omega

/-- **C142, when.** A task writes after it has begun and before it ends. -/
theorem C142_while_it_runs (wf : targets.WF) (wft : tasks.WF) (h : ShownReach targets tasks s) {pre post : List Item}
    {q t c : Str} (e : s.log = pre ++ .wrote q t c :: post) :
    .event (.handleStart q t) ∈ pre ∧ ∀ q' ok, .event (.handleEnd q' t ok) ∉ pre := by
  obtain ⟨st, h1, h2, h3⟩ := h.at_write e
  obtain ⟨h4, h5⟩ := running_facts wf wft h1 h3
  rw [h2] at h4 h5
  exact ⟨mem_events.1 h4, fun q' ok hm => h5 q' ok (mem_events.2 hm)⟩

/-- `m` has to end before `t` begins, because `t` depends on it or on something that does. -/
def Below (tasks : GoMap Str Task) (t m : Str) : Prop := Relation.TransGen (After tasks) t m

theorem below_ended (wf : targets.WF) (wft : tasks.WF) (hn : b!"" ∉ tasks.keys) {st : St} (h : Reach targets tasks st)
    {t m : Str} (hm : Below tasks t m) :
    ∀ {q : Str}, .handleStart q t ∈ st.trace → m ∈ tasks.keys → ∃ q', .handleEnd q' m true ∈ st.trace := by
  have key : ∀ {q t m : Str}, .handleStart q t ∈ st.trace → After tasks t m → m ≠ b!"" →
      ∃ q', .handleEnd q' m true ∈ st.trace := by
    intro q t m hs ha hm0
    obtain ⟨pre, post, e⟩ := List.append_of_mem hs
    obtain ⟨q', _, _, _, h5⟩ := C18_run_dependency_order_partial wf wft h e ha hm0
    exact ⟨q', by rw [e]; exact List.mem_append_left _ h5⟩
  obtain ⟨hc, hf⟩ := h.inv wf wft
  induction hm with
  | single ha => exact fun hs hk => key hs ha (fun e => hn (e ▸ hk))
  | @tail b m hb ha ih =>
    intro q hs hk
    have hbk : b ∈ tasks.keys := by
      obtain ⟨task, h1, _⟩ := ha
      exact GoMap.mem_keys_of_get? h1
    obtain ⟨q', hq'⟩ := ih hs hbk
    exact key (hf.endTr q' b true hq') ha (fun e => hn (e ▸ hk))

theorem wrote_task (wf : targets.WF) (wft : tasks.WF) (h : ShownReach targets tasks s) {q t c : Str}
    (e : .wrote q t c ∈ s.log) : ∃ task, tasks.get? t = some task ∧ task.target = q := by
  obtain ⟨pre, post, e⟩ := List.append_of_mem e
  obtain ⟨st, h1, _, h3⟩ := h.at_write e
  exact (C19_run_at_most_once_one_per_target wf wft h1).2.1 q t (running_facts wf wft h1 h3).1

/-- **C142, dependencies.** A task that has to end before another one begins has written everything before the other
one writes anything. -/
theorem C142_dependencies_first_partial (wf : targets.WF) (wft : tasks.WF) (hn : b!"" ∉ tasks.keys)
    (h : ShownReach targets tasks s) {pre post : List Item} {q t c : Str} (e : s.log = pre ++ .wrote q t c :: post)
    {m : Str} (hm : Below tasks t m) (q' c' : Str) : .wrote q' m c' ∉ post := by
  intro hp
  obtain ⟨mid, post', rfl⟩ := List.append_of_mem hp
  obtain ⟨st, h1, h2, h3⟩ := h.at_write e
  have hs := (running_facts wf wft h1 h3).1
  have hk : m ∈ tasks.keys := by
    obtain ⟨task, h4, _⟩ := wrote_task wf wft h (q := q') (t := m) (c := c') (by rw [e]; simp)
    exact GoMap.mem_keys_of_get? h4
  obtain ⟨q2, h4⟩ := below_ended wf wft hn h1 hm hs hk
  have e' : s.log = (pre ++ .wrote q t c :: mid) ++ .wrote q' m c' :: post' := by rw [e]; simp
  refine (C142_while_it_runs wf wft h e').2 q2 true (List.mem_append_left _ ?_)
  rw [h2] at h4
  exact mem_events.1 h4

/-- **C142, one target.** What the tasks of one target write does not mix: once another one has written something the
first writes no more. -/
theorem C142_one_target (wf : targets.WF) (wft : tasks.WF) (h : ShownReach targets tasks s)
    {pre mid post : List Item} {q t t' c c' : Str} (e : s.log = pre ++ .wrote q t c :: (mid ++ .wrote q t' c' :: post))
    (hne : t ≠ t') (c'' : Str) : .wrote q t c'' ∉ post := by
  intro hp
  obtain ⟨mid', post', rfl⟩ := List.append_of_mem hp
  have e1 : s.log = (pre ++ .wrote q t c :: mid) ++ .wrote q t' c' :: (mid' ++ .wrote q t c'' :: post') := by
    rw [e]; simp
  have e2 : s.log = (pre ++ .wrote q t c :: (mid ++ .wrote q t' c' :: mid')) ++ .wrote q t c'' :: post' := by
    rw [e]; simp
  obtain ⟨a1, -⟩ := C142_while_it_runs wf wft h e
  obtain ⟨st1, r1, tr1, run1⟩ := h.at_write e1
  obtain ⟨st2, r2, tr2, run2⟩ := h.at_write e2
  obtain ⟨b1, -⟩ := running_facts wf wft r1 run1
  -- at the second write the first task has begun, and not on this target any more
  obtain ⟨hc1, hf1⟩ := r1.inv wf wft
  have a1' : .handleStart q t ∈ st1.trace := by
    rw [tr1]; exact mem_events.2 (List.mem_append_left _ a1)
  rcases (r1.tinv wf wft).progress q t a1' with hr | ⟨ok, hr⟩
  · rw [run1] at hr
    cases hr
    exact hne rfl
  · refine (running_facts wf wft r2 run2).2 q ok ?_
    rw [tr2]
    rw [tr1] at hr
    simp only [events_append, events_cons_wrote] at hr ⊢
    simp only [List.mem_append] at hr ⊢
    tauto

/-! ## The whole output -/

theorem mem_pieces {log : List Item} {t c : Str} : (t, c) ∈ pieces log ↔ ∃ q, .wrote q t c ∈ log := by
  unfold pieces
  rw [List.mem_filterMap]
  constructor
  · rintro ⟨x, hx, h⟩
    cases x with
    | event e => cases h
    | wrote q t' c' => cases h; exact ⟨q, hx⟩
  · rintro ⟨q, h⟩
    exact ⟨_, h, rfl⟩

/-- Pieces that follow each other were written one after the other. -/
theorem pieces_split {log : List Item} {a b : List (Str × Str)} {t c : Str} (e : pieces log = a ++ (t, c) :: b) :
    ∃ pre q post, log = pre ++ .wrote q t c :: post ∧ pieces pre = a ∧ pieces post = b := by
  unfold pieces at e
  obtain ⟨l1, l2, rfl, h1, h2⟩ := List.filterMap_eq_append_iff.1 e
  obtain ⟨l3, x, l4, rfl, h3, h4, h5⟩ := List.filterMap_eq_cons_iff.1 h2
  cases x with
  | event e => cases h4
  | wrote q t' c' =>
    cases h4
    refine ⟨l1 ++ l3, q, l4, by simp, ?_, h5⟩
    unfold pieces
    rw [List.filterMap_append, h1, List.filterMap_eq_nil_iff.2 h3, List.append_nil]

/-- Nobody goes on after somebody else has begun. -/
def InOnePiece (w : List (Str × Str)) : Prop :=
  ∀ a b d t c t' c', w = a ++ (t, c) :: (b ++ (t', c') :: d) → t ≠ t' → ∀ c'', (t, c'') ∉ d

theorem InOnePiece.tail {x : Str × Str} {w : List (Str × Str)} (h : InOnePiece (x :: w)) : InOnePiece w := by
  intro a b d t c t' c' e hne c''
  exact h (x :: a) b d t c t' c' (by rw [e]; rfl) hne c''

theorem InOnePiece.joins {w : List (Str × Str)} (h : InOnePiece w) :
    ∃ ts : List Str, ts.Nodup ∧ ts.Sublist (w.map Prod.fst) ∧ (∀ p ∈ w, p.1 ∈ ts) ∧ ts.head? = w.head?.map Prod.fst ∧
      w.flatMap Prod.snd = ts.flatMap fun t => (w.filter (·.1 = t)).flatMap Prod.snd := by
  induction w with
  | nil => exact ⟨[], by simp⟩
  | cons x w ih =>
    obtain ⟨ts, h1, h2, h3, h4, h5⟩ := ih h.tail
    obtain ⟨t, c⟩ := x
    have other : ∀ l : List Str, t ∉ l → (l.flatMap fun u => (((t, c) :: w).filter (·.1 = u)).flatMap Prod.snd) =
        l.flatMap fun u => (w.filter (·.1 = u)).flatMap Prod.snd := by
      intro l hl
      induction l with
      | nil => rfl
      | cons u l ih =>
        simp only [List.mem_cons, not_or] at hl
        rw [List.flatMap_cons, List.flatMap_cons, ih hl.2, List.filter_cons_of_neg (by simpa using hl.1)]
    by_cases ht : t ∈ ts
    · -- it goes on
      have hw : ∃ c', (t, c') ∈ w := by
        obtain ⟨p, hp, e⟩ := List.mem_map.1 (h2.subset ht)
        exact ⟨p.2, by rw [← e]; exact hp⟩
      cases w with
      | nil => obtain ⟨_, h⟩ := hw; cases h
      | cons y w =>
        have hy : y.1 = t := by
          by_contra hne
          obtain ⟨c', hc'⟩ := hw
          rcases List.mem_cons.1 hc' with rfl | hc'
          · exact hne rfl
          · exact h [] [] w t c y.1 y.2 rfl (fun e => hne e.symm) c' hc'
        cases ts with
        | nil => cases ht
        | cons u ts =>
          simp only [List.head?_cons, Option.map_some, Option.some.injEq] at h4
          have hu : u = t := h4.trans hy
          subst hu
          refine ⟨u :: ts, h1, h2.trans (List.sublist_cons_self _ _), ?_, rfl, ?_⟩
          · intro p hp
            rcases List.mem_cons.1 hp with rfl | hp
            · simp
            · exact h3 p hp
          · rw [List.flatMap_cons, h5, List.flatMap_cons (xs := ts), List.flatMap_cons (xs := ts),
              other ts (List.nodup_cons.1 h1).1, List.filter_cons_of_pos (a := (u, c)) (by simp), List.flatMap_cons,
              List.append_assoc]
    · refine ⟨t :: ts, List.nodup_cons.2 ⟨ht, h1⟩, h2.cons_cons _, ?_, rfl, ?_⟩
      · intro p hp
        rcases List.mem_cons.1 hp with rfl | hp
        · simp
        · exact List.mem_cons_of_mem _ (h3 p hp)
      · rw [List.flatMap_cons, List.flatMap_cons, other ts ht, h5, List.filter_cons_of_pos (by simp), List.flatMap_cons,
          List.filter_eq_nil_iff.2 (by
            intro p hp hpt
            exact ht (by rw [← of_decide_eq_true hpt]; exact h3 p hp))]
        simp

/-- **C142 (partial), the whole of it.** If of any two tasks one has to end before the other begins, or both are tasks of
the same target, standard output is what the tasks have written, one after the other, in an order that follows the
dependencies.
Missing: tasks of different targets neither of which depends on the other (`C142_refuted`), and tasks named "". -/
theorem C142_one_after_the_other_partial (wf : targets.WF) (wft : tasks.WF) (hn : b!"" ∉ tasks.keys)
    (hrel : ∀ t t' task task', tasks.get? t = some task → tasks.get? t' = some task' →
      t = t' ∨ Below tasks t t' ∨ Below tasks t' t ∨ task.target = task'.target)
    (h : ShownReach targets tasks s) :
    ∃ ts : List Str, ts.Nodup ∧ screen s.log = ts.flatMap (written s.log) ∧
      ∀ t m, Below tasks t m → ¬ List.Sublist [t, m] ts := by
  have hone : InOnePiece (pieces s.log) := by
    intro a b d t c t' c' e hne c'' hmem
    obtain ⟨pre, q, post, e1, -, e2⟩ := pieces_split e
    obtain ⟨mid, q', post', rfl, -, e3⟩ := pieces_split e2
    rw [← e3] at hmem
    obtain ⟨q'', hq''⟩ := mem_pieces.1 hmem
    obtain ⟨task, k1, k2⟩ := wrote_task wf wft h (q := q) (t := t) (c := c) (by rw [e1]; simp)
    obtain ⟨task', k3, k4⟩ := wrote_task wf wft h (q := q') (t := t') (c := c') (by rw [e1]; simp)
    obtain ⟨task2, k5, k6⟩ := wrote_task wf wft h (q := q'') (t := t) (c := c'') (by
      rw [e1]
      exact List.mem_append_right _ (List.mem_cons_of_mem _ (List.mem_append_right _ (List.mem_cons_of_mem _ hq''))))
    rw [k1] at k5
    cases k5
    rcases hrel t t' task task' k1 k3 with rfl | hb | hb | ht
    · exact hne rfl
    · exact C142_dependencies_first_partial wf wft hn h e1 hb q' c' (by simp)
    · exact C142_dependencies_first_partial wf wft hn h
        (show s.log = (pre ++ .wrote q t c :: mid) ++ .wrote q' t' c' :: post' by rw [e1]; simp) hb q'' c'' hq''
    · have : q' = q := by rw [← k2, ← k4, ht]
      subst this
      have : q'' = q' := by rw [← k6, ← k2]
      subst this
      exact C142_one_target wf wft h e1 hne c'' hq''
  obtain ⟨ts, h1, h2, -, -, h5⟩ := hone.joins
  refine ⟨ts, h1, h5, ?_⟩
  intro t m hb hsub
  have hsub := hsub.trans h2
  obtain ⟨a, b, e, h6, h7⟩ := List.cons_sublist_iff.1 hsub
  obtain ⟨a', b', e1, rfl, rfl⟩ := List.map_eq_append_iff.1 e
  obtain ⟨p, hp, rfl⟩ := List.mem_map.1 h6
  obtain ⟨p', hp', rfl⟩ := List.mem_map.1 (List.singleton_sublist.1 h7)
  obtain ⟨x, y, rfl⟩ := List.append_of_mem hp
  have e2 : pieces s.log = x ++ (p.1, p.2) :: (y ++ b') := by rw [e1]; simp
  obtain ⟨pre, q, post, e3, -, e4⟩ := pieces_split e2
  have : (p'.1, p'.2) ∈ pieces post := by rw [e4]; exact List.mem_append_right _ hp'
  obtain ⟨q', hq'⟩ := mem_pieces.1 this
  exact C142_dependencies_first_partial wf wft hn h e3 hb q' _ hq'

/-- **C142, the end.** After `Run` has returned nothing more is written, if all targets could be started. -/
theorem C142_nothing_afterwards (wf : targets.WF) (wft : tasks.WF) (h : ShownReach targets tasks s) {e : Option RunErr}
    (hret : s.st.main = .returned e) (hs : ∀ q, .startFailed q ∉ s.st.trace) {s' : Shown}
    (hl : Relation.ReflTransGen (ShownStep targets tasks) s s') : s'.log = s.log := by
  have hno : ∀ s', ¬ ShownStep targets tasks s s' := by
    intro s' hstep
    obtain ⟨hr, -⟩ := h.reach
    obtain ⟨-, h1, h2⟩ := C25_clean_shutdown wf wft hr hret hs
    cases hstep with
    | act _ hs _ => exact h2 _ hs
    | write q t _ hrun =>
      obtain ⟨h3, h4⟩ := running_facts wf wft hr hrun
      obtain ⟨ok, h5⟩ := h1 q t h3
      exact h4 q ok h5
  rcases Relation.ReflTransGen.cases_head hl with rfl | ⟨c, hc, _⟩
  · rfl
  · exact absurd hc (hno c)

/-! ## Refutation and examples -/

def mixTargets : GoMap Str Int := [(b!"x", 1), (b!"y", 1)]

def mixTasks : GoMap Str Task := [(b!"a", ⟨b!"x", []⟩), (b!"b", ⟨b!"y", []⟩)]

/-- **C142 refuted.** Two tasks of different targets, neither of which depends on the other: what they write gets
mixed. -/
theorem C142_refuted : ∃ s, ShownReach mixTargets mixTasks s ∧ pieces s.log = [(b!"a", b!"1"), (b!"b", b!"x"), (b!"a", b!"2")] ∧
    written s.log b!"a" = b!"12" ∧ written s.log b!"b" = b!"x" ∧ screen s.log = b!"1x2" := by
  have r0 : ShownReach mixTargets mixTasks _ := .init [b!"x", b!"y"] (List.Perm.refl _)
  have r1 := r0.step (.act [.started b!"x"] (Step.targetStart _ b!"x" [b!"y"] rfl) rfl)
  have r2 := r1.step (.act [.started b!"y"] (Step.targetStart _ b!"y" [] rfl) rfl)
  have r3 := r2.step (.act [] (Step.targetsStarted _ rfl) rfl)
  have r4 := r3.step (.act [] (Step.schedNew _ _ _ _ rfl rfl (List.Perm.refl _)) rfl)
  have r5 := r4.step (.act [] (Step.schedSend _ _ (b!"x", b!"a") [(b!"y", b!"b")] rfl (by decide)) rfl)
  have r6 := r5.step (.act [] (Step.schedSend _ _ (b!"y", b!"b") [] rfl (by decide)) rfl)
  have r7 := r6.step (.act [] (Step.routerRecv _ b!"x" b!"a" [(b!"y", b!"b")] rfl rfl) rfl)
  have r8 := r7.step (.act [.handleStart b!"x" b!"a"] (Step.routerSend _ b!"x" b!"a" rfl rfl) rfl)
  have r9 := r8.step (.act [] (Step.routerRecv _ b!"y" b!"b" [] rfl rfl) rfl)
  have r10 := r9.step (.act [.handleStart b!"y" b!"b"] (Step.routerSend _ b!"y" b!"b" rfl rfl) rfl)
  have r11 := r10.step (.write b!"x" b!"a" b!"1" rfl)
  have r12 := r11.step (.write b!"y" b!"b" b!"x" rfl)
  have r13 := r12.step (.write b!"x" b!"a" b!"2" rfl)
  exact ⟨_, r13, rfl, rfl, rfl, rfl⟩

def rowTasks : GoMap Str Task := [(b!"a", ⟨b!"x", []⟩), (b!"b", ⟨b!"y", [b!"a"]⟩), (b!"c", ⟨b!"y", []⟩)]

/-- The hypotheses of `C142_one_after_the_other_partial`: "a" and "c" are the only tasks that can mix; without "c" there
are none. -/
example : b!"" ∉ GoMap.keys (rowTasks.take 2) ∧
    ∀ t t' task task', GoMap.get? (rowTasks.take 2) t = some task → GoMap.get? (rowTasks.take 2) t' = some task' →
      t = t' ∨ Below (rowTasks.take 2) t t' ∨ Below (rowTasks.take 2) t' t ∨ task.target = task'.target := by
  refine ⟨by decide, ?_⟩
  have hb : Below (rowTasks.take 2) b!"b" b!"a" := .single ⟨⟨b!"y", [b!"a"]⟩, rfl, by decide⟩
  have hk : ∀ t task, GoMap.get? (rowTasks.take 2) t = some task → t = b!"a" ∨ t = b!"b" := by
    intro t task h
    have := GoMap.mem_keys_of_get? h
    simpa [rowTasks, GoMap.keys] using this
  intro t t' task task' h1 h2
  rcases hk t task h1 with rfl | rfl <;> rcases hk t' task' h2 with rfl | rfl
  · exact .inl rfl
  · exact .inr (.inr (.inl hb))
  · exact .inr (.inl hb)
  · exact .inl rfl

end Verif.Runner
