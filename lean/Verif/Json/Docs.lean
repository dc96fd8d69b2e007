import Verif.Json.Props
import Verif.Run.Props

/-!
# Runs of a runbook file (C94), and what is checked even if settings are given twice (C93)
-/

namespace Verif.Json
open Verif Book Book.Spec Spec

/-- runbook.go:136-160 `Run` on a file that evaluates to `doc`: it is rejected by the first decode, or
goes on as in `Run.Reach`. -/
inductive Runs (tx : Text) (basedir : Str) (proc : Run.Proc) (doc : Value) : Run.Prog → Prop
  | undecodable {e : Str} (h : decodeFile tx doc = .error e) :
      Runs tx basedir proc doc (.rejected (.json e))
  | decoded {src : Src} {s : Run.Prog} (h : decodeFile tx doc = .ok src)
      (hr : Run.Reach (decoder tx) basedir proc src s) : Runs tx basedir proc doc s

namespace Spec

/-- The file says that task `t` is to come after `m`. -/
def Needs (doc : Value) (t m : Str) : Prop :=
  ∃ ms l, Lists doc b!"Tasks" t (.obj ms) ∧ ListSetting ms b!"After" l ∧ m ∈ l

/-- The dependencies name tasks of the file and have no cycle. -/
structure Ordered (doc : Value) : Prop where
  closed : ∀ t m, Needs doc t m → ∃ v, Lists doc b!"Tasks" m v
  acyclic : ∀ t, ¬ Relation.TransGen (Needs doc) t t

/-- The file lists the target `t` under `q`. -/
def HasTarget (basedir : Str) (doc : Value) (q : Str) (t : Target) : Prop :=
  ∃ v, Lists doc b!"Targets" q v ∧ TargetIs basedir v t

end Spec

variable {tx : Text} {basedir : Str} {doc : Value} {src : Src} {proc : Run.Proc}
  {book : Runbook} {st : Runner.St} {w : Run.World}

/-! ## The decoder keeps what it does not set -/

theorem map_ok {α β : Type} {f : α → β} {r : Except Str α} {b : β} (h : r.map f = .ok b) :
    ∃ a, r = .ok a ∧ b = f a := by
  cases r with
  | error e => cases h
  | ok a => exact ⟨a, rfl, (Except.ok.inj h).symm⟩

theorem decoder_target {m : Str} {t u : Target} (h : (decoder tx).target m t = .ok u) :
    ∃ v, decodeTarget v t = .ok u := by
  simp only [decoder] at h
  split at h
  · cases h
  · exact ⟨_, h⟩

theorem decoder_config {m : Str} {t u : Config} (h : (decoder tx).config m t = .ok u) :
    ∃ v, decodeConfig v t = .ok u := by
  simp only [decoder] at h
  split at h
  · cases h
  · exact ⟨_, h⟩

/-- What `Verif.Run` assumes of decoding is so. -/
theorem decoder_json (tx : Text) : Run.Spec.Json (decoder tx) := by
  constructor
  · intro m t u h
    obtain ⟨v, h⟩ := decoder_target h
    obtain ⟨a, _, rfl⟩ := map_ok h
    exact ⟨_, rfl⟩
  · intro m t u h
    obtain ⟨v, h⟩ := decoder_target h
    obtain ⟨a, ha, rfl⟩ := map_ok h
    obtain ⟨ms, _, hm⟩ := struct_iff.mp ha
    have := sh_lawful.keeps hm
    simp only [Prod.mk.injEq] at this
    exact ⟨_, rfl, this.1⟩
  · intro m t u h
    obtain ⟨v, h⟩ := decoder_target h
    obtain ⟨a, _, rfl⟩ := map_ok h
    exact ⟨_, rfl⟩
  · intro m t u h
    obtain ⟨v, h⟩ := decoder_config h
    obtain ⟨a, _, rfl⟩ := map_ok h
    exact ⟨_, rfl⟩
  · intro m t u h
    obtain ⟨v, h⟩ := decoder_config h
    obtain ⟨a, _, rfl⟩ := map_ok h
    exact ⟨_, rfl⟩
  iterate 4
    · intro m u h
      obtain ⟨v, h⟩ := decoder_config h
      obtain ⟨a, _, rfl⟩ := map_ok h
      rfl
  · intro m t u h
    obtain ⟨v, h⟩ := decoder_config h
    obtain ⟨a, _, rfl⟩ := map_ok h
    exact ⟨_, rfl⟩

/-! ## Strictness without any assumption -/

theorem entries_all {β : Type} {dec : Value → Except Str β} {kvs : List (Str × Value)}
    {m m' : GoMap Str β} (h : entries dec kvs m = .ok m') {id : Str} {v : Value} (hv : (id, v) ∈ kvs) :
    ∃ b, dec v = .ok b := by
  induction kvs generalizing m with
  | nil => simp at hv
  | cons p kvs ih =>
    obtain ⟨k, x⟩ := p
    rw [entries] at h
    cases hd : dec x with
    | error e => rw [hd] at h; cases h
    | ok b =>
      rw [hd] at h
      rcases List.mem_cons.mp hv with e | hv
      · cases e; exact ⟨b, hd⟩
      · exact ih h hv

theorem pointer_known {α γ : Type} {fields : List (Fld α)} {keep : α → γ} (hl : Lawful fields keep)
    {zero : α} {ms : List (Str × Value)} {o : Option α}
    (h : pointer fields zero (.obj ms) = .ok o) : Known (fields.map Fld.name) ms := by
  obtain ⟨a, ha, _⟩ := map_ok h
  exact hl.known ha

/-- **C93, strictness.** Whatever is given twice: every member of an accepted file, and every member of
every target and task in it, is a setting, of any spelling. -/
theorem C93_no_unknown_members (tx : Text) (basedir : Str) (ms : List (Str × Value)) (book : Runbook)
    (h : parse tx basedir (.obj ms) = .ok book) :
    Known fileNames ms ∧
    (∀ kvs id ms', Has ms b!"Targets" (.obj kvs) → (id, .obj ms') ∈ kvs → Known targetNames ms') ∧
    (∀ kvs id ms', Has ms b!"Tasks" (.obj kvs) → (id, .obj ms') ∈ kvs → Known taskNames ms') := by
  obtain ⟨src, h1, _⟩ := parse_iff.mp h
  have hl := file_lawful tx
  refine ⟨hl.known h1, ?_, ?_⟩
  · intro kvs id ms' hk hin
    obtain ⟨x, y, hd⟩ := hl.decoded h1 (f := ⟨b!"Targets", _, Src.targets,
      fun t x => { t with targets := x }, map (pointer (targetFields tx) ⟨[], []⟩)⟩) (by simp [fileFields]) hk
    obtain ⟨o, ho⟩ := entries_all (dec := pointer (targetFields tx) ⟨[], []⟩) hd hin
    exact pointer_known (target_lawful tx) ho
  · intro kvs id ms' hk hin
    obtain ⟨x, y, hd⟩ := hl.decoded h1 (f := ⟨b!"Tasks", _, Src.tasks,
      fun t x => { t with tasks := x }, map (pointer (taskFields tx) ⟨[], [], [], []⟩)⟩)
      (by simp [fileFields]) hk
    obtain ⟨o, ho⟩ := entries_all (dec := pointer (taskFields tx) ⟨[], [], [], []⟩) hd hin
    exact pointer_known (task_lawful tx) ho

/-! ## Runs -/

theorem dependsOn_iff (hp : Plain doc) (hd : decodeFile tx doc = .ok src)
    (hb : Book.parse (decoder tx) basedir src = .ok book) (t m : Str) :
    Run.Spec.DependsOn src t m ↔ Needs doc t m := by
  obtain ⟨w1, w2⟩ := decodeFile_wf hd
  obtain ⟨hD, _, wK⟩ := C93_reads_partial tx basedir doc hp book (parse_iff.mpr ⟨_, hd, hb⟩)
  obtain ⟨_, k2, _, b2⟩ := C35_parse_result _ basedir src book w1 w2 hb
  have hbook : ∀ task, (t, task) ∈ book.tasks →
      (Run.Spec.DependsOn src t m ↔ m ∈ task.after) ∧ (Needs doc t m ↔ m ∈ task.after) := by
    intro task hin
    obtain ⟨s, hs, _, _, _, _, _, _, _, _, _, he, _⟩ := (b2 t task).mp hin
    refine ⟨⟨?_, fun h => ⟨s, hs, he ▸ h⟩⟩, ?_⟩
    · rintro ⟨s', hs', hm⟩
      have e := (GoMap.get?_of_mem w2 hs).symm.trans (GoMap.get?_of_mem w2 hs')
      cases e
      rw [he]; exact hm
    · obtain ⟨v, hv, ms, _, _, _, _, _, rfl, _, _, _, _, _, _, _, ha, _⟩ := (hD.tasks t task).mp hin
      refine ⟨?_, fun h => ⟨ms, _, hv, ha, h⟩⟩
      rintro ⟨ms', l, ⟨ms0, kvs, e0, h0, h1⟩, hl, hm⟩
      obtain ⟨ms1, kvs1, e1, h2, h3⟩ := hv
      rw [e1] at e0
      cases e0
      have hf := (hp _ e1).1
      obtain rfl : kvs = kvs1 := Value.obj.inj (hf.unique (by decide) h0 h2)
      have e := List.inj_on_of_nodup_map ((hp _ e1).2.2 kvs h0).1 h1 h3 rfl
      cases e
      have hent : Once taskNames ms := (((hp _ e1).2.2 kvs h0).2 _ _ h1 ms rfl).1
      have hu := single hent (n := b!"After") (by decide)
      rcases hl with ⟨vs, hv1, hf1⟩ | ⟨hun, rfl⟩
      · rcases ha with ⟨vs', hv2, hf2⟩ | ⟨hun, _⟩
        · cases hu _ _ hv1 hv2
          rwa [show task.after = l from by
            have h1 := elements_iff.mpr hf1
            have h2 := elements_iff.mpr hf2
            rw [h1] at h2
            exact (Except.ok.inj h2).symm]
        · cases hun _ hv1
      · simp at hm
  by_cases hin : ∃ task, (t, task) ∈ book.tasks
  · obtain ⟨task, hin⟩ := hin
    exact (hbook task hin).1.trans (hbook task hin).2.symm
  · constructor
    · rintro ⟨s, hs, _⟩
      have : t ∈ book.tasks.keys := by rw [k2]; exact GoMap.mem_keys_of_mem hs
      obtain ⟨⟨_, task⟩, h, rfl⟩ := List.mem_map.mp this
      exact absurd ⟨task, h⟩ hin
    · rintro ⟨ms, l, hl, _⟩
      obtain ⟨_, _, hv⟩ := (C93_accepts_iff_partial tx basedir doc hp).mp ⟨book, parse_iff.mpr ⟨_, hd, hb⟩⟩
      obtain ⟨task, ht⟩ := hv t _ hl
      refine absurd ⟨task, (hD.tasks t task).mpr ⟨_, hl, ?_⟩⟩ hin
      have e : (fun i u => ∃ v', Lists doc b!"Targets" i v' ∧ TargetIs basedir v' u) =
          fun i u => (i, u) ∈ book.targets :=
        funext fun i => funext fun u => propext (hD.targets i u).symm
      rw [e] at ht
      exact ht

theorem listed_iff (hp : Plain doc) (hd : decodeFile tx doc = .ok src) (id : Str) :
    (∃ o, (id, o) ∈ src.tasks) ↔ ∃ v, Lists doc b!"Tasks" id v := by
  obtain ⟨ms, hm, _, _, h2⟩ := (file_iff hp).mp hd
  obtain ⟨_, u2⟩ := single_file hp hm
  obtain ⟨b1, b2⟩ := section_iff hm u2 h2
  constructor
  · rintro ⟨o, h⟩
    obtain ⟨v, hv, _⟩ := b1 _ _ h
    exact ⟨v, hv⟩
  · rintro ⟨v, h⟩
    obtain ⟨o, ho, _⟩ := b2 _ _ h
    exact ⟨o, ho⟩

theorem ordered_iff (hp : Plain doc) (hd : decodeFile tx doc = .ok src)
    (hb : Book.parse (decoder tx) basedir src = .ok book) (ho : Ordered doc) : Run.Spec.Ordered src := by
  have e : Run.Spec.DependsOn src = Needs doc :=
    funext fun t => funext fun m => propext (dependsOn_iff hp hd hb t m)
  refine ⟨?_, ?_⟩
  · intro t m h
    exact (listed_iff hp hd m).mpr (ho.closed t m (e ▸ h))
  · intro t h
    rw [e] at h
    exact ho.acyclic t h

/-- **C94.** Let the dependencies written in a file, in which nothing is written twice, name tasks of
the file without a cycle.  If `Run` returned nil, then every task the file
lists was handled exactly once, on the target written for it, and successfully; what was done in its
name, once, is what its config and that of its target say; and every task it is written to come after,
but for one named "", had ended successfully before it was started, and everything in its name had been done. -/
theorem C94_success_means_done (hp : Plain doc) (ho : Ordered doc)
    (h : Runs tx basedir proc doc (.running book st w)) (hret : st.main = .returned none)
    {id : Str} {v : Value} (hl : Lists doc b!"Tasks" id v) :
    ∃ task tgt calls pre mid post,
      TaskIs (HasTarget basedir doc) v task ∧ HasTarget basedir doc task.target tgt ∧
      st.trace = pre ++ .handleStart task.target id :: (mid ++ .handleEnd task.target id true :: post) ∧
      (∀ q', .handleStart q' id ∉ pre ++ mid ++ post) ∧
      Run.Spec.Does proc.environ task.target tgt task.config calls ∧
      w.calls.filter (fun c => c.1 = id) = calls.map (fun c => (id, c, true)) ∧
      ∀ m, Needs doc id m → m ≠ [] → (∃ q, .handleEnd q m true ∈ pre) ∧
        ∀ before c ok after, w.calls = before ++ (id, c, ok) :: after → ∀ x ∈ w.calls, x.1 = m →
          x.2.2 = true ∧ x ∈ before ∧ x ∉ after := by
  cases h with
  | decoded hd h =>
  rename_i src
  obtain ⟨w1, w2⟩ := decodeFile_wf hd
  have hb := h.parse
  have hj := decoder_json tx
  have hpar := parse_iff.mpr ⟨_, hd, hb⟩
  obtain ⟨hD, wT, wK⟩ := C93_reads_partial tx basedir doc hp book hpar
  obtain ⟨_, _, hval⟩ := (C93_accepts_iff_partial tx basedir doc hp).mp ⟨book, hpar⟩
  have e : (HasTarget basedir doc) = fun i u => (i, u) ∈ book.targets :=
    funext fun i => funext fun u => propext (hD.targets i u).symm
  obtain ⟨task, ht⟩ := hval id v hl
  replace ht : TaskIs (HasTarget basedir doc) v task := ht
  have htask : (id, task) ∈ book.tasks := (hD.tasks id task).mpr ⟨v, hl, e ▸ ht⟩
  have ht' := ht
  obtain ⟨_, _, cls, tgt, _, _, _, _, _, href, htgt, _⟩ := ht'
  obtain ⟨s, hs, _, _, _, _, href', _, _, _, _, hafter, _⟩ :=
    ((C35_parse_result _ basedir src book w1 w2 hb).2.2.2 id task).mp htask
  obtain ⟨q, cls', pre, mid, post, hq, htr, honce, hbef⟩ :=
    Run.C85_success_means_done_partial hj w1 w2 (ordered_iff hp hd hb ho) h hret id s hs
  have htgt' : (task.target, tgt) ∈ book.targets := (hD.targets _ _).mpr htgt
  obtain ⟨f1, _, _⟩ := Run.C86_effects hj w1 w2 h htask htgt'
  obtain ⟨rfl, calls, hdoes, hcalls⟩ := f1 q true (by rw [htr]; simp)
  refine ⟨task, tgt, calls, pre, mid, post, ht, htgt, htr, honce, hdoes, hcalls, ?_⟩
  intro m hm hm0
  have hdep := (dependsOn_iff hp hd hb id m).mpr hm
  refine ⟨?_, ?_⟩
  · obtain ⟨s', hs', hm'⟩ := hdep
    have e := (GoMap.get?_of_mem w2 hs).symm.trans (GoMap.get?_of_mem w2 hs')
    cases e
    exact hbef m hm' hm0
  · rintro before c ok after hc ⟨m', c', ok'⟩ hx rfl
    obtain ⟨g1, g2⟩ := Run.C86_order_partial hj w1 w2 h hdep hm0 hc
    exact ⟨(g1 _ _ hx).1, (g1 _ _ hx).2, g2 _ _⟩

/-- **C94.** An invalid file, in which nothing is written twice, is never run: no target is started. -/
theorem C94_invalid_not_run (hp : Plain doc) (hv : ¬ Valid basedir doc) :
    ¬ Runs tx basedir proc doc (.running book st w) := by
  intro h
  cases h with
  | decoded hd h =>
    exact hv ((C93_accepts_iff_partial tx basedir doc hp).mp ⟨book, parse_iff.mpr ⟨_, hd, h.parse⟩⟩)

end Verif.Json
