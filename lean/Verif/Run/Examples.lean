import Verif.Run.Output

/-!
# The runbooks of the tests, under every schedule; refutation of C88; non-vacuity of C85-C89
-/

namespace Verif.Run
open Verif Book Spec

/-- A decoder for which the config of a demo target is its string. -/
def textConfig : Decoder :=
  ⟨fun m t => match t with
    | .demo d => .ok (.demo { d with string := m })
    | t => .ok t, fun _ c => .ok c⟩

theorem textConfig_json : Json textConfig := by
  constructor <;> intros <;> simp_all [textConfig] <;> (try subst_vars) <;> simp

theorem isTask_iff {book : Runbook} {q id : Str} {c : Config} : IsTask book q c id ↔
    (id, q, c) ∈ book.tasks.map fun p => (p.1, p.2.target, p.2.config) := by
  rw [List.mem_map]
  constructor
  · rintro ⟨task, hin, rfl, rfl⟩
    exact ⟨_, hin, rfl⟩
  · rintro ⟨⟨id', task⟩, hin, h⟩
    cases h
    exact ⟨task, hin, rfl, rfl⟩

/-- Checking a dependency. -/
def depends (src : Src) (t m : Str) : Bool :=
  src.tasks.any fun p => decide (p.1 = t) && match p.2 with
    | some w => w.after.contains m
    | none => false

theorem depends_iff {src : Src} {t m : Str} : depends src t m = true ↔ DependsOn src t m := by
  unfold depends Spec.DependsOn
  rw [List.any_eq_true]
  constructor
  · rintro ⟨⟨t', o⟩, hin, h⟩
    cases o with
    | none => simp at h
    | some w =>
      simp only [Bool.and_eq_true, decide_eq_true_eq, List.contains_iff_mem] at h
      exact ⟨w, h.1 ▸ hin, h.2⟩
  · rintro ⟨w, hin, hm⟩
    exact ⟨_, hin, by simp [hm]⟩

/-- Tasks in an order in which each comes after those it depends on. -/
theorem ordered_of {src : Src} (l : List Str)
    (h : ∀ p ∈ src.tasks, ∀ w, p.2 = some w → ∀ m ∈ w.after,
      m ∈ src.tasks.keys ∧ l.idxOf m < l.idxOf p.1) : Ordered src := by
  have h1 : ∀ t m, DependsOn src t m → m ∈ src.tasks.keys ∧ l.idxOf m < l.idxOf t := by
    rintro t m ⟨w, hin, hm⟩
    exact h _ hin w rfl m hm
  have h2 : ∀ t m, Relation.TransGen (DependsOn src) t m → l.idxOf m < l.idxOf t := by
    intro t m ht
    induction ht with
    | single h => exact (h1 _ _ h).2
    | tail _ h ih => exact Nat.lt_trans (h1 _ _ h).2 ih
  refine ⟨?_, fun t ht => absurd (h2 t t ht) (by omega)⟩
  intro t m hd
  obtain ⟨p, hp, e⟩ := List.mem_map.mp (h1 t m hd).1
  exact ⟨p.2, by rw [← e]; exact hp⟩

/-- What a task follows is in every set that contains what its members depend on. -/
theorem follows_mem {src : Src} (l : List Str)
    (h : ∀ p ∈ src.tasks, p.1 ∈ l → ∀ w, p.2 = some w → ∀ m ∈ w.after, m ∈ l) {t m : Str}
    (hf : Follows src t m) (ht : t ∈ l) : m ∈ l := by
  induction hf with
  | single hd =>
    obtain ⟨w, hin, hm⟩ := hd
    exact h _ hin ht w rfl _ hm
  | tail _ hd ih =>
    obtain ⟨w, hin, hm⟩ := hd
    exact h _ hin ih w rfl _ hm

/-! ## testdata/message.jsonnet -/

/-- testdata/message.jsonnet -/
def messageSrc : Src where
  targets := [(b!"demo", some ⟨b!"demo", b!".ravgyniB ehbl xaveq bg rehf rO"⟩)]
  tasks := [
    (b!"decrypted", some ⟨[b!"reverse", b!"rotate"], b!"demo/echo", [], []⟩),
    (b!"encrypted", some ⟨[], b!"demo/echo", [], []⟩),
    (b!"reverse", some ⟨[b!"encrypted"], b!"demo/rev", [], []⟩),
    (b!"rotate", some ⟨[b!"encrypted"], b!"demo/rot13", [], []⟩)]

def messageBook : Runbook where
  targets := [(b!"demo", .demo { string := b!".ravgyniB ehbl xaveq bg rehf rO" })]
  tasks := [
    (b!"decrypted", ⟨b!"demo", [b!"reverse", b!"rotate"], [], .echo⟩),
    (b!"encrypted", ⟨b!"demo", [], [], .echo⟩),
    (b!"reverse", ⟨b!"demo", [b!"encrypted"], [], .rev⟩),
    (b!"rotate", ⟨b!"demo", [b!"encrypted"], [], .rot13⟩)]

theorem message_parse (basedir : Str) : parse textConfig basedir messageSrc = .ok messageBook := rfl

theorem message_ordered : Ordered messageSrc := by
  refine ordered_of [b!"encrypted", b!"reverse", b!"rotate", b!"decrypted"] ?_
  simp [messageSrc, GoMap.keys]

theorem message_scripted : Scripted messageSrc messageBook [b!"encrypted", b!"decrypted"] := by
  have d1 : Follows messageSrc b!"reverse" b!"encrypted" := .single (depends_iff.mp (by decide))
  have d2 : Follows messageSrc b!"rotate" b!"encrypted" := .single (depends_iff.mp (by decide))
  have d3 : Follows messageSrc b!"decrypted" b!"reverse" := .single (depends_iff.mp (by decide))
  have d4 : Follows messageSrc b!"decrypted" b!"rotate" := .single (depends_iff.mp (by decide))
  have hd : ∀ e, ¬ Doomed messageSrc messageBook e := by
    rintro e ⟨q, f, h, _⟩
    simp [isTask_iff, messageBook] at h
  refine ⟨?_, ?_, ?_⟩
  · intro e
    constructor
    · intro h
      refine ⟨⟨b!"demo", ?_⟩, hd e⟩
      simp only [List.mem_cons, List.not_mem_nil, or_false] at h
      rcases h with rfl | rfl <;> exact isTask_iff.mpr (by decide)
    · rintro ⟨⟨q, h⟩, _⟩
      simp [isTask_iff, messageBook] at h
      rcases h with ⟨rfl, _⟩ | ⟨rfl, _⟩ <;> simp
  · simp only [List.pairwise_cons, List.mem_cons, List.not_mem_nil, or_false, forall_eq,
      List.Pairwise.nil, and_true, false_imp_iff, implies_true]
    exact Relation.TransGen.trans d3 d1
  · intro e he q hq x hx
    simp [isTask_iff, messageBook] at hq hx
    rcases hq with ⟨rfl, rfl⟩ | ⟨rfl, rfl⟩ <;> rcases hx with ⟨rfl, _⟩ | ⟨rfl, _⟩ <;> tauto

/-- **C89 for testdata/message.jsonnet**: every successful run prints the same two lines, whichever
of the two tasks in between comes first; before the end it printed none, or the first, or both. -/
theorem C89_message {basedir : Str} {proc : Proc} {book : Runbook} {st : Runner.St} {w : World}
    (h : Reach textConfig basedir proc messageSrc (.running book st w)) :
    w.stdout ∈ [[], b!".ravgyniB ehbl xaveq bg rehf rO\n",
      b!".ravgyniB ehbl xaveq bg rehf rO\nBe sure to drink your Ovaltine.\n"] ∧
    (st.main = .returned none →
      w.stdout = b!".ravgyniB ehbl xaveq bg rehf rO\nBe sure to drink your Ovaltine.\n") := by
  have hb := h.parse
  rw [message_parse] at hb
  cases hb
  let line : Str → Str := fun e => if e = b!"encrypted" then b!".ravgyniB ehbl xaveq bg rehf rO\n"
    else b!"Be sure to drink your Ovaltine.\n"
  have hl : ∀ e ∈ [b!"encrypted", b!"decrypted"], Prints messageSrc messageBook e (line e) := by
    have hq : ∀ c x, IsTask messageBook b!"demo" c x → c = .rev ∨ c = .rot13 →
        (x = b!"reverse" ∧ c = .rev) ∨ (x = b!"rotate" ∧ c = .rot13) := by
      intro c x h hc
      simp [isTask_iff, messageBook] at h
      rcases h with ⟨rfl, rfl⟩ | ⟨rfl, rfl⟩ | ⟨rfl, rfl⟩ | ⟨rfl, rfl⟩ <;> simp_all
    intro e he
    simp only [List.mem_cons, List.not_mem_nil, or_false] at he
    rcases he with rfl | rfl
    · refine ⟨b!"demo", _, ".ravgyniB ehbl xaveq bg rehf rO".toList, isTask_iff.mpr (by decide),
        by simp [messageBook]; rfl, by decide, ?_⟩
      have hn : ∀ x, ¬ Follows messageSrc b!"encrypted" x := by
        intro x hf
        have := follows_mem (src := messageSrc) [b!"encrypted"] (by simp [messageSrc]) hf (by simp)
        simp only [List.mem_singleton] at this
        subst this
        exact message_ordered.acyclic _ hf
      simp only [hn, and_false, Set.setOf_false, Set.ncard_empty]
      decide
    · refine ⟨b!"demo", _, ".ravgyniB ehbl xaveq bg rehf rO".toList, isTask_iff.mpr (by decide),
        by simp [messageBook]; rfl, by decide, ?_⟩
      have h1 : {x | IsTask messageBook b!"demo" .rev x ∧ Follows messageSrc b!"decrypted" x} =
          {b!"reverse"} := by
        ext x
        constructor
        · rintro ⟨hx, _⟩
          rcases hq _ _ hx (Or.inl rfl) with ⟨rfl, _⟩ | ⟨_, h⟩
          · rfl
          · cases h
        · rintro rfl
          exact ⟨isTask_iff.mpr (by decide), .single (depends_iff.mp (by decide))⟩
      have h2 : {x | IsTask messageBook b!"demo" .rot13 x ∧ Follows messageSrc b!"decrypted" x} =
          {b!"rotate"} := by
        ext x
        constructor
        · rintro ⟨hx, _⟩
          rcases hq _ _ hx (Or.inr rfl) with ⟨_, h⟩ | ⟨rfl, _⟩
          · cases h
          · rfl
        · rintro rfl
          exact ⟨isTask_iff.mpr (by decide), .single (depends_iff.mp (by decide))⟩
      rw [h1, h2, Set.ncard_singleton, Set.ncard_singleton]
      decide
  obtain ⟨done, h1, _, h2, h3⟩ := C89_output textConfig_json (by decide) (by decide) message_ordered
    (by simp [messageSrc]) h (by
      intro q t hin
      simp only [messageBook, List.mem_singleton, Prod.mk.injEq] at hin
      obtain ⟨rfl, rfl⟩ := hin
      exact ⟨_, ".ravgyniB ehbl xaveq bg rehf rO".toList, rfl, by decide⟩)
    message_scripted hl
  refine ⟨?_, fun hr => by rw [h2, h3 hr]; decide⟩
  rw [h2]
  obtain ⟨n, rfl⟩ : ∃ n, done = [b!"encrypted", b!"decrypted"].take n :=
    ⟨_, (List.prefix_iff_eq_take.mp h1)⟩
  match n with
  | 0 => decide
  | 1 => decide
  | n + 2 => rw [List.take_of_length_le (by simp)]; decide

/-! ## testdata/fail.jsonnet -/

/-- testdata/fail.jsonnet -/
def failSrc : Src where
  targets := [(b!"t1", some ⟨b!"demo", b!"foo"⟩), (b!"t2", some ⟨b!"demo", b!"rab"⟩),
    (b!"t3", some ⟨b!"demo", b!"mno"⟩)]
  tasks := [
    (b!"t1/1", some ⟨[], b!"t1/echo", [], []⟩),
    (b!"t1/2a", some ⟨[b!"t1/1"], b!"t1/rot13", [], []⟩),
    (b!"t1/2b", some ⟨[b!"t1/1"], b!"t1/rev", [], []⟩),
    (b!"t1/3", some ⟨[b!"t1/2a", b!"t1/2b"], b!"t1/sleep", [], []⟩),
    (b!"t1/4", some ⟨[b!"t1/3", b!"t2/5"], b!"t1/echo", [], []⟩),
    (b!"t2/1", some ⟨[], b!"t2/rev", [], []⟩),
    (b!"t2/2", some ⟨[b!"t1/1", b!"t2/1"], b!"t2/echo", [], []⟩),
    (b!"t2/3", some ⟨[b!"t3/2"], b!"t2/rot13", [], []⟩),
    (b!"t2/4", some ⟨[b!"t3/2"], b!"t2/fail", [], []⟩),
    (b!"t2/5", some ⟨[b!"t2/4"], b!"t2/echo", [], []⟩),
    (b!"t3/1a", some ⟨[], b!"t3/rot13", [], []⟩),
    (b!"t3/1b", some ⟨[], b!"t3/rev", [], []⟩),
    (b!"t3/2", some ⟨[b!"t2/2", b!"t3/1a", b!"t3/1b"], b!"t3/echo", [], []⟩),
    (b!"t3/3", some ⟨[b!"t3/2"], b!"t3/sleep", [], []⟩),
    (b!"t3/4", some ⟨[b!"t2/5", b!"t3/3"], b!"t3/echo", [], []⟩)]

def failBook : Runbook where
  targets := [(b!"t1", .demo { string := b!"foo" }), (b!"t2", .demo { string := b!"rab" }),
    (b!"t3", .demo { string := b!"mno" })]
  tasks := [
    (b!"t1/1", ⟨b!"t1", [], [], .echo⟩),
    (b!"t1/2a", ⟨b!"t1", [b!"t1/1"], [], .rot13⟩),
    (b!"t1/2b", ⟨b!"t1", [b!"t1/1"], [], .rev⟩),
    (b!"t1/3", ⟨b!"t1", [b!"t1/2a", b!"t1/2b"], [], .sleep ⟨1⟩⟩),
    (b!"t1/4", ⟨b!"t1", [b!"t1/3", b!"t2/5"], [], .echo⟩),
    (b!"t2/1", ⟨b!"t2", [], [], .rev⟩),
    (b!"t2/2", ⟨b!"t2", [b!"t1/1", b!"t2/1"], [], .echo⟩),
    (b!"t2/3", ⟨b!"t2", [b!"t3/2"], [], .rot13⟩),
    (b!"t2/4", ⟨b!"t2", [b!"t3/2"], [], .fail⟩),
    (b!"t2/5", ⟨b!"t2", [b!"t2/4"], [], .echo⟩),
    (b!"t3/1a", ⟨b!"t3", [], [], .rot13⟩),
    (b!"t3/1b", ⟨b!"t3", [], [], .rev⟩),
    (b!"t3/2", ⟨b!"t3", [b!"t2/2", b!"t3/1a", b!"t3/1b"], [], .echo⟩),
    (b!"t3/3", ⟨b!"t3", [b!"t3/2"], [], .sleep ⟨1⟩⟩),
    (b!"t3/4", ⟨b!"t3", [b!"t2/5", b!"t3/3"], [], .echo⟩)]

theorem fail_parse (basedir : Str) : parse textConfig basedir failSrc = .ok failBook := rfl

theorem fail_ordered : Ordered failSrc := by
  refine ordered_of [b!"t1/1", b!"t1/2a", b!"t1/2b", b!"t1/3", b!"t2/1", b!"t2/2", b!"t3/1a", b!"t3/1b",
    b!"t3/2", b!"t2/3", b!"t2/4", b!"t2/5", b!"t1/4", b!"t3/3", b!"t3/4"] ?_
  simp [failSrc, GoMap.keys]

theorem fail_follows {t m : Str} (h : depends failSrc t m = true) : Follows failSrc t m :=
  .single (depends_iff.mp h)

theorem fail_scripted : Scripted failSrc failBook [b!"t1/1", b!"t2/2", b!"t3/2"] := by
  have hf : IsTask failBook b!"t2" .fail b!"t2/4" := isTask_iff.mpr (by decide)
  have d5 : Follows failSrc b!"t2/5" b!"t2/4" := fail_follows (by decide)
  have dm5 : Doomed failSrc failBook b!"t2/5" := ⟨_, _, hf, d5⟩
  have dm14 : Doomed failSrc failBook b!"t1/4" := ⟨_, _, hf, (fail_follows (by decide)).trans d5⟩
  have dm34 : Doomed failSrc failBook b!"t3/4" := ⟨_, _, hf, (fail_follows (by decide)).trans d5⟩
  have hnot : ∀ e, e ∈ [b!"t1/1", b!"t2/1", b!"t2/2", b!"t3/1a", b!"t3/1b", b!"t3/2"] →
      ¬ Doomed failSrc failBook e := by
    rintro e he ⟨q, f, h, hfol⟩
    have := follows_mem (src := failSrc) _ (by simp [failSrc]) hfol he
    simp [isTask_iff, failBook] at h
    obtain ⟨rfl, _⟩ := h
    exact absurd this (by decide)
  have e1 : Follows failSrc b!"t2/2" b!"t1/1" := fail_follows (by decide)
  have e2 : Follows failSrc b!"t3/2" b!"t2/2" := fail_follows (by decide)
  refine ⟨?_, ?_, ?_⟩
  · intro e
    constructor
    · intro h
      simp only [List.mem_cons, List.not_mem_nil, or_false] at h
      rcases h with rfl | rfl | rfl
      · exact ⟨⟨b!"t1", isTask_iff.mpr (by decide)⟩, hnot _ (by decide)⟩
      · exact ⟨⟨b!"t2", isTask_iff.mpr (by decide)⟩, hnot _ (by decide)⟩
      · exact ⟨⟨b!"t3", isTask_iff.mpr (by decide)⟩, hnot _ (by decide)⟩
    · rintro ⟨⟨q, h⟩, hd⟩
      simp [isTask_iff, failBook] at h
      rcases h with ⟨rfl, _⟩ | ⟨rfl, _⟩ | ⟨rfl, _⟩ | ⟨rfl, _⟩ | ⟨rfl, _⟩ | ⟨rfl, _⟩
      · simp
      · exact absurd dm14 hd
      · simp
      · exact absurd dm5 hd
      · simp
      · exact absurd dm34 hd
  · simp only [List.pairwise_cons, List.mem_cons, List.not_mem_nil, or_false, forall_eq,
      List.Pairwise.nil, and_true, false_imp_iff, implies_true, forall_eq_or_imp]
    exact ⟨⟨e1, e2.trans e1⟩, e2⟩
  · have a1 : Follows failSrc b!"t1/2a" b!"t1/1" := fail_follows (by decide)
    have a2 : Follows failSrc b!"t1/2b" b!"t1/1" := fail_follows (by decide)
    have a3 : Follows failSrc b!"t2/2" b!"t2/1" := fail_follows (by decide)
    have a4 : Follows failSrc b!"t2/3" b!"t2/2" := (fail_follows (by decide)).trans e2
    have a5 : Follows failSrc b!"t3/2" b!"t3/1a" := fail_follows (by decide)
    have a6 : Follows failSrc b!"t3/2" b!"t3/1b" := fail_follows (by decide)
    intro e he q hq x hx
    simp only [List.mem_cons, List.not_mem_nil, or_false] at he
    rcases he with rfl | rfl | rfl
    all_goals
      simp [isTask_iff, failBook] at hq
      subst hq
      simp [isTask_iff, failBook] at hx
      rcases hx with rfl | rfl <;> tauto

/-- What the echo tasks of testdata/fail.jsonnet print. -/
def failLine (e : Str) : Str :=
  if e = b!"t1/1" then b!"foo\n" else if e = b!"t2/2" then b!"bar\n" else b!"baz\n"

theorem fail_prints : ∀ e ∈ [b!"t1/1", b!"t2/2", b!"t3/2"], Prints failSrc failBook e (failLine e) := by
  intro e he
  simp only [List.mem_cons, List.not_mem_nil, or_false] at he
  rcases he with rfl | rfl | rfl
  · refine ⟨b!"t1", _, "foo".toList, isTask_iff.mpr (by decide), by simp [failBook]; rfl, by decide, ?_⟩
    have hn : ∀ x, ¬ Follows failSrc b!"t1/1" x := by
      intro x hf
      have := follows_mem (src := failSrc) [b!"t1/1"] (by simp [failSrc]) hf (by simp)
      simp only [List.mem_singleton] at this
      subst this
      exact fail_ordered.acyclic _ hf
    simp only [hn, and_false, Set.setOf_false, Set.ncard_empty]
    decide
  · refine ⟨b!"t2", _, "rab".toList, isTask_iff.mpr (by decide), by simp [failBook]; rfl, by decide, ?_⟩
    have h1 : {x | IsTask failBook b!"t2" .rev x ∧ Follows failSrc b!"t2/2" x} = {b!"t2/1"} := by
      ext x
      constructor
      · rintro ⟨hx, _⟩; simpa [isTask_iff, failBook] using hx
      · rintro rfl; exact ⟨isTask_iff.mpr (by decide), fail_follows (by decide)⟩
    have h2 : {x | IsTask failBook b!"t2" .rot13 x ∧ Follows failSrc b!"t2/2" x} = ∅ := by
      ext x
      simp only [Set.mem_setOf_eq, Set.mem_empty_iff_false, iff_false, not_and]
      intro hx hf
      have := follows_mem (src := failSrc) [b!"t1/1", b!"t2/1", b!"t2/2"] (by simp [failSrc]) hf (by simp)
      simp [isTask_iff, failBook] at hx
      subst hx
      exact absurd this (by decide)
    rw [h1, h2, Set.ncard_singleton, Set.ncard_empty]
    decide
  · refine ⟨b!"t3", _, "mno".toList, isTask_iff.mpr (by decide), by simp [failBook]; rfl, by decide, ?_⟩
    have h1 : {x | IsTask failBook b!"t3" .rev x ∧ Follows failSrc b!"t3/2" x} = {b!"t3/1b"} := by
      ext x
      constructor
      · rintro ⟨hx, _⟩; simpa [isTask_iff, failBook] using hx
      · rintro rfl; exact ⟨isTask_iff.mpr (by decide), fail_follows (by decide)⟩
    have h2 : {x | IsTask failBook b!"t3" .rot13 x ∧ Follows failSrc b!"t3/2" x} = {b!"t3/1a"} := by
      ext x
      constructor
      · rintro ⟨hx, _⟩; simpa [isTask_iff, failBook] using hx
      · rintro rfl; exact ⟨isTask_iff.mpr (by decide), fail_follows (by decide)⟩
    rw [h1, h2, Set.ncard_singleton, Set.ncard_singleton]
    decide

/-- **C89 for testdata/fail.jsonnet**: what `TestRunWithFailedTask` observes once holds of every
schedule. Whenever `Run` returns, it returns the error of task t2/4 and has printed these three
lines. -/
theorem C89_fail {basedir : Str} {proc : Proc} {book : Runbook} {st : Runner.St} {w : World}
    {r : Option Runner.RunErr} (h : Reach textConfig basedir proc failSrc (.running book st w))
    (hr : st.main = .returned r) : r = some (.task b!"t2/4") ∧ w.stdout = b!"foo\nbar\nbaz\n" := by
  have hb := h.parse
  rw [fail_parse] at hb
  cases hb
  have hw1 : failSrc.targets.WF := by decide
  have hw2 : failSrc.tasks.WF := by decide
  have hf : IsTask failBook b!"t2" .fail b!"t2/4" := isTask_iff.mpr (by decide)
  have hdemo : ∀ q t, (q, t) ∈ failBook.targets → ∃ d cs, t = .demo d ∧ d.string = utf8 cs := by
    intro q t hin
    simp only [failBook, List.mem_cons, List.not_mem_nil, or_false, Prod.mk.injEq] at hin
    rcases hin with ⟨rfl, rfl⟩ | ⟨rfl, rfl⟩ | ⟨rfl, rfl⟩
    · exact ⟨_, "foo".toList, rfl, by decide⟩
    · exact ⟨_, "rab".toList, rfl, by decide⟩
    · exact ⟨_, "mno".toList, rfl, by decide⟩
  have hcalls : w.calls = [] := by
    rw [h.calls textConfig_json hw1 hw2]
    rw [List.flatMap_eq_nil_iff]
    intro e _
    cases e with
    | handleEnd q t ok =>
      have : callsOf proc.environ failBook q t = [] := by
        unfold callsOf
        cases e : failBook.targets.get? q with
        | none => rfl
        | some u =>
          obtain ⟨d, _, rfl, _⟩ := hdemo q u (GoMap.mem_of_get? e)
          rfl
      simp [callsAt, this]
    | _ => rfl
  have hr' : r = some (.task b!"t2/4") := by
    cases r with
    | none => exact absurd hr (C87_fail_never_succeeds_partial textConfig_json hw1 hw2 fail_ordered h hf)
    | some e =>
      rcases C87_failure_has_a_cause textConfig_json hw1 hw2 h hr with ⟨q, t, _, hq, _⟩ | ⟨id, task, rfl, hk, hc⟩
      · obtain ⟨_, _, e, _⟩ := hdemo _ _ hq
        cases e
      · rcases hc with hc | ⟨c, hc⟩
        · have : IsTask failBook task.target .fail id := ⟨task, hk, rfl, hc⟩
          simp [isTask_iff, failBook] at this
          rw [this.1]
        · rw [hcalls] at hc; cases hc
  refine ⟨hr', ?_⟩
  subst hr'
  obtain ⟨done, h1, h2, h3, _⟩ := C89_output textConfig_json hw1 hw2 fail_ordered
    (by simp [failSrc]) h hdemo fail_scripted fail_prints
  have hp := parsed textConfig_json hw1 hw2 h.parse
  obtain ⟨q, hq⟩ := (Runner.C23_run_reports_failure hp.wf1 hp.wf2 h.runner).2.1 _ hr
  obtain ⟨p, s, e⟩ := List.append_of_mem hq
  obtain ⟨q', hm⟩ := follows_end textConfig_json hw1 hw2 (by simp [failSrc]) h
    (fail_follows (t := b!"t2/4") (m := b!"t3/2") (by decide)) e
  have hin : b!"t3/2" ∈ done := (h2 _ (by decide)).mpr ⟨q', true, by rw [e]; simp [hm]⟩
  obtain ⟨n, rfl⟩ : ∃ n, done = [b!"t1/1", b!"t2/2", b!"t3/2"].take n :=
    ⟨_, (List.prefix_iff_eq_take.mp h1)⟩
  rw [h3]
  match n with
  | 0 => exact absurd hin (by decide)
  | 1 => exact absurd hin (by decide)
  | 2 => exact absurd hin (by decide)
  | n + 3 => rw [List.take_of_length_le (by simp)]; decide

/-- Every run of testdata/message.jsonnet ends, and has then printed the two lines and succeeded;
there is such a run. -/
example {basedir : Str} {proc : Proc} (hm : 2 ≤ proc.maxChan) : (∃ st w,
    Reach textConfig basedir proc messageSrc (.running messageBook st w) ∧
      ∀ s', ¬ Act proc messageBook (st, w) s') ∧
    ∀ st w, Reach textConfig basedir proc messageSrc (.running messageBook st w) →
      (∀ s', ¬ Act proc messageBook (st, w) s') → st.main = .returned none ∧
      w.stdout = b!".ravgyniB ehbl xaveq bg rehf rO\nBe sure to drink your Ovaltine.\n" := by
  constructor
  · obtain ⟨st, w, _, h⟩ := C88_comes_to_an_end textConfig_json (by decide) (by decide)
      (Reach.start (proc := proc) (message_parse basedir) hm [b!"demo"] (List.Perm.refl _))
    exact ⟨st, w, h⟩
  · intro st w h hend
    rcases C90_demo_runs textConfig_json (by decide) (by decide) message_ordered (by simp [messageSrc]) h (by
      intro q t hin
      simp only [messageBook, List.mem_singleton, Prod.mk.injEq] at hin
      exact ⟨_, hin.2⟩) hend with ⟨h1, _⟩ | ⟨q, f, _, hf⟩
    · exact ⟨h1, (C89_message h).2 h1⟩
    · simp [isTask_iff, messageBook] at hf

/-- Every run of testdata/fail.jsonnet ends with the error of its `fail` task and the three lines. -/
example {basedir : Str} {proc : Proc} {st : Runner.St} {w : World}
    (h : Reach textConfig basedir proc failSrc (.running failBook st w))
    (hend : ∀ s', ¬ Act proc failBook (st, w) s') :
    st.main = .returned (some (.task b!"t2/4")) ∧ w.stdout = b!"foo\nbar\nbaz\n" := by
  rcases C90_demo_runs textConfig_json (by decide) (by decide) fail_ordered (by simp [failSrc]) h (by
    intro q t hin
    simp only [failBook, List.mem_cons, List.not_mem_nil, or_false, Prod.mk.injEq] at hin
    rcases hin with ⟨_, rfl⟩ | ⟨_, rfl⟩ | ⟨_, rfl⟩ <;> exact ⟨_, rfl⟩) hend with ⟨h1, _⟩ | ⟨q, f, h1, _⟩
  · obtain ⟨e, _⟩ := C89_fail h h1; cases e
  · obtain ⟨e, h2⟩ := C89_fail h h1
    rw [e] at h1
    exact ⟨h1, h2⟩

end Verif.Run
