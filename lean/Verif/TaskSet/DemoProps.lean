import Verif.TaskSet.DemoSpec
import Verif.TaskSet.RunProps
import Verif.TaskSet.ParseProps
import Verif.Run.Output

/-!
# C97: the tasks of a demo target run one at a time, whatever the schedule
-/

namespace Verif.TaskSet.Demo
open Verif TaskSet Spec
open _root_.Verif.Run.Spec (mangle utf8)

section lemmas

/-! ## The steps of `RunTasks` -/

theorem move_hist {cap : Nat} {s r : St Job (Option Err)} (h : Move cap s r) :
    (r.started = s.started ∧ r.ran = s.ran ∧ r.executing = s.executing) ∨
    (∃ j, r.started = s.started ++ [j] ∧ r.ran = s.ran ∧ r.executing = s.executing ++ [j]) ∨
    (∃ j e a b, r.started = s.started ∧ r.ran = s.ran ++ [(j, e)] ∧ s.executing = a ++ j :: b ∧
      r.executing = a ++ b) := by
  cases h with
  | spawn a b t hp => exact .inr (.inl ⟨t, rfl, rfl, rfl⟩)
  | finish a b t e h => exact .inr (.inr ⟨t, e, a, b, rfl, rfl, h, rfl⟩)
  | _ => exact .inl ⟨rfl, rfl, rfl⟩

theorem ne_append {α : Type} (l : List α) (a : α) : l ≠ l ++ [a] := by simp

theorem move_spawn {cap : Nat} {s r : St Job (Option Err)} {j : Job} (h : Move cap s r)
    (hs : r.started = s.started ++ [j]) : r.ran = s.ran ∧ r.executing = s.executing ++ [j] := by
  rcases move_hist h with ⟨h1, -, -⟩ | ⟨j', h1, h2, h3⟩ | ⟨_, _, _, _, h1, -, -⟩
  · exact absurd (h1.symm.trans hs) (ne_append _ _)
  · obtain rfl : j' = j := by simpa using h1.symm.trans hs
    exact ⟨h2, h3⟩
  · exact absurd (h1.symm.trans hs) (ne_append _ _)

theorem move_finish {cap : Nat} {s r : St Job (Option Err)} {j : Job} {e : Option Err}
    (h : Move cap s r) (hs : r.ran = s.ran ++ [(j, e)]) :
    ∃ a b, s.executing = a ++ j :: b ∧ r.executing = a ++ b := by
  rcases move_hist h with ⟨-, h1, -⟩ | ⟨_, -, h1, -⟩ | ⟨j', e', a, b, -, h1, h2, h3⟩
  · exact absurd (h1.symm.trans hs) (ne_append _ _)
  · exact absurd (h1.symm.trans hs) (ne_append _ _)
  · obtain ⟨rfl, -⟩ : j' = j ∧ e' = e := by simpa using h1.symm.trans hs
    exact ⟨a, b, h2, h3⟩

theorem move_other {cap : Nat} {s r : St Job (Option Err)} (h : Move cap s r)
    (hs : r.started = s.started) (hr : r.ran = s.ran) : r.executing = s.executing := by
  rcases move_hist h with ⟨-, -, h1⟩ | ⟨_, h1, -, -⟩ | ⟨_, _, _, _, -, h1, -⟩
  · exact h1
  · exact absurd (hs.symm.trans h1) (ne_append _ _)
  · exact absurd (hr.symm.trans h1) (ne_append _ _)

/-! ## Texts -/

theorem text_nil (cs : List Char) : text cs [] = utf8 cs := by simp [text, count, mangle]

theorem text_rev (cs : List Char) (js : List Job) (id : Str) :
    Demo.rev ⟨[], text cs js⟩ = some ⟨[], text cs (js ++ [(id, .rev)])⟩ := by
  simp only [text]
  rw [show count .rev (js ++ [(id, .rev)]) = count .rev js + 1 by simp [count],
    show count .rot13 (js ++ [(id, .rev)]) = count .rot13 js by simp [count], ← Run.mangle_rev]
  exact Verif.Demo.C32_rev_reverses _ []

theorem text_rot13 (cs : List Char) (js : List Job) (id : Str) :
    (Demo.rot13 ⟨[], text cs js⟩).string = text cs (js ++ [(id, .rot13)]) := by
  simp only [text]
  rw [show count .rot13 (js ++ [(id, .rot13)]) = count .rot13 js + 1 by simp [count],
    show count .rev (js ++ [(id, .rot13)]) = count .rev js by simp [count], ← Run.mangle_rot]
  exact Run.op_rot13 _

theorem text_other (cs : List Char) (js : List Job) (j : Job) (h1 : j.2 ≠ .rev) (h2 : j.2 ≠ .rot13) :
    text cs (js ++ [j]) = text cs js := by
  simp [text, count, h1, h2]

/-! ## The invariant -/

/-- Between `Lock` and `Unlock`. -/
def Thread.critical : Thread → Bool
  | .locked | .loaded _ | .stored => true
  | _ => false

/-- The task has had its effect. -/
def Thread.past : Thread → Bool
  | .stored | .done _ => true
  | _ => false

/-- What is true of a goroutine. -/
def Legal (m : Shared) (j : Job) : Thread → Prop
  | .start => True
  | .locked => Locks j.2
  | .loaded s => Locks j.2 ∧ s = m.string
  | .stored => Locks j.2
  | .done e => Ends j.2 e

/-- The tasks that have had their effect and are still executing. -/
def pasts (ts : List (Job × Thread)) : List Job := (ts.filter fun p => p.2.past).map Prod.fst

/-- How many goroutines are between `Lock` and `Unlock`. -/
def criticals (ts : List (Job × Thread)) : Nat := ts.countP fun p => p.2.critical

/-- The invariant. -/
structure Inv (cap : Nat) (cs : List Char) (s : Sys) (order : List Job) : Prop where
  run : TaskSet.Inv cap s.run
  threads : (s.threads.map Prod.fst).Perm s.run.executing
  legal : ∀ j t, (j, t) ∈ s.threads → Legal s.shared j t
  mutex : criticals s.threads = if s.shared.locked then 1 else 0
  effects : order.Perm (s.run.ran.map Prod.fst ++ pasts s.threads)
  string : s.shared.string = text cs order
  stdout : Prints cs order s.shared.stdout
  ends : ∀ j e, (j, e) ∈ s.run.ran → Ends j.2 e

theorem inv_init (cap : Nat) (cs : List Char) : Inv cap cs { shared := { string := utf8 cs } } [] :=
  ⟨TaskSet.inv_init cap, .nil, by simp, rfl, .nil, (text_nil cs).symm, .nil, by simp⟩

theorem inv_submit {cap : Nat} {cs : List Char} {s : Sys} {order : List Job} {r : St Job (Option Err)}
    (hi : Inv cap cs s order) (h : Submit cap s.run r) : Inv cap cs { s with run := r } order := by
  have h1 : r.ran = s.run.ran ∧ r.executing = s.run.executing := by cases h <;> exact ⟨rfl, rfl⟩
  exact ⟨inv_step hi.run (.inl h), by simpa [h1.2] using hi.threads, hi.legal, hi.mutex,
    by simpa [h1.1] using hi.effects, hi.string, hi.stdout, by simpa [h1.1] using hi.ends⟩

/-- One more task has had its effect. -/
theorem perm_past {l o : List Job} {a b : List (Job × Thread)} {j : Job} {t t' : Thread}
    (h : o.Perm (l ++ pasts (a ++ (j, t) :: b))) (ht : t.past = false) (ht' : t'.past = true) :
    (o ++ [j]).Perm (l ++ pasts (a ++ (j, t') :: b)) := by
  simp only [pasts, List.filter_append, List.filter_cons, ht, ht', List.map_append, if_true,
    Bool.false_eq_true, if_false, List.map_cons] at h ⊢
  rw [← List.append_assoc]
  refine (List.perm_append_singleton j o).trans (List.Perm.trans ?_ List.perm_middle.symm)
  rw [List.append_assoc]
  exact h.cons j

theorem perm_same {l o : List Job} {a b : List (Job × Thread)} {j : Job} {t t' : Thread}
    (h : o.Perm (l ++ pasts (a ++ (j, t) :: b))) (ht : t.past = t'.past) :
    o.Perm (l ++ pasts (a ++ (j, t') :: b)) := by
  cases e : t'.past <;> simpa [pasts, List.filter_cons, ht, e] using h

theorem legal_out {m m' : Shared} {a b : List (Job × Thread)} {j : Job} {t t' : Thread}
    (h : ∀ j' u, (j', u) ∈ a ++ (j, t) :: b → Legal m j' u) (ht : Legal m' j t')
    (hm : m'.string = m.string ∨ (criticals (a ++ (j, t) :: b) ≤ 1 ∧ t.critical = true)) :
    ∀ j' u, (j', u) ∈ a ++ (j, t') :: b → Legal m' j' u := by
  intro j' u hin
  simp only [List.mem_append, List.mem_cons, Prod.mk.injEq] at hin h
  have : (j', u) ∈ a ∨ (j', u) ∈ b ∨ (j' = j ∧ u = t') := by tauto
  rcases this with hin | hin | ⟨rfl, rfl⟩
  · have hl := h j' u (.inl hin)
    cases u with
    | loaded s =>
      rcases hm with hm | ⟨hm, hc⟩
      · exact ⟨hl.1, hl.2.trans hm.symm⟩
      · have : 0 < criticals a := List.countP_pos_iff.2 ⟨_, hin, rfl⟩
        simp only [criticals, List.countP_append, List.countP_cons, hc, if_true] at hm this
        omega
    | _ => exact hl
  · have hl := h j' u (.inr (.inr hin))
    cases u with
    | loaded s =>
      rcases hm with hm | ⟨hm, hc⟩
      · exact ⟨hl.1, hl.2.trans hm.symm⟩
      · have : 0 < criticals b := List.countP_pos_iff.2 ⟨_, hin, rfl⟩
        simp only [criticals, List.countP_append, List.countP_cons, hc, if_true] at hm this
        omega
    | _ => exact hl
  · exact ht

theorem criticals_split {a b : List (Job × Thread)} {j : Job} {t : Thread} :
    criticals (a ++ (j, t) :: b) = criticals a + criticals b + if t.critical then 1 else 0 := by
  simp only [criticals, List.countP_append, List.countP_cons]
  omega

theorem map_mid {a b : List (Job × Thread)} {j : Job} (t t' : Thread) :
    (a ++ (j, t) :: b).map Prod.fst = (a ++ (j, t') :: b).map Prod.fst := by simp

theorem inv_exec {cap : Nat} {cs : List Char} {s : Sys} {order : List Job}
    {a b : List (Job × Thread)} {j : Job} {t t' : Thread} {m : Shared}
    (hi : Inv cap cs s order) (h : s.threads = a ++ (j, t) :: b) (hx : Exec j.2 s.shared t m t') :
    ∃ more, Inv cap cs { s with shared := m, threads := a ++ (j, t') :: b } (order ++ more) := by
  obtain ⟨i1, i2, i3, i4, i5, i6, i7, i8⟩ := hi
  obtain ⟨run, sh, ths⟩ := s
  simp only at h hx i1 i2 i3 i4 i5 i6 i7 i8 ⊢
  subst h
  have hmap := map_mid (a := a) (b := b) (j := j) t t' ▸ i2
  have hle : criticals (a ++ (j, t) :: b) ≤ 1 := by rw [i4]; split <;> omega
  have hl := i3 j t (by simp)
  obtain ⟨id, k⟩ := j
  cases hx with
  | lock _ _ hk hf =>
    refine ⟨[], i1, hmap, legal_out i3 hk (.inl rfl), ?_, by rw [List.append_nil]; exact perm_same i5 rfl, by simpa using i6,
      by simpa using i7, i8⟩
    rw [criticals_split] at i4 ⊢
    simp only [hf] at i4
    simpa [Thread.critical] using i4
  | load _ _ hk =>
    refine ⟨[], i1, hmap, legal_out i3 ⟨hk, rfl⟩ (.inl rfl), ?_, by rw [List.append_nil]; exact perm_same i5 rfl,
      by simpa using i6, by simpa using i7, i8⟩
    rw [criticals_split] at i4 ⊢
    exact i4
  | print _ s =>
    refine ⟨[(id, .echo)], i1, hmap, legal_out i3 hl.1 (.inl rfl), ?_, perm_past i5 rfl rfl, ?_, ?_, i8⟩
    · rw [criticals_split] at i4 ⊢
      exact i4
    · rw [i6]
      exact (text_other cs order _ (by simp) (by simp)).symm
    · have := hl.2
      simp only at this ⊢
      rw [this, i6]
      exact .echo i7
  | rev _ s u hr =>
    have hs := hl.2
    rw [hs, i6, text_rev cs order id] at hr
    cases hr
    refine ⟨[(id, .rev)], i1, hmap, legal_out i3 hl.1 (.inr ⟨hle, rfl⟩), ?_, perm_past i5 rfl rfl,
      rfl, .silent i7 (by simp), i8⟩
    rw [criticals_split] at i4 ⊢
    exact i4
  | rot13 _ s =>
    have hs := hl.2
    refine ⟨[(id, .rot13)], i1, hmap, legal_out i3 hl.1 (.inr ⟨hle, rfl⟩), ?_, perm_past i5 rfl rfl,
      ?_, .silent i7 (by simp), i8⟩
    · rw [criticals_split] at i4 ⊢
      exact i4
    · simp only
      rw [hs, i6, text_rot13]
  | unlock _ _ hk =>
    refine ⟨[], i1, hmap, legal_out i3 ?_ (.inl rfl), ?_, by rw [List.append_nil]; exact perm_same i5 rfl, by simpa using i6,
      by simpa using i7, i8⟩
    · simp only at hk
      cases k <;> simp_all [Locks, Legal, Ends]
    · rw [criticals_split] at i4 hle ⊢
      simp only [Thread.critical, if_true] at hle ⊢
      simp only [Bool.false_eq_true, if_false]
      omega
  | fail _ =>
    refine ⟨[(id, .fail)], i1, hmap, legal_out i3 rfl (.inl rfl), ?_, perm_past i5 rfl rfl, ?_,
      .silent i7 (by simp), i8⟩
    · rw [criticals_split] at i4 ⊢
      exact i4
    · rw [text_other _ _ _ (by simp) (by simp)]; exact i6
  | sleep n _ =>
    refine ⟨[(id, .sleep n)], i1, hmap, legal_out i3 rfl (.inl rfl), ?_, perm_past i5 rfl rfl, ?_,
      .silent i7 (by simp), i8⟩
    · rw [criticals_split] at i4 ⊢
      exact i4
    · rw [text_other _ _ _ (by simp) (by simp)]; exact i6
  | pg q _ =>
    refine ⟨[(id, .pg q)], i1, hmap, legal_out i3 rfl (.inl rfl), ?_, perm_past i5 rfl rfl, ?_,
      .silent i7 (by simp), i8⟩
    · rw [criticals_split] at i4 ⊢
      exact i4
    · rw [text_other _ _ _ (by simp) (by simp)]; exact i6
  | sh q _ =>
    refine ⟨[(id, .sh q)], i1, hmap, legal_out i3 rfl (.inl rfl), ?_, perm_past i5 rfl rfl, ?_,
      .silent i7 (by simp), i8⟩
    · rw [criticals_split] at i4 ⊢
      exact i4
    · rw [text_other _ _ _ (by simp) (by simp)]; exact i6

theorem inv_act {cap : Nat} {cs : List Char} {s s' : Sys} {order : List Job}
    (hi : Inv cap cs s order) (h : Act cap s s') : ∃ more, Inv cap cs s' (order ++ more) := by
  cases h with
  | spawn r j h hs =>
    obtain ⟨h1, h2⟩ := move_spawn h hs
    refine ⟨[], inv_step hi.run (.inr h), ?_, ?_, ?_, ?_, by simpa using hi.string, by simpa using hi.stdout,
      by simpa [h1] using hi.ends⟩
    · simp only [List.map_append, List.map_cons, List.map_nil, h2]
      exact hi.threads.append_right _
    · intro j' t hin
      simp only [List.mem_append, List.mem_singleton, Prod.mk.injEq] at hin
      rcases hin with hin | ⟨rfl, rfl⟩
      · exact hi.legal j' t hin
      · trivial
    · have := hi.mutex
      simpa [criticals, Thread.critical] using this
    · simpa [h1, pasts, Thread.past] using hi.effects
  | exec a b j t t' m h hx => exact inv_exec hi h hx
  | finish a b j e r ht h hs =>
    obtain ⟨a', b', h1, h2⟩ := move_finish h hs
    refine ⟨[], inv_step hi.run (.inr h), ?_, ?_, ?_, ?_, by simpa using hi.string, by simpa using hi.stdout, ?_⟩
    · have := hi.threads
      rw [ht, h1, List.map_append, List.map_cons] at this
      simp only [h2, List.map_append]
      exact (List.perm_cons j).1 ((List.perm_middle.symm.trans this).trans List.perm_middle)
    · intro j' t hin
      refine hi.legal j' t ?_
      rw [ht]
      simp only [List.mem_append, List.mem_cons] at hin ⊢
      tauto
    · have := hi.mutex
      rw [ht, criticals_split] at this
      simpa [criticals, Thread.critical] using this
    · have := hi.effects
      rw [ht] at this
      simp only [pasts, List.filter_append, List.filter_cons, Thread.past, if_true, List.map_append,
        List.map_cons] at this
      simp only [List.append_nil, hs, List.map_append, pasts, List.filter_append, List.map_cons,
        List.map_nil, List.append_assoc, List.singleton_append]
      rw [← List.append_assoc] at this
      refine this.trans (List.perm_middle.trans ?_)
      rw [List.append_assoc]
      exact List.perm_middle.symm
    · intro j' e' hin
      rw [hs] at hin
      simp only [List.mem_append, List.mem_singleton, Prod.mk.injEq] at hin
      rcases hin with hin | ⟨rfl, rfl⟩
      · exact hi.ends j' e' hin
      · exact hi.legal j' (.done e') (by rw [ht]; simp)
  | other r h hs hr =>
    have h1 := move_other h hs hr
    exact ⟨[], inv_step hi.run (.inr h), by simpa [h1] using hi.threads, hi.legal, hi.mutex,
      by simpa [hr] using hi.effects, by simpa using hi.string, by simpa using hi.stdout,
      by simpa [hr] using hi.ends⟩

theorem inv_steps {cap : Nat} {cs : List Char} {s s' : Sys} {order : List Job}
    (hi : Inv cap cs s order) (h : Steps cap s s') : ∃ more, Inv cap cs s' (order ++ more) := by
  induction h with
  | refl => exact ⟨[], by simpa using hi⟩
  | tail _ hs ih =>
    obtain ⟨m1, ih⟩ := ih
    cases hs with
    | act h =>
      obtain ⟨m2, h2⟩ := inv_act ih h
      exact ⟨m1 ++ m2, by simpa using h2⟩
    | submit h => exact ⟨m1, inv_submit ih h⟩

theorem Inv.explained {cap : Nat} {cs : List Char} {s : Sys} {order : List Job}
    (hi : Inv cap cs s order) : Explained cs s order := by
  refine ⟨hi.string, hi.stdout, pasts s.threads, hi.effects,
    (s.threads.filter fun p => !p.2.past).map Prod.fst, ?_⟩
  refine hi.threads.symm.trans ?_
  rw [pasts, ← List.map_append]
  exact (List.filter_append_perm _ _).symm.map _

/-! ## Progress -/

theorem exists_exec {cap : Nat} {cs : List Char} {s : Sys} {order : List Job} (hi : Inv cap cs s order)
    {j : Job} {t : Thread} (hin : (j, t) ∈ s.threads) (ht : ∀ e, t ≠ .done e)
    (hc : t.critical = true ∨ s.shared.locked = false) : ∃ m t', Exec j.2 s.shared t m t' := by
  have hl := hi.legal j t hin
  obtain ⟨id, k⟩ := j
  cases t with
  | start =>
    have hf : s.shared.locked = false := by simpa [Thread.critical] using hc
    cases k with
    | echo => exact ⟨_, _, .lock _ _ trivial hf⟩
    | rev => exact ⟨_, _, .lock _ _ trivial hf⟩
    | rot13 => exact ⟨_, _, .lock _ _ trivial hf⟩
    | fail => exact ⟨_, _, .fail _⟩
    | sleep n => exact ⟨_, _, .sleep n _⟩
    | pg q => exact ⟨_, _, .pg q _⟩
    | sh q => exact ⟨_, _, .sh q _⟩
  | locked => exact ⟨_, _, .load _ _ hl⟩
  | loaded x =>
    have hk := hl.1
    cases k with
    | echo => exact ⟨_, _, .print _ _⟩
    | rev => exact ⟨_, _, .rev _ _ _ (Verif.Demo.rev_eq _)⟩
    | rot13 => exact ⟨_, _, .rot13 _ _⟩
    | fail => exact hk.elim
    | sleep n => exact hk.elim
    | pg q => exact hk.elim
    | sh q => exact hk.elim
  | stored => exact ⟨_, _, .unlock _ _ hl⟩
  | done e => exact absurd rfl (ht e)

theorem quiet_threads {cap : Nat} {cs : List Char} {s : Sys} {order : List Job}
    (hi : Inv cap cs s order) (hq : Quiet cap s) : s.threads = [] := by
  have hex : ∀ j t, (j, t) ∈ s.threads → (∀ e, t ≠ .done e) →
      ¬ (t.critical = true ∨ s.shared.locked = false) := by
    intro j t hin ht hc
    obtain ⟨m, t', hx⟩ := exists_exec hi hin ht hc
    obtain ⟨a, b, h⟩ := List.append_of_mem hin
    exact hq _ (.exec s a b j t t' m h hx)
  have hcrit : criticals s.threads = 0 := by
    refine List.countP_eq_zero.2 fun p hp => ?_
    intro hc
    obtain ⟨j, t⟩ := p
    refine hex j t hp ?_ (.inl hc)
    rintro e rfl
    cases hc
  have hfree : s.shared.locked = false := by
    have := hi.mutex
    rw [hcrit] at this
    cases h : s.shared.locked with
    | false => rfl
    | true => rw [h] at this; simp at this
  cases h : s.threads with
  | nil => rfl
  | cons p rest =>
    obtain ⟨j, t⟩ := p
    have hin : (j, t) ∈ s.threads := by rw [h]; simp
    by_cases hd : ∃ e, t = .done e
    · obtain ⟨e, rfl⟩ := hd
      have hj : j ∈ s.run.executing := hi.threads.mem_iff.1 (List.mem_map_of_mem (f := Prod.fst) hin)
      obtain ⟨a, b, hab⟩ := List.append_of_mem hj
      exact absurd (Act.finish s [] rest j e _ h (Move.finish s.run a b j e hab) rfl) (hq _)
    · exact absurd (.inr hfree) (hex j t hin fun e he => hd ⟨e, he⟩)

theorem quiet_run {cap : Nat} {cs : List Char} {s : Sys} {order : List Job}
    (hi : Inv cap cs s order) (hq : Quiet cap s) : TaskSet.Quiet cap s.run := by
  have ht := quiet_threads hi hq
  intro r hm
  rcases move_hist hm with ⟨h1, h2, -⟩ | ⟨j, h1, -, -⟩ | ⟨j, e, a, b, -, -, h3, -⟩
  · exact hq _ (.other s r hm h1 h2)
  · exact hq _ (.spawn s r j hm h1)
  · have := hi.threads
    rw [ht, h3] at this
    simpa using this.length_eq

/-- The steps left to a goroutine. -/
def Thread.weight : Thread → Nat
  | .start => 4
  | .locked => 3
  | .loaded _ => 2
  | .stored => 1
  | .done _ => 0

/-- The steps left without further submissions are at most this many. -/
def Sys.weight (s : Sys) : Nat := 5 * s.run.weight + (s.threads.map fun p => p.2.weight).sum

theorem weight_act {cap : Nat} {cs : List Char} {s s' : Sys} {order : List Job}
    (hi : Inv cap cs s order) (h : Act cap s s') : s'.weight < s.weight := by
  cases h with
  | spawn r j h hs =>
    have := weight_move hi.run h
    simp only [Sys.weight, List.map_append, List.map_cons, List.map_nil, List.sum_append, List.sum_cons,
      List.sum_nil, Thread.weight]
    omega
  | exec a b j t t' m h hx =>
    have : t'.weight < t.weight := by
      generalize j.2 = k at hx
      cases hx <;> simp [Thread.weight]
    simp only [Sys.weight, h, List.map_append, List.map_cons, List.sum_append, List.sum_cons]
    omega
  | finish a b j e r ht h hs =>
    have := weight_move hi.run h
    simp only [Sys.weight, ht, List.map_append, List.map_cons, List.sum_append, List.sum_cons]
    omega
  | other r h hs hr =>
    have := weight_move hi.run h
    simp only [Sys.weight]
    omega

theorem weight_acts {cap n : Nat} {cs : List Char} {s s' : Sys} {order : List Job}
    (hi : Inv cap cs s order) (h : Acts cap n s s') :
    (∃ more, Inv cap cs s' (order ++ more)) ∧ n + s'.weight ≤ s.weight := by
  induction h with
  | refl => exact ⟨⟨[], by simpa using hi⟩, by omega⟩
  | tail _ ha ih =>
    obtain ⟨⟨m, ih1⟩, ih2⟩ := ih hi
    obtain ⟨m', h'⟩ := inv_act ih1 ha
    have := weight_act ih1 ha
    exact ⟨⟨m ++ m', by simpa using h'⟩, by omega⟩

theorem start_some {n : Int} {string : Str} {cap : Nat} {s : Sys} :
    start n string = some (cap, s) ↔ 0 ≤ n ∧ cap = n.toNat ∧ s = { shared := { string := string } } := by
  unfold start
  split
  · simp; omega
  · simp only [Option.some.injEq, Prod.mk.injEq]
    constructor
    · rintro ⟨rfl, rfl⟩; exact ⟨by omega, rfl, rfl⟩
    · rintro ⟨-, rfl, rfl⟩; exact ⟨rfl, rfl⟩

end lemmas

variable {n : Int} {cs : List Char} {cap : Nat} {s0 s : Sys}

/-- C97, at every moment. A demo target with any text is started and tasks are submitted to it in any
batches; the goroutines take their steps in any order. In every state that can be reached, the text and
the output are those of executing the tasks that have ended (and perhaps some that are executing) one
at a time, in some order; and whatever happens later only adds to the end of this order. -/
theorem C97_one_at_a_time (h0 : start n (utf8 cs) = some (cap, s0)) (h : Steps cap s0 s) :
    ∃ order, Explained cs s order ∧ ∀ s', Steps cap s s' → ∃ more, Explained cs s' (order ++ more) := by
  obtain ⟨-, -, rfl⟩ := start_some.1 h0
  obtain ⟨order, hi⟩ := inv_steps (inv_init cap cs) h
  refine ⟨_, hi.explained, fun s' h' => ?_⟩
  obtain ⟨more, hi'⟩ := inv_steps hi h'
  exact ⟨more, hi'.explained⟩

/-- C97, in the end. Without further submissions the target does only finitely many steps, and when
nothing is left to do, every submitted task has been answered exactly once, with an error exactly if it
is a `fail` task or not a task for demo targets; the text depends on the numbers of `rev` and `rot13`
tasks alone; and the output is that of the tasks in some order. -/
theorem C97_final (h0 : start n (utf8 cs) = some (cap, s0)) (h : Steps cap s0 s) :
    (∃ bound, ∀ k s', Acts cap k s s' → k ≤ bound) ∧
    (Quiet cap s →
      (s.run.received.map Prod.fst).Perm s.run.submitted ∧
      (∀ j e, (j, e) ∈ s.run.received → Ends j.2 e) ∧
      s.shared.string = text cs s.run.submitted ∧
      ∃ order, order.Perm s.run.submitted ∧ Prints cs order s.shared.stdout) := by
  obtain ⟨-, -, rfl⟩ := start_some.1 h0
  obtain ⟨order, hi⟩ := inv_steps (inv_init cap cs) h
  refine ⟨⟨s.weight, fun k s' hk => ?_⟩, fun hq => ?_⟩
  · have := (weight_acts hi hk).2
    omega
  · obtain ⟨q1, q2, q3, q4, q5, q6, -⟩ := quiet_empty hi.run (quiet_run hi hq)
    have hran : s.run.ran.Perm s.run.received := by
      have := hi.run.ran
      simpa [q3, q4, q6] using this
    have hsub : s.run.submitted.Perm (s.run.ran.map Prod.fst) := by
      have h1 := hi.run.submitted
      have h2 := hi.run.started
      simp only [q1, q5, List.flatten_nil, List.nil_append] at h1
      simp only [q2, List.nil_append] at h2
      exact h1.trans h2
    have hord : ([] ++ order).Perm s.run.submitted := by
      have := hi.effects
      simp only [pasts, quiet_threads hi hq, List.filter_nil, List.map_nil, List.append_nil] at this
      exact this.trans hsub.symm
    refine ⟨((hran.map _).symm.trans hsub.symm), fun j e hin => hi.ends j e (hran.mem_iff.2 hin), ?_,
      _, hord, hi.stdout⟩
    rw [hi.string]
    simp only [text, count, hord.countP_eq]

/-! ### The hypotheses are met -/

theorem acts_submitted {cap k : Nat} {s s' : Sys} (h : Acts cap k s s') :
    Steps cap s s' ∧ s'.run.submitted = s.run.submitted := by
  induction h with
  | refl => exact ⟨.refl _, rfl⟩
  | tail _ ha ih =>
    refine ⟨.tail ih.1 (.act ha), Eq.trans ?_ ih.2⟩
    cases ha with
    | exec => rfl
    | spawn _ _ h => cases h <;> rfl
    | finish _ _ _ _ _ _ h => cases h <;> rfl
    | other _ h => cases h <;> rfl

/-- From every state a quiet one can be reached, without submissions. -/
theorem exists_quiet {cap : Nat} {cs : List Char} {s : Sys} {order : List Job} (hi : Inv cap cs s order) :
    ∃ k s', Acts cap k s s' ∧ Quiet cap s' := by
  by_contra hn
  have : ∀ k, ∃ s', Acts cap k s s' := by
    intro k
    induction k with
    | zero => exact ⟨s, .refl s⟩
    | succ k ih =>
      obtain ⟨s', ih⟩ := ih
      by_contra h
      exact hn ⟨k, s', ih, fun s'' ha => h ⟨s'', .tail ih ha⟩⟩
  obtain ⟨s', h⟩ := this (s.weight + 1)
  have := (weight_acts hi h).2
  omega

/-- A target with capacity 0, after a batch of three tasks. -/
def exampleSys : Sys :=
  { shared := { string := utf8 ['a', 'b'] },
    run := { pc := .spawn [(b!"r", .rev), (b!"e", .echo), (b!"x", .fail)],
             submitted := [(b!"r", .rev), (b!"e", .echo), (b!"x", .fail)] } }

theorem exampleSys_reached : start 0 (utf8 ['a', 'b']) = some (0, { shared := { string := utf8 ['a', 'b'] } }) ∧
    Steps 0 { shared := { string := utf8 ['a', 'b'] } } exampleSys :=
  ⟨rfl, .tail (.refl _) (.submit (.sendDirect _ _ rfl rfl rfl))⟩

/-- C97: two goroutines, the first of which has read the text and holds the mutex. -/
example : ∃ s, Steps 0 { shared := { string := utf8 ['a', 'b'] } } s ∧
    s.threads = [((b!"r", .rev), .loaded (utf8 ['a', 'b'])), ((b!"e", .echo), .start)] :=
  ⟨_, .tail (.tail (.tail (.tail exampleSys_reached.2
    (.act (.spawn _ _ (b!"r", .rev) (.spawn _ [] _ _ rfl) rfl)))
    (.act (.spawn _ _ (b!"e", .echo) (.spawn _ [] _ _ rfl) rfl)))
    (.act (.exec _ [] _ _ _ _ _ rfl (.lock _ _ trivial rfl))))
    (.act (.exec _ [] _ _ _ _ _ rfl (.load _ _ trivial))), rfl⟩

/-- C97: the batch of three can be carried out until nothing is left to do; then the text is
reversed, and what was printed is one of the two texts. -/
example : ∃ s, Steps 0 { shared := { string := utf8 ['a', 'b'] } } s ∧ Quiet 0 s ∧
    s.shared.string = b!"ba" ∧ (s.shared.stdout = b!"ab" ++ [10] ∨ s.shared.stdout = b!"ba" ++ [10]) ∧
    ((b!"x", .fail), some .fail) ∈ s.run.received := by
  obtain ⟨order, hi⟩ := inv_steps (inv_init 0 ['a', 'b']) exampleSys_reached.2
  obtain ⟨k, s, ha, hq⟩ := exists_quiet hi
  obtain ⟨hs, hsub⟩ := acts_submitted ha
  have hs' : Steps 0 { shared := { string := utf8 ['a', 'b'] } } s := by
    clear hi hq hsub ha
    induction hs with
    | refl => exact exampleSys_reached.2
    | tail _ h ih => exact .tail ih h
  obtain ⟨h1, h2, h3, o, ho, hp⟩ := (C97_final exampleSys_reached.1 hs').2 hq
  rw [hsub] at h1 h3 ho
  refine ⟨s, hs', hq, by rw [h3]; decide +kernel, ?_, ?_⟩
  · obtain ⟨p, q, rfl⟩ : ∃ p q, o = p ++ (b!"e", .echo) :: q :=
      List.append_of_mem (ho.mem_iff.2 (by simp [exampleSys]))
    have hpq : (p ++ q).Perm [(b!"r", Kind.rev), (b!"x", Kind.fail)] := by
      have h4 : ((b!"e", Kind.echo) :: (p ++ q)).Perm
          ((b!"e", .echo) :: [(b!"r", .rev), (b!"x", .fail)]) :=
        List.perm_middle.symm.trans (ho.trans (List.perm_middle (l₁ := [(b!"r", Kind.rev)])))
      exact (List.perm_cons _).1 h4
    have quietPart : ∀ (l pre : List Job) (out : Str), (∀ j ∈ l, j.2 ≠ .echo) →
        Prints ['a', 'b'] (pre ++ l) out → Prints ['a', 'b'] pre out := by
      intro l
      induction l using List.reverseRecOn with
      | nil => intro pre out _ h; simpa using h
      | append_singleton l x ih =>
        intro pre out hl h
        refine ih pre out (fun j hj => hl j (by simp [hj])) ?_
        rw [← List.append_assoc] at h
        generalize hg : pre ++ l ++ [x] = g at h
        cases h with
        | nil => simp at hg
        | echo h' =>
          obtain ⟨-, h5⟩ := List.append_inj' hg rfl
          exact absurd (congrArg Prod.snd (List.cons.inj h5).1) (hl x (by simp))
        | silent h' _ =>
          obtain ⟨h5, -⟩ := List.append_inj' hg rfl
          rw [h5]; exact h'
    have hno : ∀ j ∈ p ++ q, j.2 ≠ .echo := by
      intro j hj
      have := hpq.mem_iff.1 hj
      simp only [List.mem_cons, List.not_mem_nil, or_false] at this
      rcases this with rfl | rfl <;> simp
    have h6 := quietPart q (p ++ [(b!"e", .echo)]) _ (fun j hj => hno j (by simp [hj])) (by simpa using hp)
    generalize s.shared.stdout = printed at h6 ⊢
    generalize hg : p ++ [((b!"e" : Str), Kind.echo)] = g at h6
    cases h6 with
    | nil => simp at hg
    | silent h' hx =>
      obtain ⟨-, h7⟩ := List.append_inj' hg rfl
      rw [← (List.cons.inj h7).1] at hx
      exact absurd rfl hx
    | @echo js out id h' =>
      obtain ⟨rfl, -⟩ := List.append_inj' hg rfl
      have h8 := quietPart p [] out (fun j hj => hno j (by simp [hj])) (by simpa using h')
      have hout : out = [] := by
        generalize hg : ([] : List Job) = g at h8
        cases h8 with
        | nil => rfl
        | echo _ => simp at hg
        | silent _ _ => simp at hg
      subst hout
      have hc : count .rot13 p = 0 := by
        simp only [count, List.countP_eq_zero, decide_eq_true_eq]
        intro j hj
        have := hpq.mem_iff.1 (List.mem_append_left q hj)
        simp only [List.mem_cons, List.not_mem_nil, or_false] at this
        rcases this with rfl | rfl <;> simp
      have hr : count .rev p ≤ 1 := by
        have : count .rev (p ++ q) = 1 := hpq.countP_eq _
        simp only [count, List.countP_append] at this ⊢
        omega
      have : count .rev p = 0 ∨ count .rev p = 1 := by omega
      rcases this with h | h
      · left; simp only [text, h, hc]; decide +kernel
      · right; simp only [text, h, hc]; decide +kernel
  · obtain ⟨⟨j, e⟩, hin, rfl⟩ : ∃ r ∈ s.run.received, r.1 = ((b!"x" : Str), Kind.fail) := by
      have : ((b!"x" : Str), Kind.fail) ∈ s.run.received.map Prod.fst :=
        h1.mem_iff.2 (by simp [exampleSys])
      simpa using List.mem_map.1 this
    have := h2 _ e hin
    simp only [Ends] at this
    subst this
    exact hin

/-! ## C98: starting the targets of a loaded task set -/

/-- C98 (partial). Starting a demo target panics exactly if its `max_concurrency` is negative. Missing:
that no file with such a target is accepted, see `C98_refuted`. -/
theorem C98_start_partial (n : Int) (string : Str) :
    (0 ≤ n ↔ ∃ cap s, start n string = some (cap, s)) := by
  constructor
  · exact fun h => ⟨_, _, start_some.2 ⟨h, rfl, rfl⟩⟩
  · rintro ⟨cap, s, h⟩
    exact (start_some.1 h).1

/-- A decoder of the bodies `(max_concurrency, string)`. -/
def exampleDecoder : Decoder (Int × Str) where
  demoTarget := fun b => .ok (some b.1, b.2)
  sql := fun _ => .error b!"missing sql"
  args := fun _ => .error b!"missing args"
  nothing := fun _ => .error b!"unexpected"

/-- C98 is false of the code: a file with a negative `max_concurrency` is accepted, and its target
panics when it is started. -/
theorem C98_refuted : ∃ (d : Decoder (Int × Str)) (p : GoMap Str Factory) (src : Src (Int × Str))
    (ts : Loaded) (n : Int) (string : Str), p.WF ∧ parse d p src = .ok ts ∧
      (∃ m, ts.targets.get? b!"demo" = some m ∧ m.get? b!"t" = some (.demo n string)) ∧
      start n string = none :=
  ⟨exampleDecoder, [(b!"demo", .demo)], { targets := [⟨b!"demo", b!"t", (-1, b!"text")⟩], tasks := [] }, _,
    -1, b!"text", by decide, rfl, ⟨_, by rfl, by decide +kernel⟩, rfl⟩

/-- C98, exactly: starting the demo targets of an accepted file returns the channels, for all of them, if and only if
no block that is the last of its type and name gives a negative `max_concurrency`. -/
theorem C98_exact {B : Type} (d : Decoder B) (p : GoMap Str Factory) (src : Src B) (ts : Loaded)
    (wf : p.WF) (h : parse d p src = .ok ts) :
    (∀ typ id m n string, ts.targets.get? typ = some m → m.get? id = some (.demo n string) →
      ∃ cap s, start n string = some (cap, s)) ↔
    ∀ typ id w n string, (typ, .demo) ∈ p →
      Spec.LastWith src.targets (fun w => w.typ = typ ∧ w.id = id) w →
      d.demoTarget w.config = .ok (some n, string) → 0 ≤ n := by
  have hn := ((C62_task_sets d p wf src).2.2.1 ts h).1
  constructor
  · intro hs typ id w n string hp hw hd
    obtain ⟨m, h1, h2⟩ := (hn typ id (.demo n string)).2
      (.inl ⟨w, hw, .demo, by obtain ⟨_, _, _, ⟨rfl, _⟩, _⟩ := hw; exact hp, .demo hd⟩)
    exact (C98_start_partial n string).2 (hs typ id m n string h1 h2)
  · intro hs typ id m n string h1 h2
    refine (C98_start_partial n string).1 ?_
    rcases (hn typ id (.demo n string)).1 ⟨m, h1, h2⟩ with ⟨w, hw, f, hf, hc⟩ | ⟨-, -, f, -, hd⟩
    · cases hc with
      | demo hd => exact hs typ id w n string (by obtain ⟨_, _, _, ⟨rfl, _⟩, _⟩ := hw; exact hf) hw hd
      | demoDefault => decide
    · cases hd; decide

example : ∃ cap s, start 1 b!"text" = some (cap, s) := (C98_start_partial 1 _).1 (by decide)

/-! ## C99: the `sleep` tasks of a task set -/

/-- C99 is false of the code: no `sleep` task of any task set pauses at all, because `Seconds` cannot
be set in a file and nothing calls `Ready`. -/
theorem C99_refuted {B : Type} (d : Decoder B) (p : GoMap Str Factory) (src : Src B) (ts : Loaded)
    (wf : p.WF) (h : parse d p src = .ok ts) (id : Str) (k : Task) (n : Int)
    (hk : ts.tasks.get? id = some k) (hs : k.kind = .sleep n) : sleepPause n = 0 := by
  obtain ⟨w, -, typ, kind, t, -, -, hm, -⟩ := (((C62_task_sets d p wf src).2.2.1 ts h).2 id k).1 hk
  rw [hs] at hm
  cases hm
  decide

/-- C99 (partial). A `sleep` task pauses for `Seconds` seconds, and for one second if these are fewer
than one, once `Ready` has been called. Missing: that `Ready` is called for the tasks of a file, and the
numbers of seconds that do not fit. -/
theorem C99_sleep_partial (n : Int) (h1 : -9223372036854775808 ≤ n) (h : n ≤ 9223372036) :
    sleepPause (sleepReady n) = (max 1 n).toNat * 1000000000 := by
  have key := Verif.Demo.C33_sleep_pause_partial ⟨Int64.ofInt n⟩
  have hn : (Int64.ofInt n).toInt = n := Int64.toInt_ofInt_of_le h1 (by omega)
  simp only [hn] at key
  rw [← key h]
  unfold sleepPause sleepReady Verif.Demo.Sleep.pause Verif.Demo.Sleep.duration Verif.Demo.Sleep.check
  have hlt : (Int64.ofInt n < 1) ↔ n < 1 := by
    rw [Int64.lt_iff_toInt_lt, hn]
    exact Iff.rfl
  simp only [hlt]
  split <;> rfl

/-- There is a file with a `sleep` task that is accepted. -/
example : ∃ (d : Decoder Unit) (p : GoMap Str Factory) (src : Src Unit) (ts : Loaded) (k : Task),
    p.WF ∧ parse d p src = .ok ts ∧ ts.tasks.get? b!"s" = some k ∧ k.kind = .sleep 0 :=
  ⟨⟨fun _ => .ok (none, []), fun _ => .ok [], fun _ => .ok [], fun _ => .ok ()⟩, [(b!"demo", .demo)],
    { targets := [], tasks := [{ typ := b!"demo/sleep", id := b!"s", config := () }] }, _,
    { kind := .sleep 0 }, by decide, rfl, by decide +kernel, rfl⟩

end Verif.TaskSet.Demo
