import Verif.TaskSet.DemoProps
import Verif.TaskSet.DocProps

/-!
# C118: a client that waits for results before it goes on
-/

namespace Verif.TaskSet.Demo.Spec
open Verif TaskSet

/-- A client works in rounds: in each it submits the tasks of the round, in one batch or more, and
receives the results of all of them before the next round. `Client cap s0 rounds s`: after these rounds
the target is in state `s`. -/
inductive Client (cap : Nat) (s0 : Sys) : List (List Job) → Sys → Prop
  | start : Client cap s0 [] s0
  | round {rounds : List (List Job)} {tasks : List Job} {s s' : Sys} :
      Client cap s0 rounds s → Steps cap s s' →
      s'.run.submitted = s.run.submitted ++ tasks →
      (s'.run.received.map Prod.fst).Perm s'.run.submitted →
      Client cap s0 (rounds ++ [tasks]) s'

end Verif.TaskSet.Demo.Spec

namespace Verif.TaskSet.Demo
open Verif TaskSet Spec Run.Spec

variable {n : Int} {cap : Nat} {cs : List Char} {s0 s : Sys} {rounds : List (List Job)}

/-- When everything submitted has been received, the tasks that had their effect are those submitted. -/
theorem all_received {order : List Job} (hi : Inv cap cs s order)
    (h : (s.run.received.map Prod.fst).Perm s.run.submitted) :
    order.Perm s.run.submitted ∧ s.run.ran.Perm s.run.received := by
  have h1 := hi.run.submitted.length_eq
  have h2 := hi.run.started.length_eq
  have h3 := hi.run.ran.length_eq
  have h4 := h.length_eq
  have h5 := hi.threads.length_eq
  simp only [List.length_append, List.length_map] at h1 h2 h3 h4 h5
  have hf : s.run.finished = [] := List.length_eq_zero_iff.1 (by omega)
  have hh : s.run.pc.hand = [] := List.length_eq_zero_iff.1 (by omega)
  have hr : s.run.results = [] := List.length_eq_zero_iff.1 (by omega)
  have ht : s.threads = [] := List.length_eq_zero_iff.1 (by omega)
  have hran : s.run.ran.Perm s.run.received := by
    have := hi.run.ran
    simpa only [hf, hh, hr, List.nil_append] using this
  refine ⟨?_, hran⟩
  have he := hi.effects
  simp only [pasts, ht, List.filter_nil, List.map_nil, List.append_nil] at he
  exact he.trans ((hran.map _).trans h)

theorem client_inv (h0 : start n (utf8 cs) = some (cap, s0)) (h : Client cap s0 rounds s) :
    ∃ orders, List.Forall₂ List.Perm orders rounds ∧ Inv cap cs s orders.flatten ∧
      s.run.submitted = rounds.flatten ∧ (s.run.received.map Prod.fst).Perm s.run.submitted := by
  obtain ⟨-, -, rfl⟩ := start_some.1 h0
  induction h with
  | start => exact ⟨[], .nil, inv_init cap cs, rfl, .nil⟩
  | @round rounds tasks s s' _ hs hsub hrec ih =>
    obtain ⟨orders, hf, hi, hsub', hrec'⟩ := ih
    obtain ⟨more, hi'⟩ := inv_steps hi hs
    have hall := (all_received hi' hrec).1
    have hold := (all_received hi hrec').1
    rw [hsub] at hall
    have hmore : more.Perm tasks := (List.perm_append_left_iff _).1 ((hold.symm.append_right more).trans hall)
    refine ⟨orders ++ [more], ?_, by simpa using hi', ?_, hrec⟩
    · exact List.rel_append hf (.cons hmore .nil)
    · rw [hsub, hsub']; simp

/-- C118. After each round of a client that waits for results, the tasks have had their effect round by
round, within each round one at a time in some order: the text is the one all of them leave, the output
is what they print in that order, and every task has ended as it should. -/
theorem C118_rounds (h0 : start n (utf8 cs) = some (cap, s0)) (h : Client cap s0 rounds s) :
    s.shared.string = text cs rounds.flatten ∧
    (∃ orders, List.Forall₂ List.Perm orders rounds ∧ Prints cs orders.flatten s.shared.stdout) ∧
    (s.run.received.map Prod.fst).Perm rounds.flatten ∧
    ∀ j e, (j, e) ∈ s.run.received → Ends j.2 e := by
  obtain ⟨orders, hf, hi, hsub, hrec⟩ := client_inv h0 h
  obtain ⟨h1, h2⟩ := all_received hi hrec
  rw [hsub] at h1
  refine ⟨?_, ⟨orders, hf, hi.stdout⟩, hsub ▸ hrec, fun j e hm => hi.ends j e (h2.mem_iff.2 hm)⟩
  rw [hi.string]
  simp only [text, count, h1.countP_eq]

/-- C118. Such a client is never kept waiting for ever: in the middle of a round, when everything has been
submitted, only finitely many steps can follow, and when none is left the round is over. -/
theorem C118_round_ends {tasks : List Job} {s' : Sys} (h0 : start n (utf8 cs) = some (cap, s0))
    (h : Client cap s0 rounds s) (hs : Steps cap s s') (hsub : s'.run.submitted = s.run.submitted ++ tasks) :
    (∃ bound, ∀ k s'', Acts cap k s' s'' → k ≤ bound) ∧
    ∀ k s'', Acts cap k s' s'' → Quiet cap s'' → Client cap s0 (rounds ++ [tasks]) s'' := by
  obtain ⟨orders, hf, hi, hsub', hrec⟩ := client_inv h0 h
  obtain ⟨more, hi'⟩ := inv_steps hi hs
  have trans : ∀ {a b c : Sys}, Steps cap a b → Steps cap b c → Steps cap a c := by
    intro a b c h1 h2
    induction h2 with
    | refl => exact h1
    | tail _ hst ih => exact .tail ih hst
  have reach : Steps cap s0 s := by
    clear hf hi hsub' hrec hi' hsub hs
    induction h with
    | start => exact .refl _
    | round _ h2 _ _ ih => exact trans ih h2
  refine ⟨(C97_final h0 (trans reach hs)).1, fun k s'' ha hq => ?_⟩
  obtain ⟨hst, hss⟩ := acts_submitted ha
  obtain ⟨hp, -⟩ := (C97_final h0 (trans reach (trans hs hst))).2 hq
  exact .round h (trans hs hst) (hss.trans hsub) hp

/-- What taskset_test.go:79-123 sends to each target: the first two tasks, and when their results have
been received, the third. -/
def testRounds (msg : Str) : List (List Job) :=
  [[(msg ++ b!"/reverse", .rev), (msg ++ b!"/rotate", .rot13)], [(msg ++ b!"/decrypted", .echo)]]

/-- What the test sends is in the file, and so are the three targets. -/
theorem test_tasks : ∃ targets tasks, load [(b!"demo", .demo)] Texts.demoText = some ([(b!"demo", targets)], tasks) ∧
    (∀ m ∈ [(b!"msg1", b!"!abbcF"), (b!"msg2", b!".rvy n fv rxnp ruG"), (b!"msg3", b!".revczni n fv qyebj ruG")],
      (m.1, Target.demo 3 m.2) ∈ targets) ∧
    ∀ m ∈ [b!"msg1", b!"msg2", b!"msg3"], ∀ j ∈ (testRounds m).flatten, (j.1, { kind := j.2 }) ∈ tasks :=
  ⟨_, _, demo_loads, by decide +kernel, by decide +kernel⟩

theorem prints_nil {out : Str} (h : Prints cs [] out) : out = [] := by
  obtain ⟨l, hl⟩ : ∃ l : List Job, l = [] := ⟨_, rfl⟩
  rw [← hl] at h
  cases h with
  | nil => rfl
  | echo _ => simp at hl
  | silent _ _ => simp at hl

theorem prints_silent {js : List Job} {j : Job} {out : Str} (hj : j.2 ≠ .echo) (h : Prints cs (js ++ [j]) out) :
    Prints cs js out := by
  obtain ⟨l, hl⟩ : ∃ l, l = js ++ [j] := ⟨_, rfl⟩
  rw [← hl] at h
  cases h with
  | nil => simp at hl
  | echo h' =>
    obtain ⟨-, h5⟩ := List.append_inj' hl rfl
    cases h5
    exact absurd rfl hj
  | silent h' _ =>
    obtain ⟨rfl, -⟩ := List.append_inj' hl rfl
    exact h'

theorem prints_echo {js : List Job} {id : Str} {out : Str} (h : Prints cs (js ++ [(id, .echo)]) out) :
    ∃ out', Prints cs js out' ∧ out = out' ++ text cs js ++ [10] := by
  obtain ⟨l, hl⟩ : ∃ l : List Job, l = js ++ [(id, .echo)] := ⟨_, rfl⟩
  rw [← hl] at h
  cases h with
  | nil => simp at hl
  | echo h' =>
    obtain ⟨rfl, -⟩ := List.append_inj' hl rfl
    exact ⟨_, h', rfl⟩
  | silent h' hx =>
    obtain ⟨-, h5⟩ := List.append_inj' hl rfl
    cases h5
    exact absurd rfl hx

/-- A client that reverses and rotates, waits, and then echoes, sees the text with both done printed,
whatever the schedule. -/
theorem C118_decrypt {a b c : Str} (h0 : start n (utf8 cs) = some (cap, s0))
    (h : Client cap s0 [[(a, .rev), (b, .rot13)], [(c, .echo)]] s) :
    s.shared.stdout = utf8 ((cs.map rot13).reverse) ++ [10] ∧
    ∀ j e, (j, e) ∈ s.run.received → e = none := by
  obtain ⟨-, ⟨orders, hf, hp⟩, hr, he⟩ := C118_rounds h0 h
  constructor
  · cases hf with
    | @cons o1 _ os _ p1 hf =>
      cases hf with
      | @cons o2 _ os _ p2 hf =>
        cases hf
        obtain rfl := List.perm_singleton.1 p2
        simp only [List.flatten_cons, List.flatten_nil, List.append_nil] at hp
        obtain ⟨out, ho, hout⟩ := prints_echo hp
        have hquiet : out = [] := by
          have hno : ∀ j ∈ o1, j.2 ≠ .echo := by
            intro j hj
            have := p1.mem_iff.1 hj
            simp only [List.mem_cons, List.not_mem_nil, or_false] at this
            rcases this with rfl | rfl <;> simp
          clear hout hp p1
          induction o1 using List.reverseRecOn with
          | nil => exact prints_nil ho
          | append_singleton l x ih =>
            exact ih (prints_silent (hno x (by simp)) ho) (fun j hj => hno j (by simp [hj]))
        rw [hout, hquiet]
        simp [text, count, p1.countP_eq, mangle]
  · intro j e hm
    have hj := hr.mem_iff.1 (List.mem_map.2 ⟨_, hm, rfl⟩)
    have := he j e hm
    simp only [List.flatten_cons, List.flatten_nil, List.append_nil, List.cons_append, List.nil_append,
      List.mem_cons, List.not_mem_nil, or_false] at hj
    rcases hj with rfl | rfl | rfl <;> exact this

/-- C118 for taskset_test.go:79-123 (`TestDemoTaskExecution`): it passes under every schedule. What the three
targets print, one after the other, is what the test expects, and no task ends with an error. -/
theorem C118_demo_test (s1 s2 s3 s1' s2' s3' : Sys) (c1 c2 c3 : Nat)
    (h1 : start 3 b!"!abbcF" = some (c1, s1)) (h2 : start 3 b!".rvy n fv rxnp ruG" = some (c2, s2))
    (h3 : start 3 b!".revczni n fv qyebj ruG" = some (c3, s3))
    (r1 : Client c1 s1 (testRounds b!"msg1") s1') (r2 : Client c2 s2 (testRounds b!"msg2") s2')
    (r3 : Client c3 s3 (testRounds b!"msg3") s3') :
    s1'.shared.stdout ++ s2'.shared.stdout ++ s3'.shared.stdout =
      b!"Spoon!\nThe cake is a lie.\nThe world is a vampire.\n" ∧
    ∀ j e, (j, e) ∈ s1'.run.received ++ s2'.run.received ++ s3'.run.received → e = none := by
  obtain ⟨o1, e1⟩ := C118_decrypt (n := 3) (cs := "!abbcF".toList)
    (by rw [← h1, show utf8 "!abbcF".toList = b!"!abbcF" by decide +kernel]) r1
  obtain ⟨o2, e2⟩ := C118_decrypt (n := 3) (cs := ".rvy n fv rxnp ruG".toList)
    (by rw [← h2, show utf8 ".rvy n fv rxnp ruG".toList = b!".rvy n fv rxnp ruG" by decide +kernel]) r2
  obtain ⟨o3, e3⟩ := C118_decrypt (n := 3) (cs := ".revczni n fv qyebj ruG".toList)
    (by rw [← h3, show utf8 ".revczni n fv qyebj ruG".toList = b!".revczni n fv qyebj ruG" by decide +kernel]) r3
  constructor
  · rw [o1, o2, o3]; decide +kernel
  · intro j e hm
    simp only [List.mem_append] at hm
    rcases hm with (hm | hm) | hm
    · exact e1 j e hm
    · exact e2 j e hm
    · exact e3 j e hm

/-! ### The hypotheses are met -/

theorem acts_open {k : Nat} {s s' : Sys} (h : Acts cap k s s') : s'.run.queueClosed = s.run.queueClosed := by
  induction h with
  | refl => rfl
  | tail _ ha ih =>
    refine Eq.trans ?_ ih
    cases ha with
    | exec => rfl
    | spawn _ _ h => cases h <;> rfl
    | finish _ _ _ _ _ _ h => cases h <;> rfl
    | other _ h => cases h <;> rfl

/-- A client can do its rounds, whatever they are, if the channels have room. -/
theorem exists_client (h0 : start n (utf8 cs) = some (cap, s0)) (hc : 0 < cap) (rounds : List (List Job)) :
    ∃ s, Client cap s0 rounds s := by
  suffices ∃ s, Client cap s0 rounds s ∧ s.run.queueClosed = false ∧ s.run.queue = [] by
    obtain ⟨s, h, -⟩ := this; exact ⟨s, h⟩
  induction rounds using List.reverseRecOn with
  | nil => obtain ⟨-, -, rfl⟩ := start_some.1 h0; exact ⟨_, .start, rfl, rfl⟩
  | append_singleton rounds tasks ih =>
    obtain ⟨s, h, ho, hq⟩ := ih
    obtain ⟨orders, -, hi, -⟩ := client_inv h0 h
    have hstep : Steps cap s { s with run := { s.run with
        queue := s.run.queue ++ [tasks], submitted := s.run.submitted ++ tasks } } :=
      .tail (.refl _) (.submit (.send _ tasks ho (by rw [hq]; exact hc)))
    obtain ⟨more, hi'⟩ := inv_steps hi hstep
    obtain ⟨k, s', ha, hquiet⟩ := exists_quiet hi'
    have hi'' := (inv_steps hi' (acts_submitted ha).1)
    obtain ⟨more', hi''⟩ := hi''
    refine ⟨s', (C118_round_ends h0 h hstep rfl).2 k s' ha hquiet, ?_, ?_⟩
    · rw [acts_open ha]; exact ho
    · exact (quiet_empty hi''.run (quiet_run hi'' hquiet)).1

/-- The test can be carried out. -/
example : ∃ s, Client 3 { shared := { string := utf8 "!abbcF".toList } } (testRounds b!"msg1") s ∧
    s.shared.stdout = b!"Spoon!\n" := by
  obtain ⟨s, h⟩ := exists_client (n := 3) (cs := "!abbcF".toList) rfl (by decide) (testRounds b!"msg1")
  refine ⟨s, h, ?_⟩
  rw [(C118_decrypt (n := 3) (cs := "!abbcF".toList) rfl h).1]
  decide +kernel

end Verif.TaskSet.Demo

namespace Verif.TaskSet.Demo
open Verif TaskSet

/-- The text of a task set file with a negative `max_concurrency`. -/
def negativeText : Str := b!"target \"demo\" \"t\" {\n  string = \"text\"\n  max_concurrency = -1\n}\n"

/-- C98 is false of the code, from the text of a file on: it is accepted, and starting its target panics. -/
theorem C98_refuted_text :
    load [(b!"demo", .demo)] negativeText = some ([(b!"demo", [([], .demo 1 []), (b!"t", .demo (-1) b!"text")])], []) ∧
    start (-1) b!"text" = none :=
  ⟨by kernel_rfl, rfl⟩

end Verif.TaskSet.Demo
