import Verif.Runner.Race
import Verif.Runner.Examples

/-!
# C133: no data races
-/

namespace Verif.Runner
open Verif Dag Sched

variable {targets : GoMap Str Int} {tasks : GoMap Str Task}

section lemmas

theorem HB.mono {tr : List Ev} {i j : Nat} (h : HB tr i j) (evs : List Ev) : HB (tr ++ evs) i j := by
  have get : ∀ {i : Nat} {a : Ev}, tr[i]? = some a → (tr ++ evs)[i]? = some a := by
    intro i a hi
    rw [List.getElem?_append_left (List.getElem?_eq_some_iff.1 hi).1]
    exact hi
  induction h with
  | seq hi hj h hg => exact .seq (get hi) (get hj) h hg
  | go hi hj h hg => exact .go (get hi) (get hj) h hg
  | msg hi hj h ha hb => exact .msg (get hi) (get hj) h ha hb
  | trans _ _ ih ih' => exact .trans ih ih'

/-- Event `i` is, or happens before, event `j`. -/
def HBE (tr : List Ev) (i j : Nat) : Prop := i = j ∨ HB tr i j

theorem HBE.mono {tr : List Ev} {i j : Nat} (h : HBE tr i j) (evs : List Ev) : HBE (tr ++ evs) i j :=
  h.imp id fun h => h.mono evs

/-- Event `i` happens before whatever goroutine `g` does next. -/
def Past (tr : List Ev) (g : Gor) (i : Nat) : Prop :=
  ∃ j e, tr[j]? = some e ∧ (e.by_ = g ∨ e.op = .go g) ∧ HBE tr i j

/-- Event `i` happens before the reception of the message. -/
def Sent (tr : List Ev) (c : Msg) (i : Nat) : Prop :=
  ∃ j e, tr[j]? = some e ∧ e.op = .send c ∧ HBE tr i j

theorem get_mono {tr : List Ev} {i : Nat} {a : Ev} (hi : tr[i]? = some a) (evs : List Ev) :
    (tr ++ evs)[i]? = some a := by
  rw [List.getElem?_append_left (List.getElem?_eq_some_iff.1 hi).1]
  exact hi

theorem Past.mono {tr : List Ev} {g : Gor} {i : Nat} (h : Past tr g i) (evs : List Ev) : Past (tr ++ evs) g i := by
  obtain ⟨j, e, h1, h2, h3⟩ := h
  exact ⟨j, e, get_mono h1 evs, h2, h3.mono evs⟩

theorem Sent.mono {tr : List Ev} {c : Msg} {i : Nat} (h : Sent tr c i) (evs : List Ev) : Sent (tr ++ evs) c i := by
  obtain ⟨j, e, h1, h2, h3⟩ := h
  exact ⟨j, e, get_mono h1 evs, h2, h3.mono evs⟩

theorem past_own {tr : List Ev} {i : Nat} {e : Ev} (h : tr[i]? = some e) : Past tr e.by_ i :=
  ⟨i, e, h, .inl rfl, .inl rfl⟩

theorem get_last (tr : List Ev) (e : Ev) : (tr ++ [e])[tr.length]? = some e := by simp

theorem Past.lt {tr : List Ev} {g : Gor} {i : Nat} (h : Past tr g i) : ∃ j, j < tr.length ∧ HBE tr i j := by
  obtain ⟨j, e, h1, -, h3⟩ := h
  exact ⟨j, (List.getElem?_eq_some_iff.1 h1).1, h3⟩

/-- What has happened before happens before the next event. -/
theorem Past.last {tr : List Ev} {e : Ev} {i : Nat} (h : Past tr e.by_ i) : HB (tr ++ [e]) i tr.length := by
  obtain ⟨j, a, h1, h2, h3⟩ := h
  have hj := (List.getElem?_eq_some_iff.1 h1).1
  have hb : HB (tr ++ [e]) j tr.length := by
    rcases h2 with h2 | h2
    · exact .seq (get_mono h1 _) (get_last tr e) hj h2
    · exact .go (get_mono h1 _) (get_last tr e) hj h2
  rcases h3 with rfl | h3
  · exact hb
  · exact .trans (h3.mono _) hb

theorem Past.sent {tr : List Ev} {g : Gor} {i : Nat} (h : Past tr g i) (c : Msg) : Sent (tr ++ [⟨g, .send c⟩]) c i :=
  ⟨tr.length, _, get_last tr _, rfl, .inr (Past.last (e := ⟨g, .send c⟩) h)⟩

theorem Past.started {tr : List Ev} {g : Gor} {i : Nat} (h : Past tr g i) (g' : Gor) :
    Past (tr ++ [⟨g, .go g'⟩]) g' i :=
  ⟨tr.length, _, get_last tr _, .inr rfl, .inr (Past.last (e := ⟨g, .go g'⟩) h)⟩

theorem Sent.recv {tr : List Ev} {c : Msg} {i : Nat} (h : Sent tr c i) (g : Gor) : Past (tr ++ [⟨g, .recv c⟩]) g i := by
  obtain ⟨j, a, h1, h2, h3⟩ := h
  have hj := (List.getElem?_eq_some_iff.1 h1).1
  have hb : HB (tr ++ [⟨g, .recv c⟩]) j tr.length := .msg (get_mono h1 _) (get_last tr _) hj h2 rfl
  refine ⟨tr.length, _, get_last tr _, .inl rfl, .inr ?_⟩
  rcases h3 with rfl | h3
  · exact hb
  · exact .trans (h3.mono _) hb

/-- The event touches this memory. -/
def Ev.on (e : Ev) (l : Loc) : Prop := e.op = .read l ∨ e.op = .write l

/-- Everything that touches memory `l` satisfies `P`. -/
def On (tr : List Ev) (l : Loc) (P : Nat → Ev → Prop) : Prop := ∀ i e, tr[i]? = some e → e.on l → P i e

/-- Everything that writes memory `l` satisfies `P`. -/
def Wr (tr : List Ev) (l : Loc) (P : Nat → Ev → Prop) : Prop := ∀ i e, tr[i]? = some e → e.op = .write l → P i e

theorem get_snoc {tr : List Ev} {x e : Ev} {i : Nat} (h : (tr ++ [x])[i]? = some e) :
    tr[i]? = some e ∨ i = tr.length ∧ x = e := by
  by_cases hi : i < tr.length
  · rw [List.getElem?_append_left hi] at h; exact .inl h
  · rw [List.getElem?_append_right (by omega)] at h
    rcases Nat.eq_zero_or_pos (i - tr.length) with h0 | h0
    · rw [h0] at h; exact .inr ⟨by omega, by simpa using h⟩
    · rw [List.getElem?_eq_none (by simp; omega)] at h; cases h

theorem RaceFree.quiet {tr : List Ev} (h : RaceFree tr) (e : Ev) (he : ∀ l, ¬ e.on l) : RaceFree (tr ++ [e]) := by
  intro i j a b hi hj hij hc
  rcases get_snoc hj with hj | ⟨rfl, rfl⟩
  · rcases get_snoc hi with hi | ⟨rfl, -⟩
    · exact (h i j a b hi hj hij hc).mono _
    · have := (List.getElem?_eq_some_iff.1 hj).1; omega
  · obtain ⟨l, h1 | h1 | h1⟩ := hc
    · exact absurd (.inr h1.2) (he l)
    · exact absurd (.inl h1.2) (he l)
    · exact absurd (.inr h1.2) (he l)

theorem RaceFree.write {tr : List Ev} (h : RaceFree tr) {g : Gor} {l : Loc} (hp : On tr l fun i _ => Past tr g i) :
    RaceFree (tr ++ [⟨g, .write l⟩]) := by
  intro i j a b hi hj hij hc
  rcases get_snoc hj with hj | ⟨rfl, rfl⟩
  · rcases get_snoc hi with hi | ⟨rfl, -⟩
    · exact (h i j a b hi hj hij hc).mono _
    · have := (List.getElem?_eq_some_iff.1 hj).1; omega
  · rcases get_snoc hi with hi | ⟨rfl, -⟩
    · refine Past.last (e := ⟨g, .write l⟩) (hp i a hi ?_)
      obtain ⟨l', h1 | h1 | h1⟩ := hc <;> obtain ⟨h1, h2⟩ := h1 <;> cases h2
      · exact .inr h1
      · exact .inl h1
    · omega

theorem RaceFree.read {tr : List Ev} (h : RaceFree tr) {g : Gor} {l : Loc} (hp : Wr tr l fun i _ => Past tr g i) :
    RaceFree (tr ++ [⟨g, .read l⟩]) := by
  intro i j a b hi hj hij hc
  rcases get_snoc hj with hj | ⟨rfl, rfl⟩
  · rcases get_snoc hi with hi | ⟨rfl, -⟩
    · exact (h i j a b hi hj hij hc).mono _
    · have := (List.getElem?_eq_some_iff.1 hj).1; omega
  · rcases get_snoc hi with hi | ⟨rfl, -⟩
    · refine Past.last (e := ⟨g, .read l⟩) (hp i a hi ?_)
      obtain ⟨l', h1 | h1 | h1⟩ := hc <;> obtain ⟨h1, h2⟩ := h1 <;> cases h2
      exact h1
    · omega

/-- What touches memory after some more events. -/
theorem on_app {tr evs : List Ev} {l : Loc} {P : Nat → Ev → Prop}
    (h : ∀ i e, tr[i]? = some e → e.on l → P i e)
    (h' : ∀ e ∈ evs, e.on l → ∀ i, (tr ++ evs)[i]? = some e → P i e) : On (tr ++ evs) l P := by
  intro i e hi he
  by_cases hl : i < tr.length
  · rw [List.getElem?_append_left hl] at hi
    exact h i e hi he
  · refine h' e ?_ he i hi
    rw [List.getElem?_append_right (by omega)] at hi
    exact List.mem_of_getElem? hi

theorem wr_app {tr evs : List Ev} {l : Loc} {P : Nat → Ev → Prop}
    (h : ∀ i e, tr[i]? = some e → e.op = .write l → P i e)
    (h' : ∀ e ∈ evs, e.op = .write l → ∀ i, (tr ++ evs)[i]? = some e → P i e) : Wr (tr ++ evs) l P := by
  intro i e hi he
  by_cases hl : i < tr.length
  · rw [List.getElem?_append_left hl] at hi
    exact h i e hi he
  · refine h' e ?_ he i hi
    rw [List.getElem?_append_right (by omega)] at hi
    exact List.mem_of_getElem? hi

theorem On.wr {tr : List Ev} {l : Loc} {P : Nat → Ev → Prop} (h : On tr l P) : Wr tr l P :=
  fun i e hi he => h i e hi (.inr he)

/-- More events, which do not touch the memory or are of the same goroutine. -/
theorem On.app {tr : List Ev} {l : Loc} {g : Gor} (h : On tr l fun i _ => Past tr g i) (evs : List Ev)
    (h' : ∀ e ∈ evs, e.on l → e.by_ = g) : On (tr ++ evs) l fun i _ => Past (tr ++ evs) g i :=
  on_app (fun i e hi he => (h i e hi he).mono evs) fun e he ho i hi => by
    have := past_own hi
    rw [h' e he ho] at this
    exact this

theorem Wr.app {tr : List Ev} {l : Loc} {g : Gor} (h : Wr tr l fun i _ => Past tr g i) (evs : List Ev)
    (h' : ∀ e ∈ evs, e.op = .write l → e.by_ = g) : Wr (tr ++ evs) l fun i _ => Past (tr ++ evs) g i :=
  wr_app (fun i e hi he => (h i e hi he).mono evs) fun e he ho i hi => by
    have := past_own hi
    rw [h' e he ho] at this
    exact this

theorem Wr.sent {tr : List Ev} {l : Loc} {c : Msg} (h : Wr tr l fun i _ => Sent tr c i) (evs : List Ev)
    (h' : ∀ e ∈ evs, e.op ≠ .write l) : Wr (tr ++ evs) l fun i _ => Sent (tr ++ evs) c i :=
  wr_app (fun i e hi he => (h i e hi he).mono evs) fun e he ho => absurd ho (h' e he)

theorem On.own {tr : List Ev} {l : Loc} {g : Gor} (h : On tr l fun _ e => e.by_ = g) : On tr l fun i _ => Past tr g i :=
  fun i e hi he => by
    have := past_own hi
    rw [h i e hi he] at this
    exact this

theorem Wr.own {tr : List Ev} {l : Loc} {g : Gor} (h : Wr tr l fun _ e => e.by_ = g) : Wr tr l fun i _ => Past tr g i :=
  fun i e hi he => by
    have := past_own hi
    rw [h i e hi he] at this
    exact this

/-- Of the same goroutine, as before. -/
theorem On.by {tr : List Ev} {l : Loc} {g : Gor} (h : On tr l fun _ e => e.by_ = g) (evs : List Ev)
    (h' : ∀ e ∈ evs, e.on l → e.by_ = g) : On (tr ++ evs) l fun _ e => e.by_ = g :=
  on_app h fun e he ho _ _ => h' e he ho

/-- Settings are only read. -/
theorem RaceFree.settings {tr : List Ev} (h : RaceFree tr) (hs : ∀ q, Wr tr (.settings q) fun _ _ => False) (g : Gor)
    (qs : List Str) : RaceFree (tr ++ qs.map fun q => ⟨g, .read (.settings q)⟩) := by
  induction qs generalizing tr with
  | nil => simpa using h
  | cons q qs ih =>
    have := ih (tr := tr ++ [⟨g, .read (.settings q)⟩])
      (h.read fun i e hi he => (hs q i e hi he).elim)
      fun q' => wr_app (hs q') (by simp)
    simpa using this

end lemmas

/-- What is known of the memory in a state. -/
structure Seen (st : St) (tr : List Ev) : Prop where
  free : RaceFree tr
  runner : Wr tr .runner fun i e => e.by_ = .main ∧ Past tr .scheduler i ∧ (st.router ≠ .notStarted → Past tr .router i)
  done : On tr .done fun _ e => e.by_ = .main
  sched : On tr .sched fun _ e => e.by_ = .scheduler
  settings : ∀ q, Wr tr (.settings q) fun _ _ => False
  channels : Wr tr .channels fun i e => e.by_ = .main ∧ (st.router ≠ .notStarted → Past tr .router i)
  channels' : st.router = .notStarted → On tr .channels fun _ e => e.by_ = .main
  state : ∀ q, st.tgt q ≠ .notStarted → On tr (.state q) fun i _ => Past tr (.target q) i
  state' : ∀ q, st.tgt q = .notStarted → On tr (.state q) fun _ e => e.by_ = .main
  ready : ∀ t, t ∈ st.ready.map Prod.snd → Wr tr (.readyMsg t) fun i _ => Sent tr (.ready t) i
  held : ∀ q t, st.router = .hold q t → Wr tr (.readyMsg t) fun i _ => Past tr .router i
  running : ∀ q t, st.tgt q = .running t → Wr tr (.readyMsg t) fun i _ => Past tr (.target q) i
  reporting : ∀ q t ok, st.tgt q = .reporting t ok → Wr tr (.readyMsg t) fun i _ => Past tr (.target q) i
  fresh : ∀ t, On tr (.readyMsg t) fun _ _ => (st.sched.todo.map Prod.snd).count t + 1 ≤ (st.out.map Prod.snd).count t
  ended : ∀ t, t ∈ st.ended.map Prod.fst → Wr tr (.endedMsg t) fun i _ => Sent tr (.ended t) i
  sendDone : ∀ t, st.main = .sendDone t → Wr tr (.endedMsg t) fun i _ => Past tr .main i
  fresh' : ∀ t, On tr (.endedMsg t) fun _ _ => 1 ≤ st.after.count t

theorem Seen.init (order : List Str) : Seen (init order) begun := by
  have f0 : RaceFree [] := by intro i j a b h; simp at h
  have f1 : RaceFree ([] ++ [⟨.main, .write .runner⟩]) := f0.write (by intro i e h; simp at h)
  have f2 : RaceFree ([] ++ [⟨.main, .write .runner⟩] ++ [⟨.main, .write .done⟩]) := f1.write
    (on_app (by intro i e h; simp at h) (by simp [Ev.on]))
  have f3 := f2.quiet ⟨.main, .go .scheduler⟩ (by simp [Ev.on])
  constructor
  case free => exact f3
  case runner =>
    intro i e hi he
    have hm : e ∈ begun := List.mem_of_getElem? hi
    simp only [begun, List.mem_cons, List.not_mem_nil, or_false] at hm
    have hb : e.by_ = .main := by rcases hm with rfl | rfl | rfl <;> rfl
    refine ⟨hb, ?_, by simp [Runner.init]⟩
    have hi' : ([⟨.main, .write .runner⟩, ⟨.main, .write .done⟩] : List Ev)[i]? = some e := by
      rcases get_snoc (tr := [⟨.main, .write .runner⟩, ⟨.main, .write .done⟩]) (x := ⟨.main, .go .scheduler⟩) hi with h | ⟨-, rfl⟩
      · exact h
      · cases he
    have := past_own hi'
    rw [hb] at this
    exact this.started .scheduler
  all_goals
    intros
    first
    | exact on_app (tr := []) (evs := begun) (by intro i e h; simp at h) (by simp [begun, Ev.on])
    | exact wr_app (tr := []) (evs := begun) (by intro i e h; simp at h) (by simp [begun])
    | (exfalso; simp_all [Runner.init])

section step
variable {st st' : St} {tr evs : List Ev}

theorem mem_created {e : Ev} (h : e ∈ created targets) : e.by_ = .scheduler ∧
    (e.op = .read .runner ∨ e.op = .write .sched ∨ ∃ q, e.op = .read (.settings q)) := by
  simp only [created, List.mem_cons, List.mem_map] at h
  rcases h with rfl | rfl | ⟨q, -, rfl⟩ <;> simp

theorem Does.step (hd : Does targets tasks st st' evs) : Step targets tasks st st' := (does_iff ..).2 ⟨_, hd⟩

/-- Only `run` itself, before it starts a goroutine, writes the runner. -/
theorem Does.not_runner (hd : Does targets tasks st st' evs) : ∀ e ∈ evs, e.op ≠ .write .runner := by
  intro e he ho
  cases hd <;> first
    | (have := mem_created he; grind)
    | grind (splits := 20) (gen := 20) (ematch := 20)

theorem Does.not_settings (hd : Does targets tasks st st' evs) (q : Str) : ∀ e ∈ evs, e.op ≠ .write (.settings q) := by
  intro e he ho
  cases hd <;> first
    | (have := mem_created he; grind)
    | grind (splits := 20) (gen := 20) (ematch := 20)

theorem Does.done_by (hd : Does targets tasks st st' evs) : ∀ e ∈ evs, e.on .done → e.by_ = .main := by
  intro e he ho
  simp only [Ev.on] at ho
  cases hd <;> first
    | (have := mem_created he; grind)
    | grind (splits := 20) (gen := 20) (ematch := 20)

theorem Does.sched_by (hd : Does targets tasks st st' evs) : ∀ e ∈ evs, e.on .sched → e.by_ = .scheduler := by
  intro e he ho
  simp only [Ev.on] at ho
  cases hd <;> first
    | (have := mem_created he; grind)
    | grind (splits := 20) (gen := 20) (ematch := 20)

theorem Does.channels_by (hd : Does targets tasks st st' evs) : ∀ e ∈ evs, e.op = .write .channels →
    e.by_ = .main ∧ ∃ l, st.main = .starting l := by
  intro e he ho
  cases hd <;> first
    | (have := mem_created he; grind)
    | grind (splits := 20) (gen := 20) (ematch := 20)

/-- The router is started by the main goroutine. -/
theorem Does.router (hd : Does targets tasks st st' evs) (h : st.router = .notStarted) (h' : st'.router ≠ .notStarted) :
    ∃ a, evs = a ++ [⟨.main, .go .router⟩] := by
  cases hd
  case targetStartFail q rest h =>
    exact ⟨[⟨.main, .read .runner⟩, ⟨.main, .read (.settings q)⟩, ⟨.main, .write (.state q)⟩], rfl⟩
  case targetsStarted h => exact ⟨[], rfl⟩
  all_goals simp_all

theorem nRuns_pos {q t : Str} (hq : q ∈ targets.keys) (h : st.tgt q = .running t) : 1 ≤ nRuns targets st t := by
  unfold nRuns
  exact List.one_le_countP_iff.2 ⟨q, hq, by simp [h, TgtPC.runs]⟩

theorem before_count (t : Str) : (st.before.map Prod.snd).count t = (st.sched.todo.map Prod.snd).count t +
    (st.ready.map Prod.snd).count t + (st.router.held.map Prod.snd).count t := by
  simp [St.before]; omega

/-- Who writes a message about a task that is ready. -/
theorem Does.ready_wr (hd : Does targets tasks st st' evs) (t : Str) : ∀ e ∈ evs, e.op = .write (.readyMsg t) →
    e.by_ = .scheduler ∧ 1 ≤ (st.sched.todo.map Prod.snd).count t := by
  intro e he ho
  cases hd
  case schedSend s p todo h hc =>
    simp only [List.mem_cons, List.not_mem_nil, or_false] at he
    rcases he with rfl | rfl | rfl
    · cases ho
    · simp only [Op.write.injEq, Loc.readyMsg.injEq] at ho
      subst ho
      refine ⟨rfl, ?_⟩
      rw [h]
      simp [SchedPC.todo]
    · cases ho
  all_goals first
    | (have := mem_created he; grind)
    | grind (splits := 20) (gen := 20) (ematch := 20)

/-- Who writes a message about a task that has ended. -/
theorem Does.ended_wr (hd : Does targets tasks st st' evs) (t : Str) : ∀ e ∈ evs, e.op = .write (.endedMsg t) →
    ∃ q ok, st.tgt q = .reporting t ok := by
  intro e he ho
  cases hd
  case report q t' ok h hc =>
    simp only [List.mem_cons, List.not_mem_nil, or_false] at he
    rcases he with rfl | rfl | rfl
    · cases ho
    · simp only [Op.write.injEq, Loc.endedMsg.injEq] at ho
      subst ho
      exact ⟨q, ok, h⟩
    · cases ho
  all_goals first
    | (have := mem_created he; grind)
    | grind (splits := 20) (gen := 20) (ematch := 20)

/-- A message about a task that is ready is not touched before the task is taken from the list. -/
theorem Does.ready_on (hc : Ctl targets st) (hf : Flow targets tasks st) (hd : Does targets tasks st st' evs) (t : Str) :
    ∀ e ∈ evs, e.on (.readyMsg t) → (st'.sched.todo.map Prod.snd).count t + 1 ≤ (st'.out.map Prod.snd).count t := by
  intro e he ho
  have hcnt := hf.count t
  have hb := before_count (st := st) t
  simp only [Ev.on] at ho
  cases hd
  case schedSend s p todo h hc =>
    have : t = p.2 := by grind (splits := 20) (gen := 20) (ematch := 20)
    subst this
    simp only [h, SchedPC.todo, List.map_cons, List.count_cons_self] at hb
    simp only [SchedPC.todo]
    omega
  case routerRecv q t' rest h hr =>
    have : t = t' := by grind (splits := 20) (gen := 20) (ematch := 20)
    subst this
    simp only [hr, List.map_cons, List.count_cons_self] at hb
    show (st.sched.todo.map Prod.snd).count t + 1 ≤ (st.out.map Prod.snd).count t
    omega
  case routerSend q t' h ht =>
    have : t = t' := by grind (splits := 20) (gen := 20) (ematch := 20)
    subst this
    simp only [h, RouterPC.held, List.map_cons, List.count_cons_self] at hb
    show (st.sched.todo.map Prod.snd).count t + 1 ≤ (st.out.map Prod.snd).count t
    omega
  case report q t' ok h hcap =>
    have : t = t' := by grind (splits := 20) (gen := 20) (ematch := 20)
    subst this
    have := nReports_pos (hc.isTarget q (by rw [h]; simp)) h
    show (st.sched.todo.map Prod.snd).count t + 1 ≤ (st.out.map Prod.snd).count t
    omega
  all_goals first
    | (have := mem_created he; grind)
    | grind (splits := 20) (gen := 20) (ematch := 20)

theorem Does.fresh (hd : Does targets tasks st st' evs) (t : Str)
    (h : (st.sched.todo.map Prod.snd).count t + 1 ≤ (st.out.map Prod.snd).count t) :
    (st'.sched.todo.map Prod.snd).count t + 1 ≤ (st'.out.map Prod.snd).count t := by
  cases hd
  case schedNew s r r' h0 hn hp =>
    have := ((flat_perm hp).map Prod.snd).count_eq t
    simp only [SchedPC.todo, List.map_append, List.count_append]
    omega
  case schedNext s s' c rest r r' h0 hd hn hp =>
    have := ((flat_perm hp).map Prod.snd).count_eq t
    simp only [SchedPC.todo, List.map_append, List.count_append]
    omega
  case schedSend s p todo h0 hc =>
    simp only [h0, SchedPC.todo, List.map_cons, List.count_cons] at h
    simp only [SchedPC.todo]
    omega
  case schedNewErr => simp only [SchedPC.todo, List.map_nil, List.count_nil]; omega
  case schedRefused => simp only [SchedPC.todo, List.map_nil, List.count_nil]; omega
  case schedClosed => simp only [SchedPC.todo, List.map_nil, List.count_nil]; omega
  all_goals exact h

theorem Does.after (hd : Does targets tasks st st' evs) (t : Str) (h : 1 ≤ st.after.count t) : 1 ≤ st'.after.count t := by
  rw [after_count] at h ⊢
  cases hd <;> first
    | exact h
    | (simp_all [List.count_cons, MainPC.held]; done)
    | (simp_all [List.count_cons, MainPC.held]; omega)

theorem Does.ended_on (hd : Does targets tasks st st' evs) (t : Str) :
    ∀ e ∈ evs, e.on (.endedMsg t) → 1 ≤ st'.after.count t := by
  intro e he ho
  rw [after_count]
  simp only [Ev.on] at ho
  cases hd
  case report q t' ok h hcap =>
    have : t = t' := by grind (splits := 20) (gen := 20) (ematch := 20)
    subst this
    simp; omega
  case mainOk t' rest h0 h1 =>
    have : t = t' := by grind (splits := 20) (gen := 20) (ematch := 20)
    subst this
    simp [MainPC.held]; omega
  case mainSend t' h0 h1 =>
    have : t = t' := by grind (splits := 20) (gen := 20) (ematch := 20)
    subst this
    simp; omega
  case mainErr t' rest h0 h1 =>
    have : t = t' := by grind (splits := 20) (gen := 20) (ematch := 20)
    subst this
    simp; omega
  case mainDrain e' t' ok rest h0 h1 =>
    have : t = t' := by grind (splits := 20) (gen := 20) (ematch := 20)
    subst this
    simp; omega
  all_goals first
    | (have := mem_created he; grind)
    | grind (splits := 20) (gen := 20) (ematch := 20)

theorem Seen.step_runner (h : Seen st tr) (hd : Does targets tasks st st' evs) :
    Wr (tr ++ evs) .runner fun i e => e.by_ = .main ∧ Past (tr ++ evs) .scheduler i ∧
      (st'.router ≠ .notStarted → Past (tr ++ evs) .router i) := by
  refine wr_app (fun i e hi he => ?_) fun e he ho => absurd ho (hd.not_runner e he)
  obtain ⟨h1, h2, h3⟩ := h.runner i e hi he
  refine ⟨h1, h2.mono evs, fun hr => ?_⟩
  by_cases h0 : st.router = .notStarted
  · obtain ⟨a, rfl⟩ := hd.router h0 hr
    have := past_own hi
    rw [h1] at this
    rw [← List.append_assoc]
    exact (this.mono a).started .router
  · exact (h3 h0).mono evs

theorem Seen.step_channels (hc : Ctl targets st) (h : Seen st tr) (hd : Does targets tasks st st' evs) :
    Wr (tr ++ evs) .channels fun i e => e.by_ = .main ∧ (st'.router ≠ .notStarted → Past (tr ++ evs) .router i) := by
  refine wr_app (fun i e hi he => ?_) fun e he ho i hi => ?_
  · obtain ⟨h1, h3⟩ := h.channels i e hi he
    refine ⟨h1, fun hr => ?_⟩
    by_cases h0 : st.router = .notStarted
    · obtain ⟨a, rfl⟩ := hd.router h0 hr
      have := past_own hi
      rw [h1] at this
      rw [← List.append_assoc]
      exact (this.mono a).started .router
    · exact (h3 h0).mono evs
  · obtain ⟨h1, hl⟩ := hd.channels_by e he ho
    refine ⟨h1, fun hr => ?_⟩
    have h0 := hc.router0.2 hl
    exfalso
    cases hd
    case targetStart => exact hr h0
    all_goals first
      | (have := mem_created he; grind)
      | grind (splits := 20) (gen := 20) (ematch := 20)

theorem Seen.step_channels' (h : Seen st tr) (hd : Does targets tasks st st' evs) (hr : st'.router = .notStarted) :
    On (tr ++ evs) .channels fun _ e => e.by_ = .main := by
  have h0 : st.router = .notStarted := by cases hd <;> simp_all
  refine (h.channels' h0).by evs fun e he ho => ?_
  simp only [Ev.on] at ho
  cases hd <;> first
    | (have := mem_created he; grind)
    | grind (splits := 20) (gen := 20) (ematch := 20)

theorem Seen.step_state (hc : Ctl targets st) (h : Seen st tr) (hd : Does targets tasks st st' evs) (q : Str)
    (hq : st'.tgt q ≠ .notStarted) : On (tr ++ evs) (.state q) fun i _ => Past (tr ++ evs) (.target q) i := by
  by_cases h0 : st.tgt q = .notStarted
  · have hm := h.state' q h0
    cases hd
    case targetStart q' rest hs =>
      by_cases e : q = q'
      · subst e
        have h1 := (hm.by [⟨.main, .read .runner⟩, ⟨.main, .read (.settings q)⟩, ⟨.main, .write (.state q)⟩]
          (by simp)).own
        have h2 := on_app (tr := tr ++ [⟨.main, .read .runner⟩, ⟨.main, .read (.settings q)⟩, ⟨.main, .write (.state q)⟩])
          (evs := [⟨.main, .go (.target q)⟩] ++ [⟨.main, .write .channels⟩]) (l := .state q)
          (P := fun i _ => Past ((tr ++ [⟨.main, .read .runner⟩, ⟨.main, .read (.settings q)⟩, ⟨.main, .write (.state q)⟩]) ++
            ([⟨.main, .go (.target q)⟩] ++ [⟨.main, .write .channels⟩])) (.target q) i)
          (fun i e hi ho => by
            rw [← List.append_assoc _ [_] [_]]
            exact ((h1 i e hi ho).started (.target q)).mono _) (by simp [Ev.on])
        simpa using h2
      · simp [Function.update_of_ne e, h0] at hq
    all_goals
      exfalso
      simp_all [Function.update_apply]
      try grind
  · refine (h.state q h0).app evs fun e he ho => ?_
    have hn := hc.next_notStarted
    simp only [Ev.on] at ho
    cases hd <;> first
      | (have := mem_created he; grind)
      | grind (splits := 20) (gen := 20) (ematch := 20)

theorem Seen.step_state' (h : Seen st tr) (hd : Does targets tasks st st' evs) (q : Str)
    (hq : st'.tgt q = .notStarted) : On (tr ++ evs) (.state q) fun _ e => e.by_ = .main := by
  have h0 : st.tgt q = .notStarted := by
    cases hd <;> first | exact hq | (simp only [Function.update_apply] at hq; grind)
  refine (h.state' q h0).by evs fun e he ho => ?_
  simp only [Ev.on] at ho
  cases hd <;> first
    | (have := mem_created he; grind)
    | grind (splits := 20) (gen := 20) (ematch := 20)

/-- A message about a task elsewhere than on the scheduler's list is not written again. -/
theorem Does.ready_not_wr (wft : tasks.WF) (hf : Flow targets tasks st) (hd : Does targets tasks st st' evs) {t : Str}
    (h : 1 ≤ (st.ready.map Prod.snd).count t + (st.router.held.map Prod.snd).count t + nRuns targets st t +
      nReports targets st t + st.after.count t) : ∀ e ∈ evs, e.op ≠ .write (.readyMsg t) := by
  intro e he ho
  have := (hd.ready_wr t e he ho).2
  have := hf.le_one wft t
  have := before_count (st := st) t
  omega

theorem Does.ended_not_wr (wft : tasks.WF) (hc : Ctl targets st) (hf : Flow targets tasks st)
    (hd : Does targets tasks st st' evs) {t : Str} (h : 1 ≤ st.after.count t) : ∀ e ∈ evs, e.op ≠ .write (.endedMsg t) := by
  intro e he ho
  obtain ⟨q, ok, hq⟩ := hd.ended_wr t e he ho
  have := nReports_pos (hc.isTarget q (by rw [hq]; simp)) hq
  have := hf.le_one wft t
  omega

theorem Wr.past {l : Loc} {g : Gor} (h : Wr tr l fun i _ => Past tr g i) (h' : ∀ e ∈ evs, e.op ≠ .write l) :
    Wr (tr ++ evs) l fun i _ => Past (tr ++ evs) g i :=
  h.app evs fun e he ho => absurd ho (h' e he)

theorem Seen.step_ready (wft : tasks.WF) (hf : Flow targets tasks st) (h : Seen st tr)
    (hd : Does targets tasks st st' evs) (t : Str) (ht : t ∈ st'.ready.map Prod.snd) :
    Wr (tr ++ evs) (.readyMsg t) fun i _ => Sent (tr ++ evs) (.ready t) i := by
  by_cases h0 : t ∈ st.ready.map Prod.snd
  · refine (h.ready t h0).sent evs (hd.ready_not_wr wft hf ?_)
    have := List.one_le_count_iff.2 h0
    omega
  · cases hd
    case schedSend s p todo hs hc =>
      have : t = p.2 := by
        simp only [List.map_append, List.mem_append, List.map_cons, List.map_nil, List.mem_singleton] at ht
        exact ht.resolve_left h0
      subst this
      have hno : On tr (.readyMsg p.2) fun _ _ => False := by
        intro i e hi he
        have h1 := h.fresh p.2 i e hi he
        have h2 := hf.le_one wft p.2
        have h3 := hf.count p.2
        simp only [hs, SchedPC.todo, List.map_cons, List.count_cons_self] at h1
        omega
      have h1 : Wr (tr ++ [⟨.scheduler, .read .runner⟩, ⟨.scheduler, .write (.readyMsg p.2)⟩]) (.readyMsg p.2)
          fun i _ => Past (tr ++ [⟨.scheduler, .read .runner⟩, ⟨.scheduler, .write (.readyMsg p.2)⟩]) .scheduler i :=
        Wr.app (fun i e hi he => (hno i e hi (.inr he)).elim) _ (by simp)
      have h2 := wr_app (evs := [⟨.scheduler, .send (.ready p.2)⟩]) (fun i e hi he => (h1 i e hi he).sent (.ready p.2))
        (by simp)
      simpa using h2
    all_goals
      exfalso
      first
      | exact h0 ht
      | simp_all

theorem Seen.step_held (wft : tasks.WF) (hf : Flow targets tasks st) (h : Seen st tr)
    (hd : Does targets tasks st st' evs) (q t : Str) (ht : st'.router = .hold q t) :
    Wr (tr ++ evs) (.readyMsg t) fun i _ => Past (tr ++ evs) .router i := by
  by_cases h0 : st.router = .hold q t
  · exact (h.held q t h0).past (hd.ready_not_wr wft hf (by simp [h0, RouterPC.held]; omega))
  · cases hd
    case routerRecv q' t' rest hs hr =>
      simp only [RouterPC.hold.injEq] at ht
      obtain ⟨rfl, rfl⟩ := ht
      have h1 := (h.ready t' (by simp [hr])).sent [⟨.router, .read .runner⟩] (by simp)
      have h2 := wr_app (evs := [⟨.router, .recv (.ready t')⟩] ++ [⟨.router, .read (.readyMsg t')⟩]) (l := .readyMsg t')
        (P := fun i _ => Past ((tr ++ [⟨.router, .read .runner⟩]) ++
          ([⟨.router, .recv (.ready t')⟩] ++ [⟨.router, .read (.readyMsg t')⟩])) .router i)
        (fun i e hi he => by
          rw [← List.append_assoc _ [_] [_]]
          exact ((h1 i e hi he).recv .router).mono _) (by simp)
      simpa using h2
    all_goals
      exfalso
      first
      | exact h0 ht
      | simp_all

theorem Seen.step_running (wft : tasks.WF) (hc : Ctl targets st) (hf : Flow targets tasks st) (h : Seen st tr)
    (hd : Does targets tasks st st' evs) (q t : Str) (ht : st'.tgt q = .running t) :
    Wr (tr ++ evs) (.readyMsg t) fun i _ => Past (tr ++ evs) (.target q) i := by
  by_cases h0 : st.tgt q = .running t
  · have := nRuns_pos (hc.isTarget q (by rw [h0]; simp)) h0
    exact (h.running q t h0).past (hd.ready_not_wr wft hf (by omega))
  · cases hd
    case routerSend q' t' hs hr =>
      have : q = q' ∧ t = t' := by
        simp only [Function.update_apply] at ht
        grind
      obtain ⟨rfl, rfl⟩ := this
      have h1 := (h.held q t hs).past (evs := [⟨.router, .read (.readyMsg t)⟩, ⟨.router, .read .channels⟩]) (by simp)
      have h2 := wr_app (evs := [⟨.router, .send (.routed t)⟩] ++ [⟨.target q, .recv (.routed t)⟩] ++
          [⟨.target q, .read (.readyMsg t)⟩, ⟨.target q, .begins t⟩, ⟨.target q, .read (.settings q)⟩,
           ⟨.target q, .write (.state q)⟩])
        (l := .readyMsg t)
        (P := fun i _ => Past ((tr ++ [⟨.router, .read (.readyMsg t)⟩, ⟨.router, .read .channels⟩]) ++
          ([⟨.router, .send (.routed t)⟩] ++ [⟨.target q, .recv (.routed t)⟩] ++
          [⟨.target q, .read (.readyMsg t)⟩, ⟨.target q, .begins t⟩, ⟨.target q, .read (.settings q)⟩,
           ⟨.target q, .write (.state q)⟩])) (.target q) i)
        (fun i e hi he => by
          rw [← List.append_assoc, ← List.append_assoc]
          exact (((h1 i e hi he).sent (.routed t)).recv (.target q)).mono _) (by simp)
      simpa using h2
    all_goals
      exfalso
      first
      | exact h0 ht
      | (simp only [Function.update_apply] at ht; grind)

theorem Seen.step_reporting (wft : tasks.WF) (hc : Ctl targets st) (hf : Flow targets tasks st) (h : Seen st tr)
    (hd : Does targets tasks st st' evs) (q t : Str) (ok : Bool) (ht : st'.tgt q = .reporting t ok) :
    Wr (tr ++ evs) (.readyMsg t) fun i _ => Past (tr ++ evs) (.target q) i := by
  by_cases h0 : st.tgt q = .reporting t ok
  · have := nReports_pos (hc.isTarget q (by rw [h0]; simp)) h0
    exact (h.reporting q t ok h0).past (hd.ready_not_wr wft hf (by omega))
  · by_cases h1 : st.tgt q = .running t
    · have := nRuns_pos (hc.isTarget q (by rw [h1]; simp)) h1
      exact (h.running q t h1).past (hd.ready_not_wr wft hf (by omega))
    · exfalso
      cases hd <;> first
      | exact h0 ht
      | (simp only [Function.update_apply] at ht; grind)

theorem Seen.step_ended (wft : tasks.WF) (hc : Ctl targets st) (hf : Flow targets tasks st) (h : Seen st tr)
    (hd : Does targets tasks st st' evs) (t : Str) (ht : t ∈ st'.ended.map Prod.fst) :
    Wr (tr ++ evs) (.endedMsg t) fun i _ => Sent (tr ++ evs) (.ended t) i := by
  by_cases h0 : t ∈ st.ended.map Prod.fst
  · refine (h.ended t h0).sent evs (hd.ended_not_wr wft hc hf ?_)
    have := List.one_le_count_iff.2 h0
    rw [after_count]
    omega
  · cases hd
    case report q t' ok hs hcap =>
      have : t = t' := by
        simp only [List.map_append, List.mem_append, List.map_cons, List.map_nil, List.mem_singleton] at ht
        exact ht.resolve_left h0
      subst this
      have hno : On tr (.endedMsg t) fun _ _ => False := by
        intro i e hi he
        have h1 := h.fresh' t i e hi he
        have h2 := hf.le_one wft t
        have h3 := nReports_pos (hc.isTarget q (by rw [hs]; simp)) hs
        omega
      have h1 : Wr (tr ++ [⟨.target q, .read (.readyMsg t)⟩, ⟨.target q, .write (.endedMsg t)⟩]) (.endedMsg t)
          fun i _ => Past (tr ++ [⟨.target q, .read (.readyMsg t)⟩, ⟨.target q, .write (.endedMsg t)⟩]) (.target q) i :=
        Wr.app (fun i e hi he => (hno i e hi (.inr he)).elim) _ (by simp)
      have h2 := wr_app (evs := [⟨.target q, .send (.ended t)⟩]) (fun i e hi he => (h1 i e hi he).sent (.ended t))
        (by simp)
      simpa using h2
    all_goals
      exfalso
      first
      | exact h0 ht
      | simp_all

theorem Seen.step_sendDone (wft : tasks.WF) (hc : Ctl targets st) (hf : Flow targets tasks st) (h : Seen st tr)
    (hd : Does targets tasks st st' evs) (t : Str) (ht : st'.main = .sendDone t) :
    Wr (tr ++ evs) (.endedMsg t) fun i _ => Past (tr ++ evs) .main i := by
  by_cases h0 : st.main = .sendDone t
  · refine (h.sendDone t h0).past (hd.ended_not_wr wft hc hf ?_)
    rw [after_count]
    simp [h0, MainPC.held]
    omega
  · cases hd
    case mainOk t' rest hs he =>
      simp only [MainPC.sendDone.injEq] at ht
      subst ht
      have h1 := h.ended t' (by simp [he])
      have h2 := wr_app (evs := [⟨.main, .recv (.ended t')⟩] ++ [⟨.main, .read (.endedMsg t')⟩]) (l := .endedMsg t')
        (P := fun i _ => Past (tr ++ ([⟨.main, .recv (.ended t')⟩] ++ [⟨.main, .read (.endedMsg t')⟩])) .main i)
        (fun i e hi he => by
          rw [← List.append_assoc _ [_] [_]]
          exact ((h1 i e hi he).recv .main).mono _) (by simp)
      simpa using h2
    all_goals
      exfalso
      first
      | exact h0 ht
      | simp_all

/-- What the scheduler, and in part the router, may read of the runner. -/
theorem Seen.runner_main (h : Seen st tr) : Wr tr .runner fun i _ => Past tr .main i :=
  Wr.own fun i e hi he => (h.runner i e hi he).1

theorem Seen.runner_sched (h : Seen st tr) : Wr tr .runner fun i _ => Past tr .scheduler i :=
  fun i e hi he => (h.runner i e hi he).2.1

theorem Seen.runner_router (h : Seen st tr) (hr : st.router ≠ .notStarted) : Wr tr .runner fun i _ => Past tr .router i :=
  fun i e hi he => (h.runner i e hi he).2.2 hr

theorem Seen.channels_router (h : Seen st tr) (hr : st.router ≠ .notStarted) :
    Wr tr .channels fun i _ => Past tr .router i :=
  fun i e hi he => (h.channels i e hi he).2 hr

theorem Seen.no_settings (h : Seen st tr) (q : Str) (g : Gor) : Wr tr (.settings q) fun i _ => Past tr g i :=
  fun i e hi he => (h.settings q i e hi he).elim

theorem Seen.created (h : Seen st tr) : RaceFree (tr ++ created targets) := by
  have h1 := h.free.read h.runner_sched
  have h2 := h1.write (h.sched.own.app [⟨.scheduler, .read .runner⟩] (by simp))
  have h3 := h2.settings (fun q => wr_app (wr_app (h.settings q) (by simp)) (by simp)) .scheduler targets.keys
  simpa [Runner.created] using h3

theorem Wr.recv {l : Loc} {c : Msg} (h : Wr tr l fun i _ => Sent tr c i) (g : Gor) :
    Wr (tr ++ [⟨g, .recv c⟩]) l fun i _ => Past (tr ++ [⟨g, .recv c⟩]) g i :=
  wr_app (fun i e hi he => (h i e hi he).recv g) (by simp)

theorem Wr.send {l : Loc} {g : Gor} (h : Wr tr l fun i _ => Past tr g i) (c : Msg) :
    Wr (tr ++ [⟨g, .send c⟩]) l fun i _ => Sent (tr ++ [⟨g, .send c⟩]) c i :=
  wr_app (fun i e hi he => (h i e hi he).sent c) (by simp)

theorem Seen.step_free (wft : tasks.WF) (hc : Ctl targets st) (hf : Flow targets tasks st) (h : Seen st tr)
    (hd : Does targets tasks st st' evs) : RaceFree (tr ++ evs) := by
  have quiet : ∀ {g : Gor} {o : Op}, (∀ l, o ≠ .read l ∧ o ≠ .write l) → ∀ l, ¬ (Ev.mk g o).on l := by
    intro g o ho l he
    exact he.elim (ho l).1 (ho l).2
  cases hd
  case schedNewErr => exact h.created
  case schedNew => exact h.created
  case schedSend s p todo hs hcap =>
    have h1 := h.free.read h.runner_sched
    have h2 : RaceFree (tr ++ [⟨.scheduler, .read .runner⟩] ++ [⟨.scheduler, .write (.readyMsg p.2)⟩]) := h1.write
      (on_app (fun i e hi he => by
        have h1 := h.fresh p.2 i e hi he
        have h2 := hf.le_one wft p.2
        have h3 := hf.count p.2
        simp only [hs, SchedPC.todo, List.map_cons, List.count_cons_self] at h1
        omega) (by simp [Ev.on]))
    simpa using h2.quiet ⟨.scheduler, .send (.ready p.2)⟩ (quiet (by simp))
  case schedNext s s' c rest r r' h0 hd hn hp =>
    have h1 := h.free.quiet ⟨.scheduler, .recv (.done c)⟩ (quiet (by simp))
    simpa using h1.write (h.sched.own.app [⟨.scheduler, .recv (.done c)⟩] (by simp [Ev.on]))
  case schedRefused s s' c rest h0 hd hn =>
    have h1 := h.free.quiet ⟨.scheduler, .recv (.done c)⟩ (quiet (by simp))
    simpa using h1.write (h.sched.own.app [⟨.scheduler, .recv (.done c)⟩] (by simp [Ev.on]))
  case schedClosed => simpa using h.free
  case targetStart q rest hs =>
    have h1 := h.free.read h.runner_main
    have h2 := h1.read ((h.no_settings q .main).past (by simp))
    have h3 := h2.write (((h.state' q (hc.next_notStarted q rest hs)).own.app [⟨.main, .read .runner⟩] (by simp)).app
      [⟨.main, .read (.settings q)⟩] (by simp))
    have h4 := h3.quiet ⟨.main, .go (.target q)⟩ (quiet (by simp))
    have h5 := h4.write (((((h.channels' (hc.router0.2 ⟨_, hs⟩)).own.app [⟨.main, .read .runner⟩] (by simp)).app
      [⟨.main, .read (.settings q)⟩] (by simp)).app [⟨.main, .write (.state q)⟩] (by simp)).app
      [⟨.main, .go (.target q)⟩] (by simp))
    simpa using h5
  case targetStartFail q rest hs =>
    have h1 := h.free.read h.runner_main
    have h2 := h1.read ((h.no_settings q .main).past (by simp))
    have h3 := h2.write (((h.state' q (hc.next_notStarted q rest hs)).own.app [⟨.main, .read .runner⟩] (by simp)).app
      [⟨.main, .read (.settings q)⟩] (by simp))
    have h4 := h3.quiet ⟨.main, .go .router⟩ (quiet (by simp))
    simpa using h4
  case returnStartErr q hs =>
    have h1 := h.free.read h.done.own.wr
    have h2 := h1.write (h.done.own.app [⟨.main, .read .done⟩] (by simp))
    simpa using h2
  case targetsStarted hs => exact h.free.quiet _ (quiet (by simp))
  case routerRecv q t rest hs hr =>
    have h1 := h.free.read (h.runner_router (by rw [hs]; simp))
    have h2 := h1.quiet ⟨.router, .recv (.ready t)⟩ (quiet (by simp))
    have h3 := h2.read (((h.ready t (by simp [hr])).sent [⟨.router, .read .runner⟩] (by simp)).recv .router)
    simpa using h3
  case routerSend q t hs ht =>
    have hr := h.held q t hs
    have h1 := h.free.read hr
    have h2 := h1.read ((h.channels_router (by rw [hs]; simp)).past (by simp))
    have h3 := h2.quiet ⟨.router, .send (.routed t)⟩ (quiet (by simp))
    have h4 := h3.quiet ⟨.target q, .recv (.routed t)⟩ (quiet (by simp))
    have hq : Wr _ _ _ := ((((hr.past (evs := [⟨.router, .read (.readyMsg t)⟩]) (by simp)).past
      (evs := [⟨.router, .read .channels⟩]) (by simp)).send (.routed t)).recv (.target q))
    have h5 := h4.read hq
    have h5' := h5.quiet ⟨.target q, .begins t⟩ (quiet (by simp))
    have h6 := h5'.read (g := .target q) (l := .settings q) (fun i e hi he => by
      have := wr_app (wr_app (wr_app (wr_app (wr_app (wr_app (h.settings q) (by simp)) (by simp)) (by simp)) (by simp)) (by simp))
        (by simp) i e hi he
      exact this.elim)
    have hs' := h.state q (by rw [ht]; simp)
    have h7 := h6.write ((((((((hs'.app [⟨.router, .read (.readyMsg t)⟩] (by simp [Ev.on])).app
      [⟨.router, .read .channels⟩] (by simp [Ev.on])).app [⟨.router, .send (.routed t)⟩] (by simp [Ev.on])).app
      [⟨.target q, .recv (.routed t)⟩] (by simp [Ev.on])).app [⟨.target q, .read (.readyMsg t)⟩] (by simp [Ev.on])).app
      [⟨.target q, .begins t⟩] (by simp [Ev.on])).app [⟨.target q, .read (.settings q)⟩] (by simp [Ev.on])))
    simpa using h7
  case routerClosed hs hr hst =>
    have h1 := h.free.read (h.runner_router (by rw [hs]; simp))
    have h2 := h1.read ((h.channels_router (by rw [hs]; simp)).past (by simp))
    simpa using h2
  case routerDone hs ht => exact h.free.read (h.runner_router (by rw [hs]; simp))
  case handleEnd q t ok hs =>
    have h1 := h.free.read (h.no_settings q (.target q))
    have h2 := h1.write ((h.state q (by rw [hs]; simp)).app [⟨.target q, .read (.settings q)⟩] (by simp))
    simpa using h2.quiet ⟨.target q, .ends t ok⟩ (quiet (by simp))
  case report q t ok hs hcap =>
    have h1 := h.free.read (h.reporting q t ok hs)
    have h2 : RaceFree (tr ++ [⟨.target q, .read (.readyMsg t)⟩] ++ [⟨.target q, .write (.endedMsg t)⟩]) := h1.write
      (on_app (fun i e hi he => by
        have h1 := h.fresh' t i e hi he
        have h2 := hf.le_one wft t
        have h3 := nReports_pos (hc.isTarget q (by rw [hs]; simp)) hs
        omega) (by simp [Ev.on]))
    simpa using h2.quiet ⟨.target q, .send (.ended t)⟩ (quiet (by simp))
  case targetClosed => simpa using h.free
  case targetStop q hs => exact h.free.write (h.state q (by rw [hs]; simp))
  case mainOk t rest hs he =>
    have h1 := h.free.quiet ⟨.main, .recv (.ended t)⟩ (quiet (by simp))
    have h2 := h1.read ((h.ended t (by simp [he])).recv .main)
    simpa using h2
  case mainSend t hs hcap =>
    have h1 := h.free.read h.done.own.wr
    have h2 := h1.read ((h.sendDone t hs).past (by simp))
    simpa using h2.quiet ⟨.main, .send (.done t)⟩ (quiet (by simp))
  case mainErr t rest hs he =>
    have h1 := h.free.quiet ⟨.main, .recv (.ended t)⟩ (quiet (by simp))
    have h2 := h1.read ((h.ended t (by simp [he])).recv .main)
    have hd := (h.done.own.app [⟨.main, .recv (.ended t)⟩] (by simp)).app [⟨.main, .read (.endedMsg t)⟩] (by simp)
    have h3 := h2.read hd.wr
    have h4 := h3.write (hd.app [⟨.main, .read .done⟩] (by simp))
    simpa using h4
  case mainEnd1 => simpa using h.free
  case mainDrain e t ok rest hs he =>
    have h1 := h.free.quiet ⟨.main, .recv (.ended t)⟩ (quiet (by simp))
    have h2 := h1.read ((h.ended t (by simp [he])).recv .main)
    simpa using h2
  case mainReturn e hs he hr =>
    have h1 := h.free.read h.done.own.wr
    have h2 := h1.write (h.done.own.app [⟨.main, .read .done⟩] (by simp))
    simpa using h2

theorem Seen.step (wft : tasks.WF) (hc : Ctl targets st) (hf : Flow targets tasks st) (h : Seen st tr)
    (hd : Does targets tasks st st' evs) : Seen st' (tr ++ evs) where
  free := h.step_free wft hc hf hd
  runner := h.step_runner hd
  done := h.done.by evs hd.done_by
  sched := h.sched.by evs hd.sched_by
  settings q := wr_app (h.settings q) fun e he ho => absurd ho (hd.not_settings q e he)
  channels := h.step_channels hc hd
  channels' := h.step_channels' hd
  state := h.step_state hc hd
  state' := h.step_state' hd
  ready := h.step_ready wft hf hd
  held := h.step_held wft hf hd
  running := h.step_running wft hc hf hd
  reporting := h.step_reporting wft hc hf hd
  fresh t := on_app (fun i e hi he => hd.fresh t (h.fresh t i e hi he)) fun e he ho _ _ => hd.ready_on hc hf t e he ho
  ended := h.step_ended wft hc hf hd
  sendDone := h.step_sendDone wft hc hf hd
  fresh' t := on_app (fun i e hi he => hd.after t (h.fresh' t i e hi he)) fun e he ho _ _ => hd.ended_on t e he ho

end step

theorem Watched.reach {st : St} {tr : List Ev} (h : Watched targets tasks st tr) : Reach targets tasks st := by
  induction h with
  | init order h => exact .init order h
  | step _ hd ih => exact .step ih hd.step

/-- Whatever a run does can be watched. -/
theorem watched_iff {st : St} : Reach targets tasks st ↔ ∃ tr, Watched targets tasks st tr := by
  constructor
  · intro h
    induction h with
    | init order h => exact ⟨_, .init order h⟩
    | step _ hs ih =>
      obtain ⟨tr, ih⟩ := ih
      obtain ⟨evs, hd⟩ := (does_iff ..).1 hs
      exact ⟨_, .step ih hd⟩
  · rintro ⟨tr, h⟩
    exact h.reach

theorem Watched.seen (wf : targets.WF) (wft : tasks.WF) {st : St} {tr : List Ev} (h : Watched targets tasks st tr) :
    Seen st tr := by
  induction h with
  | init order h => exact Seen.init order
  | step h hd ih =>
    obtain ⟨hc, hf⟩ := h.reach.inv wf wft
    exact ih.step wft hc hf hd

/-- **C133.** Whatever the targets, the tasks and the schedule: of two accesses to the same memory one of which writes, one
happens before the other. -/
theorem C133_no_race (wf : targets.WF) (wft : tasks.WF) {st : St} {tr : List Ev} (h : Watched targets tasks st tr) :
    RaceFree tr := (h.seen wf wft).free

/-- How often a message is sent. -/
def sends (tr : List Ev) (c : Msg) : Nat := tr.countP fun e => e.op = .send c

theorem sends_append (a b : List Ev) (c : Msg) : sends (a ++ b) c = sends a c + sends b c := List.countP_append

theorem sends_created (c : Msg) : sends (created targets) c = 0 := by
  simp only [sends, List.countP_eq_zero]
  intro e he
  have := mem_created he
  grind

/-- Every message sent is about a task on its way. -/
structure Mailed (st : St) (tr : List Ev) : Prop where
  ready : ∀ t, sends tr (.ready t) + (st.sched.todo.map Prod.snd).count t = (st.out.map Prod.snd).count t
  routed : ∀ t, sends tr (.routed t) = starts st.trace t
  ended : ∀ t, sends tr (.ended t) = st.after.count t
  done : ∀ t, sends tr (.done t) + (st.ended.map Prod.fst).count t + st.main.held.count t ≤ st.after.count t

theorem Mailed.step {st st' : St} {tr evs : List Ev} (hf : Flow targets tasks st) (h : Mailed st tr)
    (hd : Does targets tasks st st' evs) : Mailed st' (tr ++ evs) := by
  constructor
  · intro t
    have ht := h.ready t
    rw [sends_append]
    cases hd
    case schedNewErr e h0 hn => rw [sends_created]; simpa [h0, SchedPC.todo] using ht
    case schedNew s r r' h0 hn hp =>
      have := ((flat_perm hp).map Prod.snd).count_eq t
      simp only [h0, SchedPC.todo, List.map_nil, List.count_nil] at ht
      simp only [sends_created, SchedPC.todo, List.map_append, List.count_append]
      omega
    case schedNext s s' c rest r r' h0 hd hn hp =>
      have := ((flat_perm hp).map Prod.snd).count_eq t
      simp only [h0, SchedPC.todo, List.map_nil, List.count_nil] at ht
      simp only [SchedPC.todo, List.map_append, List.count_append]
      simp [sends] at ht ⊢
      omega
    case schedSend s p todo h0 hc =>
      simp only [h0, SchedPC.todo, List.map_cons, List.count_cons] at ht
      simp [sends, SchedPC.todo, List.countP_cons] at ht ⊢
      omega
    all_goals
      simp_all [sends, SchedPC.todo]
  · intro t
    have ht := h.routed t
    rw [sends_append]
    cases hd
    case schedNewErr => rw [sends_created]; exact ht
    case schedNew => rw [sends_created]; exact ht
    all_goals simp_all [sends, starts, Event.isStart, List.countP_cons]
  · intro t
    have ht := h.ended t
    rw [sends_append]
    rw [after_count] at ht ⊢
    cases hd
    case schedNewErr => rw [sends_created]; exact ht
    case schedNew => rw [sends_created]; exact ht
    all_goals
      simp_all [sends, List.countP_cons, List.count_cons, MainPC.held]
      try omega
  · intro t
    have ht := h.done t
    rw [sends_append]
    rw [after_count] at ht ⊢
    cases hd
    case schedNewErr => rw [sends_created]; exact ht
    case schedNew => rw [sends_created]; exact ht
    all_goals
      simp_all [sends, List.countP_cons, List.count_cons, MainPC.held]
      try omega

theorem Watched.mailed (wf : targets.WF) (wft : tasks.WF) {st : St} {tr : List Ev} (h : Watched targets tasks st tr) :
    Mailed st tr := by
  induction h with
  | init order h => constructor <;> simp [sends, begun, Runner.init, SchedPC.todo, starts, St.after, MainPC.held]
  | step h hd ih => exact ih.step (h.reach.inv wf wft).2 hd

/-- **C133.** No message is sent twice: what is received is what was sent under that name. -/
theorem C133_sent_once (wf : targets.WF) (wft : tasks.WF) {st : St} {tr : List Ev} (h : Watched targets tasks st tr)
    (c : Msg) : sends tr c ≤ 1 := by
  have hm := h.mailed wf wft
  obtain ⟨hc, hf⟩ := h.reach.inv wf wft
  cases c with
  | ready t =>
    have := hm.ready t
    have := hf.le_one wft t
    have := hf.count t
    omega
  | routed t =>
    have := hm.routed t
    have := hf.le_one wft t
    have := hf.nstarts t
    omega
  | ended t =>
    have := hm.ended t
    have := hf.le_one wft t
    omega
  | done t =>
    have := hm.done t
    have := hf.le_one wft t
    omega

/-- A run in which the target's memory is written by the main goroutine and then by the target's, and a message by the
scheduler and then read by both the router and the target: the hypotheses of C133 hold of it, and there is something that
could be a race. -/
example : ∃ (st : St) (tr : List Ev), Watched okTargets okTasks st tr ∧
    (∃ (i j : Nat) (a b : Ev), tr[i]? = some a ∧ tr[j]? = some b ∧ i < j ∧ a.by_ ≠ b.by_ ∧ Conflict a.op b.op) ∧
    (⟨.scheduler, .write (.readyMsg b!"a")⟩ : Ev) ∈ tr ∧ (⟨.target b!"x", .read (.readyMsg b!"a")⟩ : Ev) ∈ tr ∧
    (⟨.main, .read (.endedMsg b!"a")⟩ : Ev) ∈ tr := by
  have r0 : Watched okTargets okTasks _ _ := Watched.init [b!"x"] (List.Perm.refl _)
  have r1 := Watched.step r0 (Does.targetStart _ b!"x" [] rfl)
  have r2 := Watched.step r1 (Does.targetsStarted _ rfl)
  have r3 := Watched.step r2 (Does.schedNew _ _ _ _ rfl rfl (List.Perm.refl _))
  have r4 := Watched.step r3 (Does.schedSend _ _ (b!"x", b!"a") [] rfl (by decide))
  have r5 := Watched.step r4 (Does.routerRecv _ b!"x" b!"a" [] rfl rfl)
  have r6 := Watched.step r5 (Does.routerSend _ b!"x" b!"a" rfl rfl)
  have r7 := Watched.step r6 (Does.handleEnd _ b!"x" b!"a" true rfl)
  have r8 := Watched.step r7 (Does.report _ b!"x" b!"a" true rfl (by decide))
  have r9 := Watched.step r8 (Does.mainOk _ b!"a" [] rfl rfl)
  refine ⟨_, _, r9, ⟨5, 25, ⟨.main, .write (.state b!"x")⟩, ⟨.target b!"x", .write (.state b!"x")⟩, rfl, rfl, by decide,
    by decide, .state b!"x", .inl ⟨rfl, rfl⟩⟩, by decide, by decide, by decide⟩

/-- Without the message there would be a race. -/
example : ¬ RaceFree [⟨.scheduler, .write (.readyMsg b!"a")⟩, ⟨.router, .read (.readyMsg b!"a")⟩] := by
  intro h
  have hb := h 0 1 _ _ rfl rfl (by decide) ⟨_, .inr (.inl ⟨rfl, rfl⟩)⟩
  have key : ∀ i j, HB [⟨.scheduler, .write (.readyMsg b!"a")⟩, ⟨.router, .read (.readyMsg b!"a")⟩] i j → False := by
    intro i j h
    induction h with
    | @seq i j a b hi hj h hg =>
      obtain ⟨hl, -⟩ := List.getElem?_eq_some_iff.1 hj
      have : i = 0 ∧ j = 1 := by simp at hl; omega
      obtain ⟨rfl, rfl⟩ := this
      simp at hi hj; subst hi hj; simp at hg
    | @go i j a b hi hj h hg =>
      obtain ⟨hl, -⟩ := List.getElem?_eq_some_iff.1 hj
      have : i = 0 ∧ j = 1 := by simp at hl; omega
      obtain ⟨rfl, rfl⟩ := this
      simp at hi; subst hi; simp at hg
    | @msg i j a b c hi hj h ha hb =>
      obtain ⟨hl, -⟩ := List.getElem?_eq_some_iff.1 hj
      have : i = 0 ∧ j = 1 := by simp at hl; omega
      obtain ⟨rfl, rfl⟩ := this
      simp at hi; subst hi; simp at ha
    | trans _ _ ih _ => exact ih
  exact key 0 1 hb

end Verif.Runner
