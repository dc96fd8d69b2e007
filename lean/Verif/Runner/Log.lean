import Verif.Runner.Props

/-!
# C121: the debug log of a run

The lines of the debug log that name a task or a target, in finer steps than those of `Runner.Step` where a goroutine
logs a line and goes on only later: in between the other goroutines go on.  Lines that name nothing ("runner: started")
are left out.
-/

namespace Verif.Runner
open Verif Dag Sched

/-- The lines of the debug log that name a task or a target. -/
inductive Line where
  /-- runner.go:105 "scheduler: task ready" -/
  | ready (t q : Str)
  /-- runner.go:148 "router: task ready" -/
  | routed (t q : Str)
  /-- runner.go:74, 86 "runner: task ended"; `err` if it ended with an error -/
  | ended (t : Str) (err : Bool)
  /-- runner.go:130 "starting target" -/
  | starting (q : Str)
  /-- runner.go:140 "target started" -/
  | started (q : Str)
deriving DecidableEq

/-- The task a line names, if it names one. -/
def Line.task : Line → Option Str
  | .ready t _ => some t
  | .routed t _ => some t
  | .ended t _ => some t
  | _ => none

/-- The target the lines of main name, if they name one. -/
def Line.target : Line → Option Str
  | .starting q => some q
  | .started q => some q
  | _ => none

/-- The state of a run with its log.  `sAnn`, `rAnn`, `mAnn`: the scheduler, the router, main has logged the line about
what it is going to do next and has not done it yet. -/
structure Logged where
  st : St
  sAnn : Bool := false
  rAnn : Bool := false
  mAnn : Bool := false
  log : List Line := []

section
variable (targets : GoMap Str Int) (tasks : GoMap Str Task)

/-- One action, or one line. -/
inductive LStep : Logged → Logged → Prop
  /-- runner.go:105 -/
  | sayReady {s : Logged} {sc : Scheduler} {q t : Str} {todo : List (Str × Str)}
      (h : s.st.sched = .sending sc ((q, t) :: todo)) (ha : s.sAnn = false) :
      LStep s { s with sAnn := true, log := s.log ++ [.ready t q] }
  /-- runner.go:107-112, after 105 -/
  | send {s : Logged} {st' : St} {sc : Scheduler} {p : Str × Str} {todo : List (Str × Str)}
      (hs : Step targets tasks s.st st') (h : s.st.sched = .sending sc (p :: todo)) (h' : st'.sched = .sending sc todo)
      (ha : s.sAnn = true) : LStep s { s with st := st', sAnn := false }
  /-- runner.go:148 -/
  | sayRouted {s : Logged} {q t : Str} (h : s.st.router = .hold q t) (ha : s.rAnn = false) :
      LStep s { s with rAnn := true, log := s.log ++ [.routed t q] }
  /-- runner.go:150, after 148 -/
  | route {s : Logged} {st' : St} {q t : Str} (hs : Step targets tasks s.st st') (h : s.st.router = .hold q t)
      (h' : st'.router = .recv) (ha : s.rAnn = true) : LStep s { s with st := st', rAnn := false }
  /-- runner.go:73-74, 85-86: main receives from `ended` and logs it.  Nobody else can tell when it receives: there is
  always room in `ended` (C24). -/
  | sayEnded {s : Logged} {st' : St} {t : Str} {ok : Bool} (hs : Step targets tasks s.st st')
      (h : s.st.ended = (t, ok) :: st'.ended) : LStep s { s with st := st', log := s.log ++ [.ended t (!ok)] }
  /-- runner.go:130 -/
  | sayStarting {s : Logged} {q : Str} {rest : List Str} (h : s.st.main = .starting (q :: rest)) (ha : s.mAnn = false) :
      LStep s { s with mAnn := true, log := s.log ++ [.starting q] }
  /-- runner.go:131-140, after 130.  Nobody else can tell when the target is started: the router starts later. -/
  | sayStarted {s : Logged} {st' : St} {q : Str} {rest : List Str} (hs : Step targets tasks s.st st')
      (h : s.st.main = .starting (q :: rest)) (h' : st'.main = .starting rest) (ha : s.mAnn = true) :
      LStep s { s with st := st', mAnn := false, log := s.log ++ [.started q] }
  /-- runner.go:131-134, after 130 -/
  | startFailed {s : Logged} {st' : St} {q : Str} {rest : List Str} (hs : Step targets tasks s.st st')
      (h : s.st.main = .starting (q :: rest)) (h' : st'.main = .failing q) (ha : s.mAnn = true) :
      LStep s { s with st := st', mAnn := false }
  /-- All other actions log nothing that names a task or a target. -/
  | quiet {s : Logged} {st' : St} (hs : Step targets tasks s.st st')
      (h1 : ∀ sc p todo, s.st.sched = .sending sc (p :: todo) → st'.sched = s.st.sched)
      (h2 : ∀ q t, s.st.router = .hold q t → st'.router = s.st.router)
      (h3 : ∀ x, s.st.ended ≠ x :: st'.ended)
      (h4 : ∀ q rest, s.st.main = .starting (q :: rest) → st'.main = s.st.main) :
      LStep s { s with st := st' }

/-- The states a run can be in, with its log. -/
inductive LReach : Logged → Prop
  | init (order : List Str) (h : order.Perm targets.keys) : LReach { st := init order }
  | step {s s' : Logged} (h : LReach s) (hs : LStep targets tasks s s') : LReach s'

end

/-- Without the log, the states are those of `Reach`. -/
theorem LReach.reach {targets : GoMap Str Int} {tasks : GoMap Str Task} {s : Logged} (h : LReach targets tasks s) :
    Reach targets tasks s.st := by
  induction h with
  | init order h => exact .init order h
  | step _ hs ih =>
    cases hs with
    | sayReady => exact ih
    | sayRouted => exact ih
    | sayStarting => exact ih
    | send hs => exact .step ih hs
    | route hs => exact .step ih hs
    | sayEnded hs => exact .step ih hs
    | sayStarted hs => exact .step ih hs
    | startFailed hs => exact .step ih hs
    | quiet hs => exact .step ih hs

/-- The lines about a task. -/
def about (t : Str) (log : List Line) : List Line := log.filter fun l => l.task = some t

/-- The lines about the start of a target. -/
def aboutTarget (q : Str) (log : List Line) : List Line := log.filter fun l => l.target = some q

variable {targets : GoMap Str Int} {tasks : GoMap Str Task}

/-- What a step does to the tasks the scheduler has yet to send. -/
theorem step_todo {st st' : St} (hs : Step targets tasks st st') (t : Str) :
    (∃ sc p todo, st.sched = .sending sc (p :: todo) ∧ st'.sched = .sending sc todo ∧ st'.out = st.out) ∨
    (st'.sched = st.sched ∧ st'.out = st.out) ∨
    (st.sched.todo = [] ∧ (st'.out.map Prod.snd).count t = (st.out.map Prod.snd).count t +
      (st'.sched.todo.map Prod.snd).count t) := by
  cases hs with
  | schedNew s r r' h hn hp =>
    have := ((flat_perm hp).map Prod.snd).count_eq t
    exact .inr (.inr ⟨by simp [h, SchedPC.todo], by simp [SchedPC.todo, this]⟩)
  | schedNext s s' c rest r r' h hd hn hp =>
    have := ((flat_perm hp).map Prod.snd).count_eq t
    exact .inr (.inr ⟨by simp [h, SchedPC.todo], by simp [SchedPC.todo, this]⟩)
  | schedSend s p todo h => exact .inl ⟨s, p, todo, h, rfl, rfl⟩
  | schedNewErr e h => exact .inr (.inr ⟨by simp [h, SchedPC.todo], by simp [SchedPC.todo]⟩)
  | schedRefused s s' c rest h => exact .inr (.inr ⟨by simp [h, SchedPC.todo], by simp [SchedPC.todo]⟩)
  | schedClosed s h => exact .inr (.inr ⟨by simp [h, SchedPC.todo], by simp [SchedPC.todo]⟩)
  | _ => exact .inr (.inl ⟨rfl, rfl⟩)

/-- Tasks that main has received from `ended`. -/
def St.seen (st : St) : List Str := st.main.held ++ st.done ++ st.completed ++ st.dropped

/-- What a step does to them. -/
theorem step_seen {st st' : St} (hs : Step targets tasks st st') (t : Str) :
    (∃ x, st.ended = x :: st'.ended ∧ st'.seen.count t = st.seen.count t + (if x.1 = t then 1 else 0)) ∨
    ((∀ x, st.ended ≠ x :: st'.ended) ∧ st'.seen.count t = st.seen.count t) := by
  have ne : ∀ {α : Type} {l : List α} (x : α), l ≠ x :: l := by
    intro α l x h
    simpa using congrArg List.length h
  have ne' : ∀ {α : Type} {l : List α} (x y : α), l ≠ x :: (l ++ [y]) := by
    intro α l x y h
    have := congrArg List.length h
    simp at this
    omega
  cases hs with
  | mainOk t' rest h he =>
    refine .inl ⟨_, he, ?_⟩
    simp [St.seen, h, MainPC.held, List.count_cons]
    try omega
  | mainErr t' rest h he =>
    refine .inl ⟨_, he, ?_⟩
    simp [St.seen, h, MainPC.held, List.count_cons]
    try omega
  | mainDrain e t' ok rest h he =>
    refine .inl ⟨_, he, ?_⟩
    simp [St.seen, h, MainPC.held, List.count_cons]
    try omega
  | report q t' ok h hc => exact .inr ⟨fun x => ne' _ _, rfl⟩
  | _ =>
    refine .inr ⟨fun x => ne _, ?_⟩
    simp_all [St.seen, MainPC.held, List.count_cons]
    try omega

/-- What a step does to the router. -/
theorem step_router {st st' : St} (hc : Ctl targets st) (hs : Step targets tasks st st') :
    (∃ q t, st.router = .hold q t ∧ st'.router = .recv ∧ st'.trace = st.trace ++ [.handleStart q t]) ∨
    ((∀ t, starts st'.trace t = starts st.trace t) ∧ (st'.router = st.router ∨ ∀ q t, st.router ≠ .hold q t)) := by
  have h0 := hc.router0
  cases hs with
  | routerSend q t h => exact .inl ⟨q, t, h, rfl, rfl⟩
  | _ =>
    refine .inr ⟨?_, ?_⟩
    · simp [starts, Event.isStart]
    · simp_all

/-! ## The lines about a task -/

def Line.isReady : Line → Bool
  | .ready _ _ => true
  | _ => false

def Line.isRouted : Line → Bool
  | .routed _ _ => true
  | _ => false

def Line.isEnded : Line → Bool
  | .ended _ _ => true
  | _ => false

theorem about_append (t : Str) (log : List Line) (x : Line) :
    about t (log ++ [x]) = about t log ++ if x.task = some t then [x] else [] := by
  simp only [about, List.filter_append]
  by_cases h : x.task = some t <;> simp [h]

/-- Whether the scheduler has logged that `t` is ready and is about to send it. -/
def Logged.announces (s : Logged) (t : Str) : Nat :=
  match s.sAnn, s.st.sched.todo with
  | true, p :: _ => if p.2 = t then 1 else 0
  | _, _ => 0

/-- Whether the router has logged that it is about to pass on `t`. -/
def Logged.passes (s : Logged) (t : Str) : Nat :=
  if s.rAnn then (s.st.router.held.map Prod.snd).count t else 0

structure LInv (s : Logged) : Prop where
  sAnn : s.sAnn = true → s.st.sched.todo ≠ []
  rAnn : s.rAnn = true → ∃ q t, s.st.router = .hold q t
  nReady : ∀ t, (about t s.log).countP Line.isReady + (s.st.sched.todo.map Prod.snd).count t =
    (s.st.out.map Prod.snd).count t + s.announces t
  nRouted : ∀ t, (about t s.log).countP Line.isRouted = starts s.st.trace t + s.passes t
  nEnded : ∀ t, (about t s.log).countP Line.isEnded = s.st.seen.count t
  readyOut : ∀ t q, .ready t q ∈ s.log → (q, t) ∈ s.st.out
  ends : ∀ t err, .ended t err ∈ s.log → ∃ q, .handleEnd q t (!err) ∈ s.st.trace
  lines : ∀ t, ∃ q err, about t s.log <+: [.ready t q, .routed t q, .ended t err]

theorem prefix3 {α : Type} {l : List α} {a b c : α} (h : l <+: [a, b, c]) :
    l = [] ∨ l = [a] ∨ l = [a, b] ∨ l = [a, b, c] := by
  obtain ⟨r, h⟩ := h
  match l, h with
  | [], _ => simp
  | [x], h => simp_all
  | [x, y], h => simp_all
  | [x, y, z], h => simp_all
  | x :: y :: z :: w :: l, h => simp at h

theorem step_out {st st' : St} (hs : Step targets tasks st st') {p : Str × Str} (h : p ∈ st.out) : p ∈ st'.out := by
  cases hs <;> first | exact h | exact List.mem_append_left _ h

theorem step_mem_trace {st st' : St} (hs : Step targets tasks st st') {e : Event} (h : e ∈ st.trace) : e ∈ st'.trace := by
  rcases step_trace hs with e' | ⟨x, e'⟩ <;> rw [e'] <;> simp [h]

theorem LInv.init (order : List Str) : LInv { st := Runner.init order } := by
  constructor <;>
    simp [Runner.init, about, SchedPC.todo, Logged.announces, Logged.passes, St.seen, MainPC.held, starts]

/-- A step that logs nothing keeps the invariant. -/
theorem LInv.silent {s : Logged} {st' : St} {sAnn rAnn mAnn : Bool} (hi : LInv s)
    (hs : Step targets tasks s.st st') (h1 : sAnn = true → st'.sched.todo ≠ [])
    (h2 : rAnn = true → ∃ q t, st'.router = .hold q t)
    (h3 : ∀ t, (s.st.out.map Prod.snd).count t + s.announces t + (st'.sched.todo.map Prod.snd).count t =
      (st'.out.map Prod.snd).count t + Logged.announces ⟨st', sAnn, rAnn, mAnn, s.log⟩ t +
        (s.st.sched.todo.map Prod.snd).count t)
    (h4 : ∀ t, starts s.st.trace t + s.passes t = starts st'.trace t + Logged.passes ⟨st', sAnn, rAnn, mAnn, s.log⟩ t)
    (h5 : ∀ x, s.st.ended ≠ x :: st'.ended) :
    LInv ⟨st', sAnn, rAnn, mAnn, s.log⟩ := by
  refine ⟨h1, h2, fun t => ?_, fun t => ?_, fun t => ?_, fun t q h => step_out hs (hi.readyOut t q h),
    fun t err h => (hi.ends t err h).imp fun q h => step_mem_trace hs h, hi.lines⟩
  · have := hi.nReady t
    have := h3 t
    simp only
    omega
  · rw [← h4 t]; exact hi.nRouted t
  · rcases step_seen hs t with ⟨x, hx, _⟩ | ⟨_, h⟩
    · exact absurd hx (h5 x)
    · simp only [h]; exact hi.nEnded t

/-- A line about another task, or about none. -/
theorem about_other {t : Str} {log : List Line} {x : Line} (h : x.task ≠ some t) : about t (log ++ [x]) = about t log := by
  simp [about_append, h]

theorem cons_ne {α : Type} {l : List α} {x : α} : l ≠ x :: l := by
  intro h
  simpa using congrArg List.length h

/-- A step in which the scheduler sends nothing. -/
theorem LInv.same_sched {s : Logged} {st' : St} (hi : LInv s) (hs : Step targets tasks s.st st')
    (h1 : ∀ sc p todo, s.st.sched = .sending sc (p :: todo) → st'.sched = s.st.sched) (rAnn mAnn : Bool) :
    (s.sAnn = true → st'.sched.todo ≠ []) ∧
    ∀ t, (s.st.out.map Prod.snd).count t + s.announces t + (st'.sched.todo.map Prod.snd).count t =
      (st'.out.map Prod.snd).count t + Logged.announces ⟨st', s.sAnn, rAnn, mAnn, s.log⟩ t +
        (s.st.sched.todo.map Prod.snd).count t := by
  have key : ∀ t, (st'.sched = s.st.sched ∧ st'.out = s.st.out) ∨
    (s.st.sched.todo = [] ∧ (st'.out.map Prod.snd).count t = (s.st.out.map Prod.snd).count t +
      (st'.sched.todo.map Prod.snd).count t) := by
    intro t
    rcases step_todo hs t with ⟨sc, p, todo, h, h', _⟩ | h | h
    · have := h1 sc p todo h
      rw [h, h'] at this
      simp only [SchedPC.sending.injEq, true_and] at this
      exact absurd this cons_ne
    · exact .inl h
    · exact .inr h
  constructor
  · intro ha
    rcases key [] with ⟨h, _⟩ | ⟨h, _⟩
    · rw [h]; exact hi.sAnn ha
    · exact absurd h (hi.sAnn ha)
  · intro t
    rcases key t with ⟨h, h'⟩ | ⟨h, h'⟩
    · simp only [Logged.announces, h, h']
    · have hf : s.sAnn = false := by
        cases ha : s.sAnn with
        | false => rfl
        | true => exact absurd h (hi.sAnn ha)
      simp only [Logged.announces, hf, h, h']
      simp

/-- A step in which the router passes nothing on. -/
theorem LInv.same_router {s : Logged} {st' : St} (hi : LInv s) (hc : Ctl targets s.st) (hs : Step targets tasks s.st st')
    (h2 : ∀ q t, s.st.router = .hold q t → st'.router = s.st.router) (sAnn mAnn : Bool) :
    (s.rAnn = true → ∃ q t, st'.router = .hold q t) ∧
    ∀ t, starts s.st.trace t + s.passes t = starts st'.trace t + Logged.passes ⟨st', sAnn, s.rAnn, mAnn, s.log⟩ t := by
  have key : (∀ t, starts st'.trace t = starts s.st.trace t) ∧
      (st'.router = s.st.router ∨ ∀ q t, s.st.router ≠ .hold q t) := by
    rcases step_router hc hs with ⟨q, t, h, h', _⟩ | h
    · have := h2 q t h
      rw [h, h'] at this
      cases this
    · exact h
  obtain ⟨k1, k2⟩ := key
  constructor
  · intro ha
    obtain ⟨q, t, h⟩ := hi.rAnn ha
    rcases k2 with k | k
    · exact ⟨q, t, k ▸ h⟩
    · exact absurd h (k q t)
  · intro t
    rw [k1 t]
    rcases k2 with k | k
    · simp only [Logged.passes, k]
    · have hf : s.rAnn = false := by
        cases ha : s.rAnn with
        | false => rfl
        | true =>
          obtain ⟨q, t, h⟩ := hi.rAnn ha
          exact absurd h (k q t)
      simp only [Logged.passes, hf]
      simp

/-- A line that names no task. -/
theorem LInv.add_other {s : Logged} (hi : LInv s) {x : Line} (hx : x.task = none) (mAnn : Bool) :
    LInv { s with mAnn := mAnn, log := s.log ++ [x] } := by
  have ha : ∀ t, about t (s.log ++ [x]) = about t s.log := fun t => about_other (by simp [hx])
  refine ⟨hi.sAnn, hi.rAnn, fun t => ?_, fun t => ?_, fun t => ?_, fun t q h => ?_, fun t err h => ?_, fun t => ?_⟩
  · simp only [ha]; exact hi.nReady t
  · simp only [ha]; exact hi.nRouted t
  · simp only [ha]; exact hi.nEnded t
  · simp only [List.mem_append, List.mem_singleton] at h
    rcases h with h | h
    · exact hi.readyOut t q h
    · rw [← h] at hx; cases hx
  · simp only [List.mem_append, List.mem_singleton] at h
    rcases h with h | h
    · exact hi.ends t err h
    · rw [← h] at hx; cases hx
  · simp only [ha]; exact hi.lines t

theorem step_send {st st' : St} {sc : Scheduler} {p : Str × Str} {todo : List (Str × Str)}
    (hs : Step targets tasks st st') (h : st.sched = .sending sc (p :: todo)) (h' : st'.sched = .sending sc todo) :
    st'.router = st.router ∧ st'.ended = st.ended ∧ st'.out = st.out ∧ st'.main = st.main := by
  have e : st'.sched ≠ st.sched := by
    rw [h, h']
    simp only [ne_eq, SchedPC.sending.injEq, true_and]
    exact fun h => cons_ne h
  cases hs with
  | schedNext s s' c rest r r' h1 => rw [h] at h1; simp at h1
  | schedNew s r r' h1 => rw [h] at h1; cases h1
  | schedSend => exact ⟨rfl, rfl, rfl, rfl⟩
  | schedNewErr | schedRefused | schedClosed => cases h'
  | _ => exact absurd rfl e

theorem step_route {st st' : St} {q t : Str} (hs : Step targets tasks st st') (hc : Ctl targets st)
    (h : st.router = .hold q t) (h' : st'.router = .recv) :
    st'.sched = st.sched ∧ st'.ended = st.ended ∧ st'.out = st.out ∧ st'.trace = st.trace ++ [.handleStart q t] ∧
    st'.main = st.main := by
  have h0 := hc.router0
  cases hs with
  | routerSend q' t' h1 => rw [h] at h1; cases h1; exact ⟨rfl, rfl, rfl, rfl, rfl⟩
  | targetStartFail q' rest h1 => rw [h0.2 ⟨_, h1⟩] at h; cases h
  | targetsStarted h1 => rw [h0.2 ⟨_, h1⟩] at h; cases h
  | routerClosed | routerDone | routerRecv => cases h'
  | _ => simp_all

theorem step_ended {st st' : St} {x : Str × Bool} (hs : Step targets tasks st st') (h : st.ended = x :: st'.ended) :
    st'.sched = st.sched ∧ st'.router = st.router ∧ st'.out = st.out ∧ st'.trace = st.trace := by
  cases hs with
  | mainOk | mainErr | mainDrain => exact ⟨rfl, rfl, rfl, rfl⟩
  | report =>
    have := congrArg List.length h
    simp at this
    omega
  | _ => exact absurd h cons_ne

theorem step_started {st st' : St} {q : Str} {rest : List Str} (hs : Step targets tasks st st')
    (h : st.main = .starting (q :: rest)) (h' : st'.main = .starting rest) :
    st'.sched = st.sched ∧ st'.router = st.router ∧ st'.ended = st.ended := by
  have e : st'.main ≠ st.main := by
    rw [h, h']
    simp only [ne_eq, MainPC.starting.injEq]
    exact fun h => cons_ne h
  cases hs with
  | targetStart => exact ⟨rfl, rfl, rfl⟩
  | targetStartFail | returnStartErr | targetsStarted | mainOk | mainSend | mainErr | mainEnd1 | mainReturn => cases h'
  | _ => exact absurd rfl e

theorem step_startFailed {st st' : St} {q : Str} {rest : List Str} (hs : Step targets tasks st st')
    (h : st.main = .starting (q :: rest)) (h' : st'.main = .failing q) :
    st'.sched = st.sched ∧ st'.ended = st.ended := by
  have e : st'.main ≠ st.main := by rw [h, h']; simp
  cases hs with
  | targetStartFail => exact ⟨rfl, rfl⟩
  | targetStart | returnStartErr | targetsStarted | mainOk | mainSend | mainErr | mainEnd1 | mainReturn => cases h'
  | _ => exact absurd rfl e

/-- A line about task `t` that fits what the log says about it. -/
theorem LInv.add {s : Logged} {st' : St} {sAnn rAnn mAnn : Bool} {x : Line} {t : Str} (hi : LInv s) (hx : x.task = some t)
    (h1 : sAnn = true → st'.sched.todo ≠ []) (h2 : rAnn = true → ∃ q t, st'.router = .hold q t)
    (h3 : ∀ t', (s.st.out.map Prod.snd).count t' + s.announces t' + (st'.sched.todo.map Prod.snd).count t' +
        (if t = t' ∧ x.isReady then 1 else 0) =
      (st'.out.map Prod.snd).count t' + Logged.announces ⟨st', sAnn, rAnn, mAnn, s.log ++ [x]⟩ t' +
        (s.st.sched.todo.map Prod.snd).count t')
    (h4 : ∀ t', starts s.st.trace t' + s.passes t' + (if t = t' ∧ x.isRouted then 1 else 0) =
      starts st'.trace t' + Logged.passes ⟨st', sAnn, rAnn, mAnn, s.log ++ [x]⟩ t')
    (h5 : ∀ t', s.st.seen.count t' + (if t = t' ∧ x.isEnded then 1 else 0) = st'.seen.count t')
    (h6 : ∀ p ∈ s.st.out, p ∈ st'.out) (h7 : ∀ q, x = .ready t q → (q, t) ∈ st'.out)
    (h8 : ∀ e ∈ s.st.trace, e ∈ st'.trace) (h9 : ∀ err, x = .ended t err → ∃ q, .handleEnd q t (!err) ∈ st'.trace)
    (h10 : ∃ q err, about t s.log ++ [x] <+: [.ready t q, .routed t q, .ended t err]) :
    LInv ⟨st', sAnn, rAnn, mAnn, s.log ++ [x]⟩ := by
  have hcount : ∀ (f : Line → Bool) t', (about t' (s.log ++ [x])).countP f =
      (about t' s.log).countP f + if t = t' ∧ f x then 1 else 0 := by
    intro f t'
    rw [about_append, hx, List.countP_append]
    by_cases e : t = t'
    · subst e; cases hf : f x <;> simp [hf]
    · simp [e]
  refine ⟨h1, h2, fun t' => ?_, fun t' => ?_, fun t' => ?_, fun t' q h => ?_, fun t' err h => ?_, fun t' => ?_⟩
  · have := hi.nReady t'
    have := h3 t'
    simp only [hcount]
    omega
  · have := hi.nRouted t'
    have := h4 t'
    simp only [hcount]
    omega
  · have := hi.nEnded t'
    have := h5 t'
    simp only [hcount]
    omega
  · simp only [List.mem_append, List.mem_singleton] at h
    rcases h with h | h
    · exact h6 _ (hi.readyOut t' q h)
    · subst h
      cases hx
      exact h7 q rfl
  · simp only [List.mem_append, List.mem_singleton] at h
    rcases h with h | h
    · exact (hi.ends t' err h).imp fun q h => h8 _ h
    · subst h
      cases hx
      exact h9 err rfl
  · by_cases e : t' = t
    · subst e
      simp only [about_append, hx, if_true]
      exact h10
    · simp only
      rw [about_other (by rw [hx]; simpa using fun h => e h.symm)]
      exact hi.lines t'

theorem out_inj (wft : tasks.WF) {st : St} (hf : Flow targets tasks st) {q q' t : Str} (h : (q, t) ∈ st.out)
    (h' : (q', t) ∈ st.out) : q = q' := by
  have := List.inj_on_of_nodup_map (hf.out_nodup wft) h h' rfl
  exact (Prod.mk.inj this).1

theorem LInv.step (wft : tasks.WF) {s s' : Logged} (hi : LInv s) (hc : Ctl targets s.st)
    (hf : Flow targets tasks s.st) (hs : LStep targets tasks s s') : LInv s' := by
  have le := fun t => hf.le_one wft t
  have cnt := hf.count
  have hbefore : ∀ t, (s.st.before.map Prod.snd).count t = (s.st.sched.todo.map Prod.snd).count t +
      (s.st.ready.map Prod.snd).count t + (s.st.router.held.map Prod.snd).count t := by
    intro t; simp [St.before]; omega
  have hafter : ∀ t, s.st.after.count t = (s.st.ended.map Prod.fst).count t + s.st.seen.count t := by
    intro t; simp [St.after, St.seen]
  cases hs with
  | @sayReady sc q t todo h ha =>
    have hn := hi.nReady t
    have h0 : s.announces t = 0 := by simp [Logged.announces, ha]
    have htodo : s.st.sched.todo = (q, t) :: todo := by simp [h, SchedPC.todo]
    have hout : (q, t) ∈ s.st.out := hf.beforeOut _ (by simp [St.before, htodo])
    refine hi.add (t := t) rfl (by simp [htodo]) hi.rAnn ?_ ?_ ?_ (fun _ h => h) (by rintro q' ⟨rfl⟩; exact hout)
      (fun _ h => h) (by simp) ?_
    · intro t'
      simp only [Logged.announces, ha, htodo, Line.isReady]
      simp
      omega
    · intro t'; simp [Line.isRouted, Logged.passes]
    · intro t'; simp [Line.isEnded]
    · have hz : (about t s.log).countP Line.isReady = 0 := by
        have := le t
        have := cnt t
        have : (s.st.sched.todo.map Prod.snd).count t = 1 + (todo.map Prod.snd).count t := by simp [htodo]; omega
        have := hbefore t
        omega
      obtain ⟨q', err, hp⟩ := hi.lines t
      refine ⟨q, false, ?_⟩
      rcases prefix3 hp with e | e | e | e <;> rw [e] at hz ⊢ <;> simp [Line.isReady] at hz ⊢
  | @send st' sc p todo hs h h' ha =>
    obtain ⟨e1, e2, e3, _⟩ := step_send hs h h'
    obtain ⟨r1, r2⟩ := hi.same_router hc hs (fun _ _ _ => e1) false s.mAnn
    refine hi.silent hs (by simp) r1 ?_ r2 ?_
    · intro t
      simp only [Logged.announces, ha, h, h', SchedPC.todo, e3, List.map_cons, List.count_cons]
      simp
      omega
    · intro x; rw [e2]; exact cons_ne
  | @sayRouted q t h ha =>
    have hheld : s.st.router.held = [(q, t)] := by simp [h, RouterPC.held]
    have hout : (q, t) ∈ s.st.out := hf.beforeOut _ (by simp [St.before, hheld])
    have hb := hbefore t
    have hl := le t
    have hz : (about t s.log).countP Line.isReady = 1 ∧ (about t s.log).countP Line.isRouted = 0 := by
      have h1 := cnt t
      have h2 : (s.st.router.held.map Prod.snd).count t = 1 := by simp [hheld]
      have h3 := hi.nReady t
      have h4 := hi.nRouted t
      have h5 := hf.nstarts t
      have h6 : s.passes t = 0 := by simp [Logged.passes, ha]
      have h7 : s.announces t ≤ (s.st.sched.todo.map Prod.snd).count t := by
        unfold Logged.announces
        split
        · rename_i e; rw [e]; simp [List.count_cons]
        · omega
      omega
    refine hi.add (t := t) rfl hi.sAnn (fun _ => ⟨q, t, h⟩) ?_ ?_ ?_ (fun _ h => h) (by simp) (fun _ h => h) (by simp) ?_
    · intro t'; simp [Line.isReady, Logged.announces]
    · intro t'
      simp only [Logged.passes, ha, hheld, Line.isRouted]
      simp [List.count_cons]
    · intro t'; simp [Line.isEnded]
    · obtain ⟨q', err, hp⟩ := hi.lines t
      rcases prefix3 hp with e | e | e | e <;> rw [e] at hz <;> simp [Line.isReady, Line.isRouted] at hz
      have hin : Line.ready t q' ∈ about t s.log := by rw [e]; simp
      have := out_inj wft hf hout (hi.readyOut t q' (List.mem_filter.1 hin).1)
      subst this
      exact ⟨q, false, by rw [e]; simp⟩
  | @route st' q t hs h h' ha =>
    obtain ⟨e1, e2, e3, e4, _⟩ := step_route hs hc h h'
    obtain ⟨r1, r2⟩ := hi.same_sched hs (fun _ _ _ _ => e1) false s.mAnn
    refine hi.silent hs r1 (by simp) r2 ?_ ?_
    · intro t'
      simp [Logged.passes, ha, h, RouterPC.held, e4, starts, Event.isStart, List.count_cons, List.countP_cons]
    · intro x; rw [e2]; exact cons_ne
  | @sayEnded st' t ok hs h =>
    obtain ⟨e1, e2, e3, e4⟩ := step_ended hs h
    obtain ⟨r1, r2⟩ := hi.same_sched hs (fun _ _ _ _ => e1) s.rAnn s.mAnn
    obtain ⟨r3, r4⟩ := hi.same_router hc hs (fun _ _ _ => e2) s.sAnn s.mAnn
    obtain ⟨q, hq⟩ := hc.endedErr t ok (by rw [h]; simp)
    have hend : 1 ≤ (s.st.ended.map Prod.fst).count t := by rw [h]; simp
    refine hi.add (t := t) rfl r1 r3 ?_ ?_ ?_ (fun _ h => step_out hs h) (by simp) (fun _ h => step_mem_trace hs h) ?_ ?_
    · intro t'; simpa [Line.isReady, Logged.announces] using r2 t'
    · intro t'; simpa [Line.isRouted, Logged.passes] using r4 t'
    · intro t'
      rcases step_seen hs t' with ⟨x, hx, hn⟩ | ⟨hx, _⟩
      · rw [h] at hx
        simp only [List.cons.injEq, and_true] at hx
        subst hx
        simp [hn, Line.isEnded]
      · exact absurd h (hx _)
    · rintro err ⟨rfl⟩
      exact ⟨q, by rw [e4]; simpa using hq⟩
    · have hz : 1 ≤ (about t s.log).countP Line.isRouted ∧ (about t s.log).countP Line.isEnded = 0 := by
        have h1 := le t
        have h2 := hi.nRouted t
        have h3 := hi.nEnded t
        have h4 := hf.nstarts t
        have h5 := hafter t
        omega
      obtain ⟨q', err, hp⟩ := hi.lines t
      refine ⟨q', !ok, ?_⟩
      rcases prefix3 hp with e | e | e | e <;> rw [e] at hz ⊢ <;> simp [Line.isEnded, Line.isRouted] at hz ⊢
  | @sayStarting q rest h ha => exact hi.add_other rfl true
  | @sayStarted st' q rest hs h h' ha =>
    obtain ⟨e1, e2, e3⟩ := step_started hs h h'
    obtain ⟨r1, r2⟩ := hi.same_sched hs (fun _ _ _ _ => e1) s.rAnn false
    obtain ⟨r3, r4⟩ := hi.same_router hc hs (fun _ _ _ => e2) s.sAnn false
    exact (hi.silent hs r1 r3 r2 r4 (fun x => by rw [e3]; exact cons_ne)).add_other rfl false
  | @startFailed st' q rest hs h h' ha =>
    obtain ⟨e1, e3⟩ := step_startFailed hs h h'
    obtain ⟨r1, r2⟩ := hi.same_sched hs (fun _ _ _ _ => e1) s.rAnn false
    obtain ⟨r3, r4⟩ := hi.same_router hc hs (fun q t hh => by rw [hc.router0.2 ⟨_, h⟩] at hh; cases hh) s.sAnn false
    exact hi.silent hs r1 r3 r2 r4 (fun x => by rw [e3]; exact cons_ne)
  | @quiet st' hs h1 h2 h3 h4 =>
    obtain ⟨r1, r2⟩ := hi.same_sched hs h1 s.rAnn s.mAnn
    obtain ⟨r3, r4⟩ := hi.same_router hc hs h2 s.sAnn s.mAnn
    exact hi.silent hs r1 r3 r2 r4 h3

theorem LReach.inv (wf : targets.WF) (wft : tasks.WF) {s : Logged} (h : LReach targets tasks s) : LInv s := by
  induction h with
  | init order h => exact LInv.init order
  | step h hs ih =>
    obtain ⟨hc, hf⟩ := h.reach.inv wf wft
    exact ih.step wft hc hf hs

end Verif.Runner
