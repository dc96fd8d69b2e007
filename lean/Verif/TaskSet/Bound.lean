import Verif.TaskSet.Run

/-!
# C167: `maxConcurrency` has no influence on which executions of a task set's tasks are possible
-/

namespace Verif.TaskSet

variable {τ ε : Type} {cap cap' : Nat} {s s' : St τ ε}

/-! ## Specification -/

/-- What can be seen of the tasks: one begins, one ends with an outcome. -/
inductive TaskEv (τ ε : Type)
  | begins (t : τ)
  | ends (t : τ) (e : ε)

/-- After the call of `RunTasks` and any number of steps of anyone, this has been seen of the tasks, in this order, and this
is the state. -/
inductive Seen (cap : Nat) : List (TaskEv τ ε) → St τ ε → Prop
  | init : Seen cap [] {}
  | other {tr : List (TaskEv τ ε)} {s s' : St τ ε} (h : Seen cap tr s) (hs : Step cap s s')
      (h1 : s'.started = s.started) (h2 : s'.ran = s.ran) : Seen cap tr s'
  | begins {tr : List (TaskEv τ ε)} {s s' : St τ ε} (h : Seen cap tr s) (hs : Step cap s s') (t : τ)
      (h1 : s'.started = s.started ++ [t]) (h2 : s'.ran = s.ran) : Seen cap (tr ++ [.begins t]) s'
  | ends {tr : List (TaskEv τ ε)} {s s' : St τ ε} (h : Seen cap tr s) (hs : Step cap s s') (t : τ) (e : ε)
      (h1 : s'.started = s.started) (h2 : s'.ran = s.ran ++ [(t, e)]) : Seen cap (tr ++ [.ends t e]) s'

/-! ## Lemmas -/

/-- Larger buffers rule out nothing. -/
theorem Step.mono (hc : cap ≤ cap') (h : Step cap s s') : Step cap' s s' := by
  rcases h with h | h
  · left
    cases h with
    | send batch ho hr => exact .send _ batch ho (by omega)
    | sendDirect batch ho hq hp => exact .sendDirect _ batch ho hq hp
    | close ho => exact .close _ ho
  · right
    cases h with
    | recv r rest h => exact .recv _ r rest h
    | recvDirect r h hp => exact .recvDirect _ r h hp
    | recvDirectLast r h hp => exact .recvDirectLast _ r h hp
    | take batch rest hp hq => exact .take _ batch rest hp hq
    | spawn a b t hp => exact .spawn _ a b t hp
    | spawned hp => exact .spawned _ hp
    | finish a b t e h => exact .finish _ a b t e h
    | relay a b r hp h => exact .relay _ a b r hp h
    | put r hp hr => exact .put _ r hp (by omega)
    | notice hp hq hc => exact .notice _ hp hq hc
    | relayLast a b r hp ho h => exact .relayLast _ a b r hp ho h
    | putLast r hp hr => exact .putLast _ r hp (by omega)
    | last hp h => exact .last _ hp h
    | more hp h => exact .more _ hp h
    | ends hp h => exact .ends _ hp h
    | panic h hc hp => exact .panic _ h hc hp

theorem Seen.mono (hc : cap ≤ cap') {tr : List (TaskEv τ ε)} (h : Seen cap tr s) : Seen cap' tr s := by
  induction h with
  | init => exact .init
  | other _ hs h1 h2 ih => exact .other ih (hs.mono hc) h1 h2
  | begins _ hs t h1 h2 ih => exact .begins ih (hs.mono hc) t h1 h2
  | ends _ hs t e h1 h2 ih => exact .ends ih (hs.mono hc) t e h1 h2

/-- The state of an execution without buffers: what waits in the queue has not been submitted, and what waits in the results
channel has been received. -/
def St.tight (s : St τ ε) (sub : List τ) : St τ ε :=
  { s with queue := [], queueClosed := s.queueClosed && s.queue.isEmpty, results := [], submitted := sub,
           received := s.received ++ s.results }

/-- Nothing, a step, or two steps with which no task begins or ends. -/
inductive Few (u u' : St τ ε) : Prop
  | none (h : u' = u)
  | one (h : Step 0 u u')
  | two (v : St τ ε) (h1 : Step 0 u v) (h2 : Step 0 v u') (a : v.started = u.started) (b : v.ran = u.ran)
      (c : u'.started = u.started) (d : u'.ran = u.ran)

theorem tight_sim {sub : List τ} (h : Step cap s s') (hsub : s.submitted = sub ++ s.queue.flatten) :
    ∃ sub', s'.submitted = sub' ++ s'.queue.flatten ∧ Few (s.tight sub) (s'.tight sub') := by
  rcases h with h | h
  · cases h with
    | send batch ho hr => exact ⟨sub, by simp [hsub], .none (by simp [St.tight, ho])⟩
    | sendDirect batch ho hq hp =>
      exact ⟨sub ++ batch, by simp [hsub, hq], .one (.inl (by
        have := Submit.sendDirect (cap := 0) (s.tight sub) batch (by simp [St.tight, ho]) rfl hp
        simpa [St.tight, hq] using this))⟩
    | close ho =>
      refine ⟨sub, hsub, ?_⟩
      by_cases hq : s.queue = []
      · refine .one (.inl ?_)
        have := Submit.close (cap := 0) (s.tight sub) (by simp [St.tight, ho])
        simpa [St.tight, hq] using this
      · have hq' : s.queue.isEmpty = false := by simpa using hq
        exact .none (by simp [St.tight, hq'])
  · cases h with
    | recv r rest h => exact ⟨sub, hsub, .none (by simp [St.tight, h])⟩
    | recvDirect r h hp =>
      refine ⟨sub, hsub, .one (.inr ?_)⟩
      have := Move.recvDirect (cap := 0) (s.tight sub) r rfl hp
      simpa [St.tight, h] using this
    | recvDirectLast r h hp =>
      refine ⟨sub, hsub, .one (.inr ?_)⟩
      have := Move.recvDirectLast (cap := 0) (s.tight sub) r rfl hp
      simpa [St.tight, h] using this
    | take batch rest hp hq =>
      refine ⟨sub ++ batch, by simp [hsub, hq], ?_⟩
      have h1 := Submit.sendDirect (cap := 0) (s.tight sub) batch (by simp [St.tight, hq]) rfl hp
      by_cases hc : s.queueClosed = true ∧ rest = []
      · have h2 := Submit.close (cap := 0) _ (show ({ s.tight sub with pc := .spawn batch, submitted := (s.tight sub).submitted ++ batch } :
          St τ ε).queueClosed = false by simp [St.tight, hq])
        refine .two _ (.inl h1) (.inl ?_) rfl rfl rfl rfl
        simpa [St.tight, hc.1, hc.2] using h2
      · refine .one (.inl ?_)
        have e : (s.queueClosed && rest.isEmpty) = false := by
          cases e1 : s.queueClosed <;> cases rest <;> simp_all
        simpa [St.tight, hq, e] using h1
    | spawn a b t hp => exact ⟨sub, hsub, .one (.inr (.spawn (s.tight sub) a b t hp))⟩
    | spawned hp => exact ⟨sub, hsub, .one (.inr (.spawned (s.tight sub) hp))⟩
    | finish a b t e h => exact ⟨sub, hsub, .one (.inr (.finish (s.tight sub) a b t e h))⟩
    | relay a b r hp h => exact ⟨sub, hsub, .one (.inr (.relay (s.tight sub) a b r hp h))⟩
    | put r hp hr =>
      refine ⟨sub, hsub, .one (.inr ?_)⟩
      have := Move.recvDirect (cap := 0) (s.tight sub) r rfl hp
      simpa [St.tight] using this
    | notice hp hq hc =>
      exact ⟨sub, hsub, .one (.inr (.notice (s.tight sub) hp rfl (by simp [St.tight, hq, hc])))⟩
    | relayLast a b r hp ho h => exact ⟨sub, hsub, .one (.inr (.relayLast (s.tight sub) a b r hp ho h))⟩
    | putLast r hp hr =>
      refine ⟨sub, hsub, .one (.inr ?_)⟩
      have := Move.recvDirectLast (cap := 0) (s.tight sub) r rfl hp
      simpa [St.tight] using this
    | last hp h => exact ⟨sub, hsub, .one (.inr (.last (s.tight sub) hp h))⟩
    | more hp h => exact ⟨sub, hsub, .one (.inr (.more (s.tight sub) hp h))⟩
    | ends hp h => exact ⟨sub, hsub, .one (.inr (.ends (s.tight sub) hp h))⟩
    | panic h hc hp => exact ⟨sub, hsub, .one (.inr (.panic (s.tight sub) h hc hp))⟩

theorem Seen.tight {tr : List (TaskEv τ ε)} (h : Seen cap tr s) :
    ∃ sub, s.submitted = sub ++ s.queue.flatten ∧ Seen 0 tr (s.tight sub) := by
  induction h with
  | init => exact ⟨[], rfl, .init⟩
  | other _ hs h1 h2 ih =>
    obtain ⟨sub, e, ih⟩ := ih
    obtain ⟨sub', e', f⟩ := tight_sim hs e
    refine ⟨sub', e', ?_⟩
    cases f with
    | none h => rw [h]; exact ih
    | one h => exact .other ih h h1 h2
    | two v a1 a2 b1 b2 c1 c2 => exact .other (.other ih a1 b1 b2) a2 (c1.trans b1.symm) (c2.trans b2.symm)
  | begins _ hs t h1 h2 ih =>
    obtain ⟨sub, e, ih⟩ := ih
    obtain ⟨sub', e', f⟩ := tight_sim hs e
    refine ⟨sub', e', ?_⟩
    cases f with
    | none h => have := congrArg St.started h; simp [St.tight, h1] at this
    | one h => exact .begins ih h t h1 h2
    | two v a1 a2 b1 b2 c1 c2 => simp [St.tight, h1] at c1
  | ends _ hs t x h1 h2 ih =>
    obtain ⟨sub, e, ih⟩ := ih
    obtain ⟨sub', e', f⟩ := tight_sim hs e
    refine ⟨sub', e', ?_⟩
    cases f with
    | none h => have := congrArg St.ran h; simp [St.tight, h2] at this
    | one h => exact .ends ih h t x h1 h2
    | two v a1 a2 b1 b2 c1 c2 => simp [St.tight, h2] at c2

/-! ## C167 -/

/-- Whatever happens, something is seen: `Seen` leaves out no execution. -/
theorem C167_all_seen (cap : Nat) (s : St τ ε) : Reachable cap s ↔ ∃ tr, Seen cap tr s := by
  constructor
  · intro h
    unfold Reachable at h
    generalize hi : ({} : St τ ε) = i at h
    induction h with
    | refl => subst hi; exact ⟨[], .init⟩
    | @tail s' s'' _ hs ih =>
      obtain ⟨tr, ih⟩ := ih
      have : (s''.started = s'.started ∧ s''.ran = s'.ran) ∨ (∃ t, s''.started = s'.started ++ [t] ∧ s''.ran = s'.ran) ∨
          ∃ t e, s''.started = s'.started ∧ s''.ran = s'.ran ++ [(t, e)] := by
        rcases hs with hs | hs <;> cases hs <;> simp
      rcases this with ⟨a, b⟩ | ⟨t, a, b⟩ | ⟨t, e, a, b⟩
      · exact ⟨tr, .other ih hs a b⟩
      · exact ⟨_, .begins ih hs t a b⟩
      · exact ⟨_, .ends ih hs t e a b⟩
  · rintro ⟨tr, h⟩
    induction h with
    | init => exact .refl _
    | other _ hs _ _ ih => exact ih.tail hs
    | begins _ hs _ _ _ ih => exact ih.tail hs
    | ends _ hs _ _ _ _ ih => exact ih.tail hs

/-- **C167.** Whatever can be seen of the tasks with one `maxConcurrency` can be seen with any other, in the same order; what
the client has got or could get is the same, what it has sent is the same but for what nobody has taken yet, and the results
channel is closed in both or in neither. -/
theorem C167_no_influence (cap cap' : Nat) {tr : List (TaskEv τ ε)} (h : Seen cap tr s) :
    ∃ s' : St τ ε, Seen cap' tr s' ∧ s'.received = s.received ++ s.results ∧ s.submitted = s'.submitted ++ s.queue.flatten ∧
      s'.resultsClosed = s.resultsClosed ∧ s'.executing = s.executing := by
  obtain ⟨sub, e, h'⟩ := h.tight
  exact ⟨_, h'.mono (Nat.zero_le _), rfl, e, rfl, rfl⟩

/-- C167 is about something: with a `maxConcurrency` of 1 two tasks are begun before one of them ends. -/
example : ∃ s, Seen (τ := Nat) (ε := Bool) 1 [.begins 2, .begins 1, .ends 2 true] s ∧ s.executing = [1] :=
  ⟨_, .ends (.begins (.begins (.other (.other .init (.inl (.send _ [1, 2] rfl (by simp))) rfl rfl)
      (.inr (.take _ [1, 2] [] rfl rfl)) rfl rfl)
      (.inr (.spawn _ [1] [] 2 rfl)) 2 rfl rfl) (.inr (.spawn _ [] [] 1 rfl)) 1 rfl rfl)
      (.inr (.finish _ [] [1] 2 true rfl)) 2 true rfl rfl, rfl⟩

end Verif.TaskSet
