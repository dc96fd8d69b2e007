import Verif.TaskSet.RunProps

/-!
# C60, exactly: when `RunTasks` shuts down
-/

namespace Verif.TaskSet

variable {τ ε : Type}

/-- Once the goroutine waits for results that will not come it waits forever. -/
theorem stuck {cap : Nat} {s s' : St τ ε} (hi : Inv cap s) (hp : s.pc = .shutdown) (hc : s.relayClosed = false)
    (h0 : s.running = 0) (h : Steps cap s s') : s'.pc = .shutdown ∧ s'.resultsClosed = false := by
  have key : Inv cap s' ∧ s'.pc = .shutdown ∧ s'.relayClosed = false ∧ s'.running = 0 := by
    induction h with
    | refl => exact ⟨hi, hp, hc, h0⟩
    | @tail s' _ _ hst ih =>
      obtain ⟨i0, i1, i2, i3⟩ := ih
      refine ⟨inv_step i0 hst, ?_⟩
      have hcl := (i0.late (by simp [i1, Pc.late])).1
      have hrun := i0.running
      have hex : s'.executing = [] := List.length_eq_zero_iff.1 (by omega)
      have hfi : s'.finished = [] := List.length_eq_zero_iff.1 (by omega)
      rcases hst with hst | hst
      · cases hst <;> simp_all
      · cases hst <;> simp_all
  exact ⟨key.2.1, by rw [← key.1.same]; exact key.2.2.1⟩

/-- **C60, exactly.** When the goroutine sees that the queue is closed, what follows is decided: it shuts down if and only
if some task was still executing or waiting to hand over its result. In the other case it never does. -/
theorem C60_exact [Nonempty ε] (cap : Nat) (s s' : St τ ε) (h : Reachable cap s) (hp : s.pc = .select) (hq : s.queue = [])
    (hc : s.queueClosed = true) (hs : Steps cap { s with pc := .shutdown } s') :
    (Quiet cap s' → (ShutDown s' ↔ s.executing ≠ [] ∨ s.finished ≠ [])) ∧
    (s.executing = [] → s.finished = [] → s'.resultsClosed = false ∧ s'.pc ≠ .done) := by
  have hi := inv_of_reachable h
  have hm : Move cap s { s with pc := .shutdown } := .notice s hp hq hc
  have hi' := inv_step hi (.inr hm)
  have hrc : s.relayClosed = false := by
    cases hr : s.relayClosed with
    | false => rfl
    | true => have := (hi.closed hr).1; simp [hp] at this
  have hrun := hi.running
  simp only [hp, Pc.hand, List.length_nil] at hrun
  have hno : s.executing = [] → s.finished = [] → s'.resultsClosed = false ∧ s'.pc ≠ .done := by
    intro h1 h2
    rw [h1, h2] at hrun
    obtain ⟨k1, k2⟩ := stuck hi' rfl hrc (by simpa using hrun) hs
    exact ⟨k2, by rw [k1]; simp⟩
  refine ⟨fun hquiet => ⟨fun hd => ?_, fun hr => ?_⟩, hno⟩
  · by_contra hn
    rw [not_or, not_not, not_not] at hn
    have := (hno hn.1 hn.2).1
    rw [hd.1] at this
    cases this
  · have hpos : 0 < s.running := by
      rcases hr with hr | hr
      · have := List.length_pos_iff.2 hr; omega
      · have := List.length_pos_iff.2 hr; omega
    exact ((C60_shuts_down_partial cap { s with pc := .shutdown } (.tail h (.inr hm))).2 rfl hpos s' hs hquiet).1

/-- Before it has seen that the queue is closed, everything can be done first. -/
theorem drains [Nonempty ε] {cap : Nat} (n : Nat) (s : St τ ε) (hn : s.weight ≤ n) (hi : Inv cap s) (hl : s.pc.late = false) :
    ∃ s', Steps cap s s' ∧ s'.pc = .select ∧ s'.queue = [] ∧ s'.executing = [] ∧ s'.finished = [] ∧ s'.results = [] ∧
      s'.queueClosed = s.queueClosed := by
  obtain ⟨e⟩ := ‹Nonempty ε›
  induction n generalizing s with
  | zero =>
    exfalso
    cases hp : s.pc <;> simp [hp, Pc.late] at hl <;> simp [St.weight, hp, Pc.weight] at hn
  | succ n ih =>
    have next : ∀ t, Move cap s t → t.pc.late = false → t.queueClosed = s.queueClosed →
        ∃ s', Steps cap s s' ∧ s'.pc = .select ∧ s'.queue = [] ∧ s'.executing = [] ∧ s'.finished = [] ∧ s'.results = [] ∧
          s'.queueClosed = s.queueClosed := by
      intro t hm hlt hct
      obtain ⟨s', h1, h2⟩ := ih t (by have := weight_move hi hm; omega) (inv_step hi (.inr hm)) hlt
      rw [hct] at h2
      refine ⟨s', ?_, h2⟩
      clear h2
      induction h1 with
      | refl => exact .tail (.refl _) (.inr hm)
      | tail _ h ih => exact .tail ih h
    cases hres : s.results with
    | cons r rest => exact next _ (.recv s r rest hres) hl rfl
    | nil =>
      cases hex : s.executing with
      | cons t rest => exact next _ (.finish s [] rest t e hex) hl rfl
      | nil =>
        cases hp : s.pc with
        | spawn l =>
          cases l with
          | nil => exact next _ (.spawned s hp) rfl rfl
          | cons t rest => exact next _ (.spawn s [] rest t hp) rfl rfl
        | forward r => exact next _ (.recvDirect s r hres hp) rfl rfl
        | select =>
          cases hqu : s.queue with
          | cons b rest => exact next _ (.take s b rest hp hqu) rfl rfl
          | nil =>
            cases hfi : s.finished with
            | cons r rest => exact next _ (.relay s [] rest r hp hfi) rfl rfl
            | nil => exact ⟨s, .refl s, hp, hqu, hex, hfi, hres, rfl⟩
        | shutdown => simp [hp, Pc.late] at hl
        | forwardLast r => simp [hp, Pc.late] at hl
        | check => simp [hp, Pc.late] at hl
        | done => simp [hp, Pc.late] at hl

/-- **No client can be sure of the end.** Whenever a client closes the queue, whatever is still to be done then, there is a
schedule in which every result is delivered and the results channel is never closed. -/
theorem C60_never_sure [Nonempty ε] (cap : Nat) (s : St τ ε) (h : Reachable cap s) (ho : s.queueClosed = false) :
    ∃ s', Steps cap { s with queueClosed := true } s' ∧ s'.received.Perm s'.ran ∧ (s'.ran.map Prod.fst).Perm s'.submitted ∧
      Quiet cap s' ∧ ∀ s'', Steps cap s' s'' → ¬ ShutDown s'' := by
  have hi := inv_of_reachable h
  have hl : s.pc.late = false := by
    cases hl : s.pc.late with
    | false => rfl
    | true => have := (hi.late hl).1; rw [ho] at this; cases this
  have hc : Step cap s { s with queueClosed := true } := .inl (.close s ho)
  obtain ⟨t, h1, h2, h3, h4, h5, h6, h7⟩ := drains (cap := cap) _ { s with queueClosed := true } (Nat.le_refl _) (inv_step hi hc) hl
  have hm : Step cap t { t with pc := .shutdown } := .inr (.notice t h2 h3 h7)
  have hi' := inv_steps (inv_step hi hc) h1
  have hi'' := inv_step hi' hm
  have hrc : t.relayClosed = false := by
    cases hr : t.relayClosed with
    | false => rfl
    | true => have := (hi'.closed hr).1; simp [h2] at this
  have hrun : t.running = 0 := by
    have := hi'.running
    simpa [h2, h4, h5, Pc.hand] using this
  refine ⟨{ t with pc := .shutdown }, .tail h1 hm, ?_, ?_, ?_, ?_⟩
  · have := hi'.ran
    simpa [h2, h5, h6, Pc.hand] using this.symm
  · have a := hi'.submitted
    have b := hi'.started
    simp only [h2, h3, h4, Pc.rest, List.flatten_nil, List.nil_append] at a b
    exact b.symm.trans a.symm
  · intro u hu
    cases hu <;> simp_all
  · intro u hu hd
    have := (stuck hi'' rfl hrc hrun hu).2
    rw [hd.1] at this
    cases this

/-- The hypotheses of `C60_exact` are met: the queue is closed while task 7 is executing. -/
example : ∃ s : St Nat Bool, Reachable 1 s ∧ s.pc = .select ∧ s.queue = [] ∧ s.queueClosed = true ∧ s.executing ≠ [] := by
  let s0 : St Nat Bool := {}
  let s1 : St Nat Bool := { s0 with pc := .spawn [7], submitted := [7] }
  let s2 : St Nat Bool := { s1 with pc := .spawn [], executing := [7], started := [7], running := 1 }
  let s3 : St Nat Bool := { s2 with pc := .select }
  refine ⟨{ s3 with queueClosed := true }, ?_, rfl, rfl, rfl, by simp [s3, s2]⟩
  refine Steps.tail (s' := s3) ?_ (.inl (Submit.close s3 rfl))
  refine Steps.tail (s' := s2) ?_ (.inr (Move.spawned s2 rfl))
  refine Steps.tail (s' := s1) ?_ (.inr (Move.spawn s1 [] [] 7 rfl))
  exact Steps.tail (.refl _) (.inl (Submit.sendDirect s0 [7] rfl rfl rfl))

/-- And those of `C60_never_sure`. -/
example : Reachable 1 ({} : St Nat Bool) ∧ ({} : St Nat Bool).queueClosed = false := ⟨.refl _, rfl⟩

end Verif.TaskSet
