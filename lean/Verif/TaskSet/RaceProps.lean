import Verif.TaskSet.Race
import Verif.TaskSet.DemoProps

/-!
# C135: the tasks of a demo target have no data races
-/

namespace Verif.TaskSet.Demo
open Verif TaskSet
open _root_.Verif.Run.Spec (utf8)

section lemmas

theorem HB.mono {tr : List Ev} {i j : Nat} (h : HB tr i j) (evs : List Ev) : HB (tr ++ evs) i j := by
  have get : ∀ {i : Nat} {a : Ev}, tr[i]? = some a → (tr ++ evs)[i]? = some a := by
    intro i a hi
    rw [List.getElem?_append_left (List.getElem?_eq_some_iff.1 hi).1]
    exact hi
  induction h with
  | seq hi hj h hg => exact .seq (get hi) (get hj) h hg
  | go hi hj h hg => exact .go (get hi) (get hj) h hg
  | mutex hi hj h ha hb => exact .mutex (get hi) (get hj) h ha hb
  | trans _ _ ih ih' => exact .trans ih ih'

/-- Event `i` is, or happens before, event `j`. -/
def HBE (tr : List Ev) (i j : Nat) : Prop := i = j ∨ HB tr i j

theorem HBE.mono {tr : List Ev} {i j : Nat} (h : HBE tr i j) (evs : List Ev) : HBE (tr ++ evs) i j :=
  h.imp id fun h => h.mono evs

/-- Event `i` happens before whatever goroutine `g` does next. -/
def Past (tr : List Ev) (g : Gor) (i : Nat) : Prop :=
  ∃ j e, tr[j]? = some e ∧ (e.by_ = g ∨ e.op = .go g) ∧ HBE tr i j

theorem get_mono {tr : List Ev} {i : Nat} {a : Ev} (hi : tr[i]? = some a) (evs : List Ev) :
    (tr ++ evs)[i]? = some a := by
  rw [List.getElem?_append_left (List.getElem?_eq_some_iff.1 hi).1]
  exact hi

theorem Past.mono {tr : List Ev} {g : Gor} {i : Nat} (h : Past tr g i) (evs : List Ev) : Past (tr ++ evs) g i := by
  obtain ⟨j, e, h1, h2, h3⟩ := h
  exact ⟨j, e, get_mono h1 evs, h2, h3.mono evs⟩

theorem past_own {tr : List Ev} {i : Nat} {e : Ev} (h : tr[i]? = some e) : Past tr e.by_ i :=
  ⟨i, e, h, .inl rfl, .inl rfl⟩

theorem get_last (tr : List Ev) (e : Ev) : (tr ++ [e])[tr.length]? = some e := by simp

/-- What has happened before happens before the next event. -/
theorem Past.last {tr : List Ev} {e : Ev} {i : Nat} (h : Past tr e.by_ i) : HB (tr ++ [e]) i tr.length := by
  obtain ⟨j, a, h1, h2, h3⟩ := h
  have hj := (List.getElem?_eq_some_iff.1 h1).1
  have hb : HB (tr ++ [e]) j tr.length := by
    rcases h2 with h2 | h2
    · exact .seq (get_mono h1 _) (get_last tr e) hj h2
    · exact .go (get_mono h1 _) (get_last tr e) hj h2
  rcases h3 with rfl | h3
  · exact hb
  · exact .trans (h3.mono _) hb

theorem Past.started {tr : List Ev} {g : Gor} {i : Nat} (h : Past tr g i) (g' : Gor) :
    Past (tr ++ [⟨g, .go g'⟩]) g' i :=
  ⟨tr.length, _, get_last tr _, .inr rfl, .inr (Past.last (e := ⟨g, .go g'⟩) h)⟩

/-- The event touches this memory. -/
def Ev.on (e : Ev) (l : Loc) : Prop := e.op = .read l ∨ e.op = .write l

/-- Everything that touches memory `l` satisfies `P`. -/
def On (tr : List Ev) (l : Loc) (P : Nat → Ev → Prop) : Prop := ∀ i e, tr[i]? = some e → e.on l → P i e

/-- Everything that writes memory `l` satisfies `P`. -/
def Wr (tr : List Ev) (l : Loc) (P : Nat → Ev → Prop) : Prop := ∀ i e, tr[i]? = some e → e.op = .write l → P i e

theorem get_snoc {tr : List Ev} {x e : Ev} {i : Nat} (h : (tr ++ [x])[i]? = some e) :
    tr[i]? = some e ∨ i = tr.length ∧ x = e := by
  by_cases hi : i < tr.length
  · rw [List.getElem?_append_left hi] at h; exact .inl h
  · rw [List.getElem?_append_right (by omega)] at h
    rcases Nat.eq_zero_or_pos (i - tr.length) with h0 | h0
    · rw [h0] at h; exact .inr ⟨by omega, by simpa using h⟩
    · rw [List.getElem?_eq_none (by simp; omega)] at h; cases h

theorem RaceFree.quiet {tr : List Ev} (h : RaceFree tr) (e : Ev) (he : ∀ l, ¬ e.on l) : RaceFree (tr ++ [e]) := by
  intro i j a b hi hj hij hc
  rcases get_snoc hj with hj | ⟨rfl, rfl⟩
  · rcases get_snoc hi with hi | ⟨rfl, -⟩
    · exact (h i j a b hi hj hij hc).mono _
    · have := (List.getElem?_eq_some_iff.1 hj).1; omega
  · obtain ⟨l, h1 | h1 | h1⟩ := hc
    · exact absurd (.inr h1.2) (he l)
    · exact absurd (.inl h1.2) (he l)
    · exact absurd (.inr h1.2) (he l)

theorem RaceFree.write {tr : List Ev} (h : RaceFree tr) {g : Gor} {l : Loc} (hp : On tr l fun i _ => Past tr g i) :
    RaceFree (tr ++ [⟨g, .write l⟩]) := by
  intro i j a b hi hj hij hc
  rcases get_snoc hj with hj | ⟨rfl, rfl⟩
  · rcases get_snoc hi with hi | ⟨rfl, -⟩
    · exact (h i j a b hi hj hij hc).mono _
    · have := (List.getElem?_eq_some_iff.1 hj).1; omega
  · rcases get_snoc hi with hi | ⟨rfl, -⟩
    · refine Past.last (e := ⟨g, .write l⟩) (hp i a hi ?_)
      obtain ⟨l', h1 | h1 | h1⟩ := hc <;> obtain ⟨h1, h2⟩ := h1 <;> cases h2
      · exact .inr h1
      · exact .inl h1
    · omega

theorem RaceFree.read {tr : List Ev} (h : RaceFree tr) {g : Gor} {l : Loc} (hp : Wr tr l fun i _ => Past tr g i) :
    RaceFree (tr ++ [⟨g, .read l⟩]) := by
  intro i j a b hi hj hij hc
  rcases get_snoc hj with hj | ⟨rfl, rfl⟩
  · rcases get_snoc hi with hi | ⟨rfl, -⟩
    · exact (h i j a b hi hj hij hc).mono _
    · have := (List.getElem?_eq_some_iff.1 hj).1; omega
  · rcases get_snoc hi with hi | ⟨rfl, -⟩
    · refine Past.last (e := ⟨g, .read l⟩) (hp i a hi ?_)
      obtain ⟨l', h1 | h1 | h1⟩ := hc <;> obtain ⟨h1, h2⟩ := h1 <;> cases h2
      exact h1
    · omega

/-- What touches memory after some more events. -/
theorem on_app {tr evs : List Ev} {l : Loc} {P : Nat → Ev → Prop}
    (h : ∀ i e, tr[i]? = some e → e.on l → P i e)
    (h' : ∀ e ∈ evs, e.on l → ∀ i, (tr ++ evs)[i]? = some e → P i e) : On (tr ++ evs) l P := by
  intro i e hi he
  by_cases hl : i < tr.length
  · rw [List.getElem?_append_left hl] at hi
    exact h i e hi he
  · refine h' e ?_ he i hi
    rw [List.getElem?_append_right (by omega)] at hi
    exact List.mem_of_getElem? hi

/-- More events, which do not touch the memory or are of the same goroutine. -/
theorem On.app {tr : List Ev} {l : Loc} {g : Gor} (h : On tr l fun i _ => Past tr g i) (evs : List Ev)
    (h' : ∀ e ∈ evs, e.on l → e.by_ = g) : On (tr ++ evs) l fun i _ => Past (tr ++ evs) g i :=
  on_app (fun i e hi he => (h i e hi he).mono evs) fun e he ho i hi => by
    have := past_own hi
    rw [h' e he ho] at this
    exact this

theorem does_iff (g : Gor) (k : Kind) (m m' : Shared) (t t' : Thread) :
    Exec k m t m' t' ↔ ∃ evs, Does g k m t m' t' evs := by
  constructor
  · intro h
    cases h
    all_goals exact ⟨_, by constructor <;> assumption⟩
  · rintro ⟨evs, h⟩
    cases h
    all_goals constructor <;> assumption

/-- The event `i` happens before the next time that someone locks the mutex. -/
def Released (tr : List Ev) (i : Nat) : Prop := ∃ k u, tr[k]? = some u ∧ u.op = .unlock ∧ HBE tr i k

theorem Released.mono {tr : List Ev} {i : Nat} (h : Released tr i) (evs : List Ev) : Released (tr ++ evs) i := by
  obtain ⟨k, u, h1, h2, h3⟩ := h
  exact ⟨k, u, get_mono h1 _, h2, h3.mono _⟩

theorem Released.locked {tr : List Ev} {i : Nat} (h : Released tr i) (g : Gor) : Past (tr ++ [⟨g, .lock⟩]) g i := by
  obtain ⟨k, u, h1, h2, h3⟩ := h
  have hb : HB (tr ++ [⟨g, .lock⟩]) k tr.length :=
    .mutex (get_mono h1 _) (get_last tr _) (List.getElem?_eq_some_iff.1 h1).1 h2 rfl
  refine ⟨tr.length, _, get_last tr _, .inl rfl, .inr ?_⟩
  rcases h3 with rfl | h3
  · exact hb
  · exact .trans (h3.mono _) hb

theorem Past.released {tr : List Ev} {g : Gor} {i : Nat} (h : Past tr g i) : Released (tr ++ [⟨g, .unlock⟩]) i :=
  ⟨tr.length, _, get_last tr _, rfl, .inr (Past.last (e := ⟨g, .unlock⟩) h)⟩

/-- The event `i` happens before whatever the loop and the goroutines `ns` do next. -/
def Base (tr : List Ev) (ns : List Nat) (i : Nat) : Prop := Past tr .loop i ∧ ∀ n ∈ ns, Past tr (.task n) i

theorem Base.mono {tr : List Ev} {ns : List Nat} {i : Nat} (h : Base tr ns i) (evs : List Ev) : Base (tr ++ evs) ns i :=
  ⟨h.1.mono _, fun n hn => (h.2 n hn).mono _⟩

/-- What is known of the memory in a state. -/
structure Safe (s : Sys) (ns : List Nat) (tr : List Ev) : Prop where
  len : ns.length = s.threads.length
  mutex : criticals s.threads = if s.shared.locked then 1 else 0
  free : RaceFree tr
  past : ∀ l, On tr l fun i e => Base tr ns i ∨ Released tr i ∨
    ∃ n x, (n, x) ∈ ns.zip s.threads ∧ x.2.critical = true ∧ e.by_ = .task n
  critical : ∀ n x, (n, x) ∈ ns.zip s.threads → x.2.critical = true →
    ∀ l, On tr l fun i _ => Past tr (.task n) i

theorem criticals_zero {a : List (Job × Thread)} (h : criticals a = 0) {x : Job × Thread} (hx : x ∈ a) :
    x.2.critical = false := by
  have := List.countP_eq_zero.1 h x hx
  simpa using this

theorem zip_mid {a b : List (Job × Thread)} {x : Job × Thread} {p q : List Nat} {n : Nat}
    (hl : p.length = a.length) : (p ++ n :: q).zip (a ++ x :: b) = p.zip a ++ (n, x) :: q.zip b := by
  rw [List.zip_append hl]; rfl

/-- When the goroutine of one task is between `Lock` and `Unlock`, no other is. -/
theorem only {a b : List (Job × Thread)} {x : Job × Thread} {p q : List Nat} {n : Nat}
    (hl : p.length = a.length) (hc : x.2.critical = true) (hm : criticals (a ++ x :: b) ≤ 1)
    {n' : Nat} {x' : Job × Thread} (h : (n', x') ∈ (p ++ n :: q).zip (a ++ x :: b)) (h' : x'.2.critical = true) :
    n' = n ∧ x' = x := by
  rw [zip_mid hl] at h
  have hs : criticals (a ++ (x.1, x.2) :: b) = _ := criticals_split (a := a) (b := b) (j := x.1) (t := x.2)
  rw [show ((x.1, x.2) : Job × Thread) = x from rfl, if_pos hc] at hs
  simp only [List.mem_append, List.mem_cons] at h
  rcases h with h | h | h
  · have := criticals_zero (a := a) (by omega) (List.of_mem_zip h).2
    rw [h'] at this; cases this
  · simpa using h
  · have := criticals_zero (a := b) (by omega) (List.of_mem_zip h).2
    rw [h'] at this; cases this

/-- Another goroutine of a task is where it was. -/
theorem zip_step {a b : List (Job × Thread)} {x y : Job × Thread} {p q : List Nat} {n : Nat}
    (hl : p.length = a.length) {n' : Nat} {x' : Job × Thread}
    (h : (n', x') ∈ (p ++ n :: q).zip (a ++ x :: b)) :
    (n' = n ∧ x' = x) ∨ (n', x') ∈ (p ++ n :: q).zip (a ++ y :: b) := by
  rw [zip_mid hl] at h ⊢
  simp only [List.mem_append, List.mem_cons, Prod.mk.injEq] at h ⊢
  tauto

theorem Safe.init (string : Str) : Safe { shared := { string := string } } [] begun := by
  have f0 : RaceFree [] := by intro i j a b h; simp at h
  have f1 : RaceFree ([] ++ [⟨.client, .write .string⟩]) := f0.write (by intro i e h; simp at h)
  have f2 : RaceFree ([] ++ [⟨.client, .write .string⟩] ++ [⟨.client, .write .writer⟩]) := f1.write
    (on_app (by intro i e h; simp at h) (by simp [Ev.on]))
  have f3 := f2.quiet ⟨.client, .go .loop⟩ (by simp [Ev.on])
  refine ⟨rfl, rfl, f3, fun l i e hi he => .inl ⟨?_, by simp⟩, by simp⟩
  have hm : e ∈ begun := List.mem_of_getElem? hi
  have hb : e.by_ = .client := by
    simp only [begun, List.mem_cons, List.not_mem_nil, or_false] at hm
    rcases hm with rfl | rfl | rfl <;> rfl
  have hi' : ([⟨.client, .write .string⟩, ⟨.client, .write .writer⟩] : List Ev)[i]? = some e := by
    rcases get_snoc (tr := [⟨.client, .write .string⟩, ⟨.client, .write .writer⟩]) (x := ⟨.client, .go .loop⟩) hi with h | ⟨-, rfl⟩
    · exact h
    · simp [Ev.on] at he
  have := past_own hi'
  rw [hb] at this
  exact this.started .loop

theorem Safe.spawn {s : Sys} {ns : List Nat} {tr : List Ev} (h : Safe s ns tr) (r : St Job (Option Err)) (j : Job) (n : Nat) :
    Safe { s with run := r, threads := s.threads ++ [(j, .start)] } (ns ++ [n]) (tr ++ [⟨.loop, .go (.task n)⟩]) := by
  have hz : (ns ++ [n]).zip (s.threads ++ [(j, .start)]) = ns.zip s.threads ++ [(n, (j, .start))] :=
    List.zip_append h.len
  refine ⟨by simp [h.len], ?_, h.free.quiet _ (by simp [Ev.on]), fun l => ?_, fun m x hx hc l => ?_⟩
  · have := h.mutex
    simpa [criticals, Thread.critical] using this
  · refine on_app (fun i e hi he => ?_) (by simp [Ev.on])
    rcases h.past l i e hi he with hb | hb | ⟨m, x, hx, hc, hb⟩
    · refine .inl ⟨hb.1.mono _, fun m hm => ?_⟩
      rcases List.mem_append.1 hm with hm | hm
      · exact (hb.2 m hm).mono _
      · obtain rfl : m = n := by simpa using hm
        exact hb.1.started _
    · exact .inr (.inl (hb.mono _))
    · exact .inr (.inr ⟨m, x, by rw [hz]; exact List.mem_append_left _ hx, hc, hb⟩)
  · rw [show ({ s with run := r, threads := s.threads ++ [(j, .start)] } : Sys).threads = s.threads ++ [(j, .start)] from rfl, hz] at hx
    rcases List.mem_append.1 hx with hx | hx
    · exact (h.critical m x hx hc l).app _ (by simp [Ev.on])
    · obtain ⟨rfl, rfl⟩ : m = n ∧ x = (j, .start) := by simpa using hx
      cases hc

theorem Safe.finish {s : Sys} {tr : List Ev} {a b : List (Job × Thread)} {j : Job} {e : Option Err} {p q : List Nat} {n : Nat}
    (h : Safe s (p ++ n :: q) tr) (ht : s.threads = a ++ (j, .done e) :: b) (hl : p.length = a.length)
    (r : St Job (Option Err)) : Safe { s with run := r, threads := a ++ b } (p ++ q) tr := by
  have hz : (p ++ q).zip (a ++ b) = p.zip a ++ q.zip b := List.zip_append hl
  have sub : ∀ n' x, (n', x) ∈ (p ++ q).zip (a ++ b) → (n', x) ∈ (p ++ n :: q).zip s.threads := by
    intro n' x hx
    rw [ht, zip_mid hl]
    rw [hz] at hx
    simp only [List.mem_append, List.mem_cons] at hx ⊢
    tauto
  refine ⟨?_, ?_, h.free, fun l i ev hi he => ?_, fun m x hx hc l => h.critical m x (sub m x hx) hc l⟩
  · have := h.len
    rw [ht] at this
    simp only [List.length_append, List.length_cons] at this ⊢
    omega
  · have := h.mutex
    rw [ht, criticals_split] at this
    simpa [criticals, Thread.critical] using this
  · rcases h.past l i ev hi he with hb | hb | ⟨m, x, hx, hc, hb⟩
    · refine .inl ⟨hb.1, fun m hm => hb.2 m ?_⟩
      simp only [List.mem_append, List.mem_cons] at hm ⊢
      tauto
    · exact .inr (.inl hb)
    · refine .inr (.inr ⟨m, x, ?_, hc, hb⟩)
      rw [ht, zip_mid hl] at hx
      simp only [hz, List.mem_append, List.mem_cons] at hx ⊢
      rcases hx with hx | hx | hx
      · exact .inl hx
      · obtain ⟨-, rfl⟩ := Prod.mk.inj hx
        cases hc
      · exact .inr hx

/-- A goroutine that is not between `Lock` and `Unlock` returns. -/
theorem Safe.returns {s : Sys} {ns : List Nat} {tr : List Ev} {a b : List (Job × Thread)} {j : Job} {t t' : Thread} {p q : List Nat} {n : Nat}
    (h : Safe s ns tr) (ht : s.threads = a ++ (j, t) :: b) (hn : ns = p ++ n :: q) (hl : p.length = a.length)
    (hc : t.critical = false) (hc' : t'.critical = false) :
    Safe { s with shared := s.shared, threads := a ++ (j, t') :: b } ns (tr ++ []) := by
  subst hn
  rw [List.append_nil]
  refine ⟨by simpa [ht] using h.len, ?_, h.free, fun l i ev hi he => ?_, fun m x hx hxc l => ?_⟩
  · have := h.mutex
    rw [ht, criticals_split, hc] at this
    simp only [criticals_split, hc']
    exact this
  · rcases h.past l i ev hi he with hb | hb | ⟨m, x, hx, hxc, hb⟩
    · exact .inl hb
    · exact .inr (.inl hb)
    · rw [ht] at hx
      rcases zip_step (y := (j, t')) hl hx with ⟨-, rfl⟩ | hx
      · rw [hc] at hxc; cases hxc
      · exact .inr (.inr ⟨m, x, hx, hxc, hb⟩)
  · rcases zip_step (y := (j, t)) hl hx with ⟨-, rfl⟩ | hx
    · rw [hc'] at hxc; cases hxc
    · exact h.critical m x (by rw [ht]; exact hx) hxc l

/-- A goroutine that is between `Lock` and `Unlock` uses memory. -/
theorem Safe.uses {s : Sys} {ns : List Nat} {tr : List Ev} {a b : List (Job × Thread)} {j : Job} {t t' : Thread} {p q : List Nat} {n : Nat}
    (h : Safe s ns tr) (ht : s.threads = a ++ (j, t) :: b) (hn : ns = p ++ n :: q) (hl : p.length = a.length)
    (hc : t.critical = true) (hc' : t'.critical = true) (m : Shared) (hm : m.locked = s.shared.locked)
    (op : Op) (ho : ∃ l, op = .read l ∨ op = .write l) :
    Safe { s with shared := m, threads := a ++ (j, t') :: b } ns (tr ++ [⟨.task n, op⟩]) := by
  subst hn
  have hmu := h.mutex
  have hle : criticals (a ++ (j, t) :: b) ≤ 1 := by rw [← ht, hmu]; split <;> omega
  have hcs : criticals (a ++ (j, t') :: b) = criticals (a ++ (j, t) :: b) := by
    rw [criticals_split, criticals_split, hc, hc']
  have hin : (n, (j, t)) ∈ (p ++ n :: q).zip s.threads := by rw [ht, zip_mid hl]; simp
  have hin' : (n, (j, t')) ∈ (p ++ n :: q).zip (a ++ (j, t') :: b) := by rw [zip_mid hl]; simp
  have hp := h.critical n _ hin hc
  refine ⟨by simpa [ht] using h.len, ?_, ?_, fun l => ?_, fun m' x hx hxc l => ?_⟩
  · simp only [hcs, ← ht, hmu, hm]
  · obtain ⟨l, rfl | rfl⟩ := ho
    · exact h.free.read fun i e hi he => hp l i e hi (.inr he)
    · exact h.free.write (hp l)
  · refine on_app (fun i e hi he => ?_) fun e he _ i hi => ?_
    · rcases h.past l i e hi he with hb | hb | ⟨m', x, hx, hxc, hb⟩
      · exact .inl (hb.mono _)
      · exact .inr (.inl (hb.mono _))
      · rw [ht] at hx
        obtain ⟨rfl, rfl⟩ := only hl hc hle hx hxc
        exact .inr (.inr ⟨_, _, hin', hc', hb⟩)
    · obtain rfl : e = ⟨.task n, op⟩ := by simpa using he
      exact .inr (.inr ⟨_, _, hin', hc', rfl⟩)
  · obtain ⟨rfl, rfl⟩ := only hl hc' (by rw [hcs]; exact hle) hx hxc
    refine (hp l).app _ fun e he _ => ?_
    obtain rfl : e = ⟨.task m', op⟩ := by simpa using he
    rfl

theorem Safe.locks {s : Sys} {ns : List Nat} {tr : List Ev} {a b : List (Job × Thread)} {j : Job} {p q : List Nat} {n : Nat}
    (h : Safe s ns tr) (ht : s.threads = a ++ (j, .start) :: b) (hn : ns = p ++ n :: q) (hl : p.length = a.length)
    (hf : s.shared.locked = false) :
    Safe { s with shared := { s.shared with locked := true }, threads := a ++ (j, .locked) :: b } ns (tr ++ [⟨.task n, .lock⟩]) := by
  subst hn
  have hmu := h.mutex
  rw [hf] at hmu
  have hz : criticals s.threads = 0 := by simpa using hmu
  have h1 : criticals (a ++ (j, .locked) :: b) = 1 := by
    rw [ht, criticals_split] at hz
    rw [criticals_split]
    simp [Thread.critical] at hz ⊢
    omega
  have none : ∀ m x, (m, x) ∈ (p ++ n :: q).zip s.threads → x.2.critical = true → False := by
    intro m x hx hc
    rw [criticals_zero hz (List.of_mem_zip hx).2] at hc
    cases hc
  refine ⟨by simpa [ht] using h.len, by simpa using h1, h.free.quiet _ (by simp [Ev.on]), fun l => ?_, fun m x hx hxc l => ?_⟩
  · refine on_app (fun i e hi he => ?_) (by simp [Ev.on])
    rcases h.past l i e hi he with hb | hb | ⟨m', x, hx, hxc, hb⟩
    · exact .inl (hb.mono _)
    · exact .inr (.inl (hb.mono _))
    · exact (none _ _ hx hxc).elim
  · obtain ⟨rfl, rfl⟩ := only hl rfl (by rw [h1]) hx hxc
    refine on_app (fun i e hi he => ?_) (by simp [Ev.on])
    rcases h.past l i e hi he with hb | hb | ⟨m', x, hx, hxc, hb⟩
    · exact (hb.2 m (by simp)).mono _
    · exact hb.locked _
    · exact (none _ _ hx hxc).elim

theorem Safe.unlocks {s : Sys} {ns : List Nat} {tr : List Ev} {a b : List (Job × Thread)} {j : Job} {p q : List Nat} {n : Nat}
    (h : Safe s ns tr) (ht : s.threads = a ++ (j, .stored) :: b) (hn : ns = p ++ n :: q) (hl : p.length = a.length) :
    Safe { s with shared := { s.shared with locked := false }, threads := a ++ (j, .done none) :: b } ns
      (tr ++ [⟨.task n, .unlock⟩]) := by
  subst hn
  have hmu := h.mutex
  have hle : criticals (a ++ (j, .stored) :: b) ≤ 1 := by rw [← ht, hmu]; split <;> omega
  have h0 : criticals (a ++ (j, .done none) :: b) = 0 := by
    rw [criticals_split] at hle ⊢
    simp [Thread.critical] at hle ⊢
    omega
  refine ⟨by simpa [ht] using h.len, by simpa using h0, h.free.quiet _ (by simp [Ev.on]), fun l => ?_, fun m x hx hxc l => ?_⟩
  · refine on_app (fun i e hi he => ?_) (by simp [Ev.on])
    rcases h.past l i e hi he with hb | hb | ⟨m', x, hx, hxc, hb⟩
    · exact .inl (hb.mono _)
    · exact .inr (.inl (hb.mono _))
    · rw [ht] at hx
      obtain ⟨rfl, rfl⟩ := only hl rfl hle hx hxc
      have := past_own hi
      rw [hb] at this
      exact .inr (.inl this.released)
  · rw [criticals_zero h0 (List.of_mem_zip hx).2] at hxc
    cases hxc

theorem Watched.safe {cap : Nat} {string : Str} {s : Sys} {ns : List Nat} {tr : List Ev}
    (w : Watched cap { shared := { string := string } } s ns tr) : Safe s ns tr := by
  induction w with
  | start => exact Safe.init string
  | spawn _ r j _ _ ih => exact ih.spawn r j _
  | finish _ a b j e r p q n ht hn hl _ _ ih => subst hn; exact ih.finish ht hl r
  | other _ r _ _ _ ih => exact ⟨ih.len, ih.mutex, ih.free, ih.past, ih.critical⟩
  | submit _ r _ ih => exact ⟨ih.len, ih.mutex, ih.free, ih.past, ih.critical⟩
  | exec _ a b j t t' m p q n evs h hn hl hx ih =>
    obtain ⟨id, k⟩ := j
    cases hx with
    | lock _ _ hk hf => exact ih.locks h hn hl hf
    | load _ _ hk => exact ih.uses h hn hl rfl rfl _ rfl _ ⟨_, .inl rfl⟩
    | print _ s => refine ih.uses (t' := .stored) h hn hl rfl rfl _ ?_ _ ⟨_, .inr rfl⟩; rfl
    | rev _ s u hr => refine ih.uses (t' := .stored) h hn hl rfl rfl _ ?_ _ ⟨_, .inr rfl⟩; rfl
    | rot13 _ s => refine ih.uses (t' := .stored) h hn hl rfl rfl _ ?_ _ ⟨_, .inr rfl⟩; rfl
    | unlock _ _ hk => exact ih.unlocks h hn hl
    | fail _ => exact ih.returns h hn hl rfl rfl
    | sleep n _ => exact ih.returns h hn hl rfl rfl
    | pg q _ => exact ih.returns h hn hl rfl rfl
    | sh q _ => exact ih.returns h hn hl rfl rfl

theorem watched_len {cap : Nat} {string : Str} {s : Sys} {ns : List Nat} {tr : List Ev}
    (w : Watched cap { shared := { string := string } } s ns tr) : ns.length = s.threads.length := w.safe.len

/-- A goroutine has a number. -/
theorem split_names {ns : List Nat} {a b : List (Job × Thread)} {x : Job × Thread}
    (h : ns.length = (a ++ x :: b).length) : ∃ p n q, ns = p ++ n :: q ∧ p.length = a.length := by
  have hlt : a.length < ns.length := by rw [h]; simp
  exact ⟨ns.take a.length, ns[a.length], ns.drop (a.length + 1), by simp, by simp; omega⟩

theorem move_started {cap : Nat} {s r : St Job (Option Err)} (h : Move cap s r) : s.started.length ≤ r.started.length := by
  rcases move_hist h with ⟨h1, -, -⟩ | ⟨j, h1, -, -⟩ | ⟨_, _, _, _, h1, -, -⟩ <;> simp [h1]

theorem submit_started {cap : Nat} {s r : St Job (Option Err)} (h : Submit cap s r) : r.started = s.started := by
  cases h <;> rfl

end lemmas

variable {n : Int} {string : Str} {cap : Nat} {s0 s : Sys}

/-- The events are those of the steps of the model: a state can be reached exactly if it can be reached
while watching. -/
theorem C135_watched (h0 : start n string = some (cap, s0)) :
    Steps cap s0 s ↔ ∃ ns tr, Watched cap s0 s ns tr := by
  obtain ⟨-, -, rfl⟩ := start_some.1 h0
  constructor
  · intro h
    induction h with
    | refl => exact ⟨_, _, .start⟩
    | tail _ hs ih =>
      obtain ⟨ns, tr, w⟩ := ih
      have hlen := watched_len w
      cases hs with
      | submit h => exact ⟨_, _, .submit w _ h⟩
      | act h =>
        cases h with
        | spawn r j h hs => exact ⟨_, _, .spawn w r j h hs⟩
        | exec a b j t t' m h hx =>
          obtain ⟨p, n, q, hn, hl⟩ := split_names (h ▸ hlen)
          obtain ⟨evs, hx⟩ := (does_iff (.task n) ..).1 hx
          exact ⟨_, _, .exec w a b j t t' m p q n evs h hn hl hx⟩
        | finish a b j e r ht h hs =>
          obtain ⟨p, n, q, hn, hl⟩ := split_names (ht ▸ hlen)
          exact ⟨_, _, .finish w a b j e r p q n ht hn hl h hs⟩
        | other r h hs hr => exact ⟨_, _, .other w r h hs hr⟩
  · rintro ⟨ns, tr, w⟩
    induction w with
    | start => exact .refl _
    | spawn _ r j h hs ih => exact .tail ih (.act (.spawn _ r j h hs))
    | exec _ a b j t t' m p q n evs h hn hl hx ih =>
      exact .tail ih (.act (.exec _ a b j t t' m h ((does_iff (.task n) ..).2 ⟨_, hx⟩)))
    | finish _ a b j e r p q n ht hn hl h hs ih => exact .tail ih (.act (.finish _ a b j e r ht h hs))
    | other _ r h hs hr ih => exact .tail ih (.act (.other _ r h hs hr))
    | submit _ r h ih => exact .tail ih (.submit h)

/-- No two goroutines have the same number: none is started twice. -/
theorem C135_numbers (h0 : start n string = some (cap, s0)) {ns : List Nat} {tr : List Ev}
    (w : Watched cap s0 s ns tr) :
    ∀ (i j : Nat) (e e' : Ev) (g : Gor), tr[i]? = some e → tr[j]? = some e' → e.op = .go g → e'.op = .go g → i = j := by
  obtain ⟨-, -, rfl⟩ := start_some.1 h0
  suffices h : (∀ (i j : Nat) (e e' : Ev) (g : Gor), tr[i]? = some e → tr[j]? = some e' → e.op = .go g → e'.op = .go g → i = j) ∧
      ∀ (i : Nat) (e : Ev) (m : Nat), tr[i]? = some e → e.op = .go (.task m) → m < s.run.started.length from h.1
  induction w with
  | start =>
    constructor
    · intro i j e e' g hi hj he he'
      have key : ∀ (i : Nat) (e : Ev) (g : Gor), begun[i]? = some e → e.op = .go g → i = 2 := by
        intro i e g hi he
        match i with
        | 0 => simp [begun] at hi; subst hi; cases he
        | 1 => simp [begun] at hi; subst hi; cases he
        | 2 => rfl
        | i + 3 => simp [begun] at hi
      rw [key i e g hi he, key j e' g hj he']
    · intro i e m hi he
      have hm := List.mem_of_getElem? hi
      simp only [begun, List.mem_cons, List.not_mem_nil, or_false] at hm
      rcases hm with rfl | rfl | rfl <;> cases he
  | spawn _ r j h hs ih =>
    obtain ⟨ih1, ih2⟩ := ih
    constructor
    · intro i j e e' g hi hj he he'
      rcases get_snoc hi with hi | ⟨rfl, rfl⟩ <;> rcases get_snoc hj with hj | ⟨rfl, rfl⟩
      · exact ih1 i j e e' g hi hj he he'
      · cases he'
        have := ih2 i e _ hi he
        omega
      · cases he
        have := ih2 j e' _ hj he'
        omega
      · rfl
    · intro i e m hi he
      have hlen : r.started.length = _ := congrArg List.length hs
      simp only [List.length_append, List.length_cons, List.length_nil] at hlen
      rcases get_snoc hi with hi | ⟨rfl, rfl⟩
      · have := ih2 i e m hi he
        show m < r.started.length
        omega
      · cases he
        show _ < r.started.length
        omega
  | exec _ a b j t t' m p q n evs h hn hl hx ih =>
    obtain ⟨ih1, ih2⟩ := ih
    have hno : ∀ e ∈ evs, ∀ g, e.op ≠ .go g := by
      intro e he g
      obtain ⟨id, k⟩ := j
      cases hx <;> simp_all
    have old : ∀ {tr : List Ev} {i : Nat} {e : Ev} {g : Gor}, (tr ++ evs)[i]? = some e → e.op = .go g → tr[i]? = some e := by
      intro tr i e g hi he
      by_cases hlt : i < tr.length
      · rw [List.getElem?_append_left hlt] at hi; exact hi
      · rw [List.getElem?_append_right (by omega)] at hi
        exact absurd he (hno e (List.mem_of_getElem? hi) g)
    exact ⟨fun i j e e' g hi hj he he' => ih1 i j e e' g (old hi he) (old hj he') he he',
      fun i e m hi he => ih2 i e m (old hi he) he⟩
  | finish _ a b j e r p q n ht hn hl h hs ih =>
    exact ⟨ih.1, fun i e m hi he => Nat.lt_of_lt_of_le (ih.2 i e m hi he) (move_started h)⟩
  | other _ r h hs hr ih =>
    exact ⟨ih.1, fun i e m hi he => Nat.lt_of_lt_of_le (ih.2 i e m hi he) (move_started h)⟩
  | submit _ r h ih =>
    exact ⟨ih.1, fun i e m hi he => Nat.lt_of_lt_of_le (ih.2 i e m hi he) (Nat.le_of_eq (by rw [submit_started h]))⟩

/-- C135. A demo target with any text and any limit is started, and tasks of any kinds are submitted to
it in any batches. Whatever the order in which the goroutines take their steps, of any two operations on
the text or on the writer, at least one of which writes, one happens before the other. -/
theorem C135_no_race (h0 : start n string = some (cap, s0)) {ns : List Nat} {tr : List Ev}
    (w : Watched cap s0 s ns tr) : RaceFree tr := by
  obtain ⟨-, -, rfl⟩ := start_some.1 h0
  exact w.safe.free

/-! ### The hypotheses are met -/

/-- C135: one task has reversed the text, and another, which was waiting for the mutex, has read it. -/
example : ∃ s ns tr, Watched 0 { shared := { string := utf8 ['a', 'b'] } } s ns tr ∧
    tr = begun ++ [⟨.loop, .go (.task 0)⟩, ⟨.loop, .go (.task 1)⟩, ⟨.task 0, .lock⟩, ⟨.task 0, .read .string⟩,
      ⟨.task 0, .write .string⟩, ⟨.task 0, .unlock⟩, ⟨.task 1, .lock⟩, ⟨.task 1, .read .string⟩] ∧
    s.threads = [((b!"r", .rev), .done none), ((b!"e", .echo), .loaded b!"ba")] ∧ s.shared.locked = true :=
  have w0 := Watched.submit (Watched.start (cap := 0) (s0 := { shared := { string := utf8 ['a', 'b'] } }))
    exampleSys.run (.sendDirect _ _ rfl rfl rfl)
  have w1 := w0.spawn _ (b!"r", .rev) (.spawn _ [] _ _ rfl) rfl
  have w2 := w1.spawn _ (b!"e", .echo) (.spawn _ [] _ _ rfl) rfl
  have w3 := w2.exec [] _ _ _ _ _ [] _ _ _ rfl rfl rfl (.lock _ _ trivial rfl)
  have w4 := w3.exec [] _ _ _ _ _ [] _ _ _ rfl rfl rfl (.load _ _ trivial)
  have w5 := w4.exec [] _ _ _ _ _ [] _ _ _ rfl rfl rfl (.rev _ _ ⟨[], b!"ba"⟩ (by decide +kernel))
  have w6 := w5.exec [] _ _ _ _ _ [] _ _ _ rfl rfl rfl (.unlock _ _ trivial)
  have w7 := w6.exec [_] _ _ _ _ _ [_] _ _ _ rfl rfl rfl (.lock _ _ trivial rfl)
  have w8 := w7.exec [_] _ _ _ _ _ [_] _ _ _ rfl rfl rfl (.load _ _ trivial)
  ⟨_, _, _, w8, rfl, rfl, rfl⟩

/-- C135: without the mutex, the two would race. -/
example : ¬ RaceFree (begun ++ [⟨.loop, .go (.task 0)⟩, ⟨.loop, .go (.task 1)⟩, ⟨.task 0, .write .string⟩,
    ⟨.task 1, .read .string⟩]) := by
  intro h
  have hb := h 5 6 _ _ rfl rfl (by decide) ⟨.string, .inr (.inl ⟨rfl, rfl⟩)⟩
  have key : ∀ i j, HB (begun ++ [⟨.loop, .go (.task 0)⟩, ⟨.loop, .go (.task 1)⟩, ⟨.task 0, .write .string⟩,
      ⟨.task 1, .read .string⟩]) i j → i ≠ 5 := by
    intro i j hij
    induction hij with
    | trans _ _ ih _ => exact ih
    | @seq i j a b hi hj h hg =>
      rintro rfl
      have : j = 6 := by have := (List.getElem?_eq_some_iff.1 hj).1; simp [begun] at this; omega
      subst this
      cases hi; cases hj; cases hg
    | @go i j a b hi hj h hg => rintro rfl; cases hi; cases hg
    | @mutex i j a b hi hj h ha hb => rintro rfl; cases hi; cases ha
  exact key 5 6 hb rfl

end Verif.TaskSet.Demo
