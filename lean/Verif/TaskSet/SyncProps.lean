import Verif.TaskSet.Sync
import Verif.TaskSet.RunProps

/-!
# C136: whoever gets the result of a task sees what the task has done
-/

namespace Verif.TaskSet.Sync
open Verif TaskSet

variable {τ ε : Type}

section lemmas
variable {tr : List (Ev τ ε)}

theorem get_mono {i : Nat} {a : Ev τ ε} (hi : tr[i]? = some a) (evs : List (Ev τ ε)) : (tr ++ evs)[i]? = some a := by
  rw [List.getElem?_append_left (List.getElem?_eq_some_iff.1 hi).1]
  exact hi

theorem get_last (tr : List (Ev τ ε)) (e : Ev τ ε) : (tr ++ [e])[tr.length]? = some e := by simp

theorem HB.mono {i j : Nat} (h : HB tr i j) (evs : List (Ev τ ε)) : HB (tr ++ evs) i j := by
  induction h with
  | seq hi hj h hg => exact .seq (get_mono hi _) (get_mono hj _) h hg
  | go hi hj h hg => exact .go (get_mono hi _) (get_mono hj _) h hg
  | msg hi hj h ha hb hn =>
    refine .msg (get_mono hi _) (get_mono hj _) h ha hb ?_
    rw [List.take_append_of_le_length (Nat.le_of_lt (List.getElem?_eq_some_iff.1 hi).1),
      List.take_append_of_le_length (Nat.le_of_lt (List.getElem?_eq_some_iff.1 hj).1)]
    exact hn
  | trans _ _ ih ih' => exact .trans ih ih'

/-- Event `i` is, or happens before, event `j`. -/
def HBE (tr : List (Ev τ ε)) (i j : Nat) : Prop := i = j ∨ HB tr i j

theorem HBE.mono {i j : Nat} (h : HBE tr i j) (evs : List (Ev τ ε)) : HBE (tr ++ evs) i j := h.imp id fun h => h.mono evs

theorem HBE.trans {i j k : Nat} (h : HBE tr i j) (h' : HB tr j k) : HB tr i k := by
  rcases h with rfl | h
  · exact h'
  · exact .trans h h'

/-- Event `i` happens before whatever goroutine `g` does next. -/
def Past (tr : List (Ev τ ε)) (g : Gor) (i : Nat) : Prop :=
  ∃ j e, tr[j]? = some e ∧ (e.by_ = g ∨ e.op = .go g) ∧ HBE tr i j

theorem Past.mono {g : Gor} {i : Nat} (h : Past tr g i) (evs : List (Ev τ ε)) : Past (tr ++ evs) g i := by
  obtain ⟨j, e, h1, h2, h3⟩ := h
  exact ⟨j, e, get_mono h1 _, h2, h3.mono _⟩

theorem past_own {i : Nat} {g : Gor} {o : Op τ ε} (h : tr[i]? = some ⟨g, o⟩) : Past tr g i := ⟨i, _, h, .inl rfl, .inl rfl⟩

theorem Past.last {g : Gor} {i : Nat} (h : Past tr g i) (o : Op τ ε) : HB (tr ++ [⟨g, o⟩]) i tr.length := by
  obtain ⟨j, a, h1, h2, h3⟩ := h
  have hj := (List.getElem?_eq_some_iff.1 h1).1
  refine (h3.mono _).trans ?_
  rcases h2 with h2 | h2
  · exact .seq (get_mono h1 _) (get_last tr _) hj h2
  · exact .go (get_mono h1 _) (get_last tr _) hj h2

theorem Past.started {g : Gor} {i : Nat} (h : Past tr g i) (g' : Gor) : Past (tr ++ [⟨g, .go g'⟩]) g' i :=
  ⟨tr.length, _, get_last tr _, .inr rfl, .inr (h.last _)⟩

/-- The event does this. -/
def At (tr : List (Ev τ ε)) (i : Nat) (o : Op τ ε) : Prop := ∃ g, tr[i]? = some ⟨g, o⟩

theorem At.mono {i : Nat} {o : Op τ ε} (h : At tr i o) (evs : List (Ev τ ε)) : At (tr ++ evs) i o := by
  obtain ⟨g, h⟩ := h
  exact ⟨g, get_mono h _⟩

/-- Event `m` is the message to channel `c` before which `n` were sent. -/
def SentAt (tr : List (Ev τ ε)) (c : Chan) (m n : Nat) : Prop := At tr m (.send c) ∧ nSends c (tr.take m) = n

theorem SentAt.mono {c : Chan} {m n : Nat} (h : SentAt tr c m n) (evs : List (Ev τ ε)) : SentAt (tr ++ evs) c m n := by
  obtain ⟨h1, h2⟩ := h
  refine ⟨h1.mono _, ?_⟩
  obtain ⟨g, h1⟩ := h1
  rw [List.take_append_of_le_length (Nat.le_of_lt (List.getElem?_eq_some_iff.1 h1).1)]
  exact h2

theorem sent_last (c : Chan) (g : Gor) : SentAt (tr ++ [⟨g, .send c⟩]) c tr.length (nSends c tr) :=
  ⟨⟨g, get_last tr _⟩, by simp⟩

/-- The next message is received. -/
theorem SentAt.recv {c : Chan} {m : Nat} (h : SentAt tr c m (nRecvs c tr)) (g : Gor) :
    HB (tr ++ [⟨g, .recv c⟩]) m tr.length := by
  obtain ⟨⟨g', h1⟩, h2⟩ := h
  have hm := (List.getElem?_eq_some_iff.1 h1).1
  refine .msg (get_mono h1 _) (get_last tr _) hm rfl rfl ?_
  rw [List.take_append_of_le_length (Nat.le_of_lt hm)]
  simpa using h2

theorem SentAt.past {c : Chan} {i m : Nat} (h : SentAt tr c m (nRecvs c tr)) (hi : HBE tr i m) (g : Gor) :
    Past (tr ++ [⟨g, .recv c⟩]) g i :=
  ⟨tr.length, _, get_last tr _, .inl rfl, .inr ((hi.mono _).trans (h.recv g))⟩

theorem nSends_app (c : Chan) (evs : List (Ev τ ε)) : nSends c (tr ++ evs) = nSends c tr + nSends c evs := by
  simp [nSends]

theorem nRecvs_app (c : Chan) (evs : List (Ev τ ε)) : nRecvs c (tr ++ evs) = nRecvs c tr + nRecvs c evs := by
  simp [nRecvs]

theorem at_snoc {e : Ev τ ε} {i : Nat} {o : Op τ ε} (h : At (tr ++ [e]) i o) : At tr i o ∨ i = tr.length ∧ e.op = o := by
  obtain ⟨g, h⟩ := h
  by_cases hi : i < tr.length
  · rw [List.getElem?_append_left hi] at h; exact .inl ⟨g, h⟩
  · rw [List.getElem?_append_right (by omega)] at h
    rcases Nat.eq_zero_or_pos (i - tr.length) with h0 | h0
    · rw [h0] at h
      obtain rfl : e = ⟨g, o⟩ := by simpa using h
      exact .inr ⟨by omega, rfl⟩
    · rw [List.getElem?_eq_none (by simp; omega)] at h; cases h

/-- Batch by batch, what is in the queue was submitted before it was sent. -/
def InQueue (tr : List (Ev τ ε)) (q : List (List τ)) : Prop := ∀ k batch, q[k]? = some batch →
  ∃ i m, At tr i (.submits batch) ∧ SentAt tr .queue m (nRecvs .queue tr + k) ∧ HBE tr i m

/-- Task by task, what is to be started was submitted. -/
def InHand (tr : List (Ev τ ε)) (rest : List τ) : Prop := ∀ t ∈ rest,
  ∃ i batch, At tr i (.submits batch) ∧ t ∈ batch ∧ Past tr .loop i

/-- Task by task, what executes has begun. -/
def Executes (tr : List (Ev τ ε)) (ex : List (Nat × τ)) : Prop := ∀ x ∈ ex,
  ∃ i, At tr i (.begins x.2) ∧ Past tr (.task x.1) i

/-- Task by task, what has finished has ended. -/
def Finishes (tr : List (Ev τ ε)) (fin : List (Nat × (τ × ε))) : Prop := ∀ x ∈ fin,
  ∃ i, At tr i (.ends x.2.1 x.2.2) ∧ Past tr (.task x.1) i

/-- What is passed on has ended. -/
def Passes (tr : List (Ev τ ε)) (hand : List (τ × ε)) : Prop := ∀ r ∈ hand,
  ∃ i, At tr i (.ends r.1 r.2) ∧ Past tr .loop i

/-- Result by result, what is to be received has ended before it was sent. -/
def InResults (tr : List (Ev τ ε)) (res : List (τ × ε)) : Prop := ∀ k r, res[k]? = some r →
  ∃ i m, At tr i (.ends r.1 r.2) ∧ SentAt tr .results m (nRecvs .results tr + k) ∧ HBE tr i m

/-- What is known in a state. -/
structure Known (q : List (List τ)) (rest : List τ) (hand res : List (τ × ε)) (ex : List (Nat × τ))
    (fin : List (Nat × (τ × ε))) (tr : List (Ev τ ε)) : Prop where
  loop : ∃ i, At tr i (.go .loop)
  cntQ : nSends .queue tr = nRecvs .queue tr + q.length
  cntR : nSends .relay tr = nRecvs .relay tr
  cntS : nSends .results tr = nRecvs .results tr + res.length
  queue : InQueue tr q
  rest : InHand tr rest
  ex : Executes tr ex
  fin : Finishes tr fin
  hand : Passes tr hand
  res : InResults tr res
  begun : ∀ j t, At tr j (.begins t) → ∃ i batch, At tr i (.submits batch) ∧ t ∈ batch ∧ HB tr i j
  ended : ∀ j t e, At tr j (.ends t e) → ∃ i, At tr i (.begins t) ∧ HB tr i j
  got : ∀ j t e, At tr j (.gets t e) → ∃ i, At tr i (.ends t e) ∧ HB tr i j

theorem InQueue.app {q : List (List τ)} (h : InQueue tr q) (evs : List (Ev τ ε)) (h0 : nRecvs .queue evs = 0) :
    InQueue (tr ++ evs) q := by
  intro k batch hk
  obtain ⟨i, m, h1, h2, h3⟩ := h k batch hk
  exact ⟨i, m, h1.mono _, by rw [nRecvs_app, h0]; exact h2.mono _, h3.mono _⟩

theorem InResults.app {res : List (τ × ε)} (h : InResults tr res) (evs : List (Ev τ ε)) (h0 : nRecvs .results evs = 0) :
    InResults (tr ++ evs) res := by
  intro k r hk
  obtain ⟨i, m, h1, h2, h3⟩ := h k r hk
  exact ⟨i, m, h1.mono _, by rw [nRecvs_app, h0]; exact h2.mono _, h3.mono _⟩

theorem InHand.app {rest : List τ} (h : InHand tr rest) (evs : List (Ev τ ε)) : InHand (tr ++ evs) rest := by
  intro t ht
  obtain ⟨i, b, h1, h2, h3⟩ := h t ht
  exact ⟨i, b, h1.mono _, h2, h3.mono _⟩

theorem Executes.app {ex : List (Nat × τ)} (h : Executes tr ex) (evs : List (Ev τ ε)) : Executes (tr ++ evs) ex := by
  intro t ht
  obtain ⟨i, h1, h3⟩ := h t ht
  exact ⟨i, h1.mono _, h3.mono _⟩

theorem Finishes.app {fin : List (Nat × (τ × ε))} (h : Finishes tr fin) (evs : List (Ev τ ε)) : Finishes (tr ++ evs) fin := by
  intro t ht
  obtain ⟨i, h1, h3⟩ := h t ht
  exact ⟨i, h1.mono _, h3.mono _⟩

theorem Passes.app {hand : List (τ × ε)} (h : Passes tr hand) (evs : List (Ev τ ε)) : Passes (tr ++ evs) hand := by
  intro t ht
  obtain ⟨i, h1, h3⟩ := h t ht
  exact ⟨i, h1.mono _, h3.mono _⟩

theorem cons_get {α : Type} {x : α} {l : List α} {k : Nat} {y : α} (h : l[k]? = some y) : (x :: l)[k + 1]? = some y := by
  simpa using h

theorem snoc_get {α : Type} {x : α} {l : List α} {k : Nat} {y : α} (h : (l ++ [x])[k]? = some y) :
    l[k]? = some y ∨ k = l.length ∧ x = y := by
  by_cases hi : k < l.length
  · rw [List.getElem?_append_left hi] at h; exact .inl h
  · rw [List.getElem?_append_right (by omega)] at h
    rcases Nat.eq_zero_or_pos (k - l.length) with h0 | h0
    · rw [h0] at h; exact .inr ⟨by omega, by simpa using h⟩
    · rw [List.getElem?_eq_none (by simp; omega)] at h; cases h

section steps
variable {q : List (List τ)} {rest : List τ} {hand res : List (τ × ε)} {ex : List (Nat × τ)} {fin : List (Nat × (τ × ε))}

theorem Known.init : Known (τ := τ) (ε := ε) [] [] [] [] [] [] [⟨.client, .go .loop⟩] := by
  constructor
  case loop => exact ⟨0, _, rfl⟩
  all_goals first
    | rfl
    | (intro j t e h
       rcases at_snoc (tr := []) h with ⟨g, h⟩ | ⟨-, h⟩
       · simp at h
       · cases h)
    | (intro j t h
       rcases at_snoc (tr := []) h with ⟨g, h⟩ | ⟨-, h⟩
       · simp at h
       · cases h)
    | simp [InQueue, InHand, Executes, Finishes, Passes, InResults]

/-- An event that is neither sent nor received, nor the beginning or the end of anything. -/
theorem Known.quiet (h : Known q rest hand res ex fin tr) (e : Ev τ ε)
    (hc : ∀ c, e.op.sends c = false ∧ e.op.recvs c = false) (h1 : ∀ t, e.op ≠ .begins t) (h2 : ∀ t x, e.op ≠ .ends t x)
    (h3 : ∀ t x, e.op ≠ .gets t x) : Known q rest hand res ex fin (tr ++ [e]) := by
  have hs : ∀ c, nSends c [e] = 0 := by intro c; simp [nSends, (hc c).1]
  have hr : ∀ c, nRecvs c [e] = 0 := by intro c; simp [nRecvs, (hc c).2]
  refine ⟨?_, ?_, ?_, ?_, h.queue.app _ (hr _), h.rest.app _, h.ex.app _, h.fin.app _, h.hand.app _,
    h.res.app _ (hr _), fun j t hj => ?_, fun j t x hj => ?_, fun j t x hj => ?_⟩
  · obtain ⟨i, hi⟩ := h.loop; exact ⟨i, hi.mono _⟩
  · rw [nSends_app, nRecvs_app, hs, hr]; exact h.cntQ
  · rw [nSends_app, nRecvs_app, hs, hr]; exact h.cntR
  · rw [nSends_app, nRecvs_app, hs, hr]; exact h.cntS
  · rcases at_snoc hj with hj | ⟨-, hj⟩
    · obtain ⟨i, b, a1, a2, a3⟩ := h.begun j t hj; exact ⟨i, b, a1.mono _, a2, a3.mono _⟩
    · exact absurd hj (h1 t)
  · rcases at_snoc hj with hj | ⟨-, hj⟩
    · obtain ⟨i, a1, a3⟩ := h.ended j t x hj; exact ⟨i, a1.mono _, a3.mono _⟩
    · exact absurd hj (h2 t x)
  · rcases at_snoc hj with hj | ⟨-, hj⟩
    · obtain ⟨i, a1, a3⟩ := h.got j t x hj; exact ⟨i, a1.mono _, a3.mono _⟩
    · exact absurd hj (h3 t x)

/-- What does not depend on messages, when one is sent or received. -/
theorem Known.marks (h : Known q rest hand res ex fin tr) (g : Gor) (o : Op τ ε) (h1 : ∀ t, o ≠ .begins t) (h2 : ∀ t x, o ≠ .ends t x)
    (h3 : ∀ t x, o ≠ .gets t x) :
    (∀ j t, At (tr ++ [⟨g, o⟩]) j (.begins t) → ∃ i batch, At (tr ++ [⟨g, o⟩]) i (.submits batch) ∧ t ∈ batch ∧ HB (tr ++ [⟨g, o⟩]) i j) ∧
    (∀ j t e, At (tr ++ [⟨g, o⟩]) j (.ends t e) → ∃ i, At (tr ++ [⟨g, o⟩]) i (.begins t) ∧ HB (tr ++ [⟨g, o⟩]) i j) ∧
    (∀ j t e, At (tr ++ [⟨g, o⟩]) j (.gets t e) → ∃ i, At (tr ++ [⟨g, o⟩]) i (.ends t e) ∧ HB (tr ++ [⟨g, o⟩]) i j) := by
  refine ⟨fun j t hj => ?_, fun j t x hj => ?_, fun j t x hj => ?_⟩
  · rcases at_snoc hj with hj | ⟨-, hj⟩
    · obtain ⟨i, b, a1, a2, a3⟩ := h.begun j t hj; exact ⟨i, b, a1.mono _, a2, a3.mono _⟩
    · exact absurd hj (h1 t)
  · rcases at_snoc hj with hj | ⟨-, hj⟩
    · obtain ⟨i, a1, a3⟩ := h.ended j t x hj; exact ⟨i, a1.mono _, a3.mono _⟩
    · exact absurd hj (h2 t x)
  · rcases at_snoc hj with hj | ⟨-, hj⟩
    · obtain ⟨i, a1, a3⟩ := h.got j t x hj; exact ⟨i, a1.mono _, a3.mono _⟩
    · exact absurd hj (h3 t x)

theorem Known.loop_app (h : Known q rest hand res ex fin tr) (evs : List (Ev τ ε)) : ∃ i, At (tr ++ evs) i (.go .loop) := by
  obtain ⟨i, hi⟩ := h.loop; exact ⟨i, hi.mono _⟩

theorem Known.sendQ (h : Known q rest hand res ex fin tr) (batch : List τ) :
    Known (q ++ [batch]) rest hand res ex fin (tr ++ [⟨.client, .submits batch⟩] ++ [⟨.client, .send .queue⟩]) := by
  have h' := h.quiet ⟨.client, .submits batch⟩ (by simp [Op.sends, Op.recvs]) (by simp) (by simp) (by simp)
  have hb : At (tr ++ [⟨.client, .submits batch⟩]) tr.length (.submits batch) := ⟨_, get_last _ _⟩
  have hp : Past (tr ++ [⟨.client, .submits batch⟩]) .client tr.length := past_own (get_last _ _)
  generalize tr ++ [⟨.client, .submits batch⟩] = tr' at *
  obtain ⟨m1, m2, m3⟩ := h'.marks .client (.send .queue) (by simp) (by simp) (by simp)
  refine ⟨h'.loop_app _, ?_, ?_, ?_, ?_, h'.rest.app _, h'.ex.app _, h'.fin.app _, h'.hand.app _,
    h'.res.app _ rfl, m1, m2, m3⟩
  · have := h'.cntQ
    simp [nSends_app, nRecvs_app, nSends, nRecvs, Op.sends, Op.recvs] at this ⊢
    omega
  · have := h'.cntR
    simpa [nSends_app, nRecvs_app, nSends, nRecvs, Op.sends, Op.recvs] using this
  · have := h'.cntS
    simpa [nSends_app, nRecvs_app, nSends, nRecvs, Op.sends, Op.recvs] using this
  · intro k b hk
    rcases snoc_get hk with hk | ⟨rfl, rfl⟩
    · exact h'.queue.app _ rfl k b hk
    · refine ⟨_, _, hb.mono _, ?_, .inr (hp.last _)⟩
      have := sent_last (tr := tr') .queue .client
      rw [h'.cntQ] at this
      rw [nRecvs_app]
      exact this

theorem Known.recvQ {batch : List τ} (h : Known (batch :: q) [] hand res ex fin tr) :
    Known q batch hand res ex fin (tr ++ [⟨.loop, .recv .queue⟩]) := by
  obtain ⟨m1, m2, m3⟩ := h.marks .loop (.recv .queue) (by simp) (by simp) (by simp)
  refine ⟨h.loop_app _, ?_, ?_, ?_, ?_, ?_, h.ex.app _, h.fin.app _, h.hand.app _,
    h.res.app _ rfl, m1, m2, m3⟩
  · have := h.cntQ
    simp [nSends_app, nRecvs_app, nSends, nRecvs, Op.sends, Op.recvs] at this ⊢
    omega
  · have := h.cntR
    simpa [nSends_app, nRecvs_app, nSends, nRecvs, Op.sends, Op.recvs] using this
  · have := h.cntS
    simpa [nSends_app, nRecvs_app, nSends, nRecvs, Op.sends, Op.recvs] using this
  · intro k b hk
    obtain ⟨i, m, a1, a2, a3⟩ := h.queue (k + 1) b (cons_get hk)
    refine ⟨i, m, a1.mono _, ?_, a3.mono _⟩
    have := a2.mono [⟨.loop, .recv .queue⟩]
    rw [nRecvs_app, show nRecvs .queue ([⟨.loop, .recv .queue⟩] : List (Ev τ ε)) = 1 from rfl,
      Nat.add_assoc, Nat.add_comm 1 k]
    exact this
  · intro t ht
    obtain ⟨i, m, a1, a2, a3⟩ := h.queue 0 batch rfl
    exact ⟨i, batch, a1.mono _, ht, SentAt.past a2 a3 .loop⟩

theorem Known.spawn {a b : List τ} {t : τ} (h : Known q (a ++ t :: b) hand res ex fin tr) (n : Nat) :
    Known q (a ++ b) hand res (ex ++ [(n, t)]) fin (tr ++ [⟨.loop, .go (.task n)⟩] ++ [⟨.task n, .begins t⟩]) := by
  obtain ⟨i, batch, hi, ht, hp⟩ := h.rest t (by simp)
  have h' := h.quiet ⟨.loop, .go (.task n)⟩ (by simp [Op.sends, Op.recvs]) (by simp) (by simp) (by simp)
  replace hp := hp.started (.task n)
  replace hi := hi.mono [⟨.loop, .go (.task n)⟩]
  generalize tr ++ [⟨.loop, .go (.task n)⟩] = tr' at *
  refine ⟨h'.loop_app _, ?_, ?_, ?_, h'.queue.app _ rfl, ?_, ?_, h'.fin.app _, h'.hand.app _, h'.res.app _ rfl,
    fun j u hj => ?_, fun j u x hj => ?_, fun j u x hj => ?_⟩
  · have := h'.cntQ
    simpa [nSends_app, nRecvs_app, nSends, nRecvs, Op.sends, Op.recvs] using this
  · have := h'.cntR
    simpa [nSends_app, nRecvs_app, nSends, nRecvs, Op.sends, Op.recvs] using this
  · have := h'.cntS
    simpa [nSends_app, nRecvs_app, nSends, nRecvs, Op.sends, Op.recvs] using this
  · intro u hu
    refine h'.rest.app _ u ?_
    simp only [List.mem_append, List.mem_cons] at hu ⊢
    tauto
  · intro x hx
    rcases List.mem_append.1 hx with hx | hx
    · exact h'.ex.app _ x hx
    · obtain rfl : x = (n, t) := by simpa using hx
      exact ⟨_, ⟨_, get_last _ _⟩, past_own (get_last _ _)⟩
  · rcases at_snoc hj with hj | ⟨rfl, ho⟩
    · obtain ⟨i, b, a1, a2, a3⟩ := h'.begun j u hj; exact ⟨i, b, a1.mono _, a2, a3.mono _⟩
    · cases ho
      exact ⟨i, batch, hi.mono _, ht, hp.last _⟩
  · rcases at_snoc hj with hj | ⟨-, hj⟩
    · obtain ⟨i, a1, a3⟩ := h'.ended j u x hj; exact ⟨i, a1.mono _, a3.mono _⟩
    · cases hj
  · rcases at_snoc hj with hj | ⟨-, hj⟩
    · obtain ⟨i, a1, a3⟩ := h'.got j u x hj; exact ⟨i, a1.mono _, a3.mono _⟩
    · cases hj

theorem Known.finish {a b : List (Nat × τ)} {n : Nat} {t : τ} (h : Known q rest hand res (a ++ (n, t) :: b) fin tr) (e : ε) :
    Known q rest hand res (a ++ b) (fin ++ [(n, (t, e))]) (tr ++ [⟨.task n, .ends t e⟩]) := by
  obtain ⟨i, hi, hp⟩ := h.ex (n, t) (by simp)
  refine ⟨h.loop_app _, ?_, ?_, ?_, h.queue.app _ rfl, h.rest.app _, ?_, ?_, h.hand.app _, h.res.app _ rfl,
    fun j u hj => ?_, fun j u x hj => ?_, fun j u x hj => ?_⟩
  · have := h.cntQ
    simpa [nSends_app, nRecvs_app, nSends, nRecvs, Op.sends, Op.recvs] using this
  · have := h.cntR
    simpa [nSends_app, nRecvs_app, nSends, nRecvs, Op.sends, Op.recvs] using this
  · have := h.cntS
    simpa [nSends_app, nRecvs_app, nSends, nRecvs, Op.sends, Op.recvs] using this
  · intro u hu
    refine h.ex.app _ u ?_
    simp only [List.mem_append, List.mem_cons] at hu ⊢
    tauto
  · intro x hx
    rcases List.mem_append.1 hx with hx | hx
    · exact h.fin.app _ x hx
    · obtain rfl : x = (n, (t, e)) := by simpa using hx
      exact ⟨_, ⟨_, get_last _ _⟩, past_own (get_last _ _)⟩
  · rcases at_snoc hj with hj | ⟨rfl, ho⟩
    · obtain ⟨i, b, a1, a2, a3⟩ := h.begun j u hj; exact ⟨i, b, a1.mono _, a2, a3.mono _⟩
    · cases ho
  · rcases at_snoc hj with hj | ⟨rfl, ho⟩
    · obtain ⟨i, a1, a3⟩ := h.ended j u x hj; exact ⟨i, a1.mono _, a3.mono _⟩
    · cases ho
      exact ⟨i, hi.mono _, hp.last _⟩
  · rcases at_snoc hj with hj | ⟨-, hj⟩
    · obtain ⟨i, a1, a3⟩ := h.got j u x hj; exact ⟨i, a1.mono _, a3.mono _⟩
    · cases hj

theorem Known.relay {a b : List (Nat × (τ × ε))} {n : Nat} {r : τ × ε} (h : Known q rest [] res ex (a ++ (n, r) :: b) tr) :
    Known q rest [r] res ex (a ++ b) (tr ++ [⟨.task n, .send .relay⟩] ++ [⟨.loop, .recv .relay⟩]) := by
  obtain ⟨i, hi, hp⟩ := h.fin (n, r) (by simp)
  have hs := sent_last (tr := tr) .relay (.task n)
  rw [h.cntR] at hs
  replace hp := hp.last (.send .relay)
  replace hi := hi.mono [⟨.task n, .send .relay⟩]
  obtain ⟨m1, m2, m3⟩ := h.marks (.task n) (.send .relay) (by simp) (by simp) (by simp)
  have hq := h.queue.app [⟨.task n, .send .relay⟩] rfl
  have hre := h.res.app [⟨.task n, .send .relay⟩] rfl
  have hS : SentAt (tr ++ [⟨.task n, .send .relay⟩]) .relay tr.length (nRecvs .relay (tr ++ [⟨.task n, .send .relay⟩])) := by
    rw [nRecvs_app]; exact hs
  have up : ∀ {j : Nat} {o : Op τ ε}, At (tr ++ [⟨.task n, .send .relay⟩] ++ [⟨.loop, .recv .relay⟩]) j o →
      o ≠ .recv .relay → At (tr ++ [⟨.task n, .send .relay⟩]) j o := by
    intro j o hj ho
    rcases at_snoc hj with hj | ⟨-, hj⟩
    · exact hj
    · exact absurd hj.symm ho
  have lp := h.loop_app [⟨.task n, .send .relay⟩]
  refine ⟨?_, ?_, ?_, ?_, hq.app _ rfl, (h.rest.app _).app _, (h.ex.app _).app _, ?_, ?_, hre.app _ rfl,
    fun j u hj => ?_, fun j u x hj => ?_, fun j u x hj => ?_⟩
  · obtain ⟨i, hi⟩ := lp; exact ⟨i, hi.mono _⟩
  · have := h.cntQ
    simpa [nSends_app, nRecvs_app, nSends, nRecvs, Op.sends, Op.recvs] using this
  · have := h.cntR
    simpa [nSends_app, nRecvs_app, nSends, nRecvs, Op.sends, Op.recvs] using this
  · have := h.cntS
    simpa [nSends_app, nRecvs_app, nSends, nRecvs, Op.sends, Op.recvs] using this
  · intro x hx
    refine (h.fin.app _).app _ x ?_
    simp only [List.mem_append, List.mem_cons] at hx ⊢
    tauto
  · intro r' hr
    obtain rfl : r' = r := by simpa using hr
    exact ⟨i, hi.mono _, hS.past (.inr hp) .loop⟩
  · obtain ⟨i, b, a1, a2, a3⟩ := m1 j u (up hj (by simp)); exact ⟨i, b, a1.mono _, a2, a3.mono _⟩
  · obtain ⟨i, a1, a3⟩ := m2 j u x (up hj (by simp)); exact ⟨i, a1.mono _, a3.mono _⟩
  · obtain ⟨i, a1, a3⟩ := m3 j u x (up hj (by simp)); exact ⟨i, a1.mono _, a3.mono _⟩

theorem Known.sendS {r : τ × ε} (h : Known q rest [r] res ex fin tr) :
    Known q rest [] (res ++ [r]) ex fin (tr ++ [⟨.loop, .send .results⟩]) := by
  obtain ⟨i, hi, hp⟩ := h.hand r (by simp)
  obtain ⟨m1, m2, m3⟩ := h.marks .loop (.send .results) (by simp) (by simp) (by simp)
  refine ⟨h.loop_app _, ?_, ?_, ?_, h.queue.app _ rfl, h.rest.app _, h.ex.app _, h.fin.app _, by simp [Passes], ?_, m1, m2, m3⟩
  · have := h.cntQ
    simpa [nSends_app, nRecvs_app, nSends, nRecvs, Op.sends, Op.recvs] using this
  · have := h.cntR
    simpa [nSends_app, nRecvs_app, nSends, nRecvs, Op.sends, Op.recvs] using this
  · have := h.cntS
    simp [nSends_app, nRecvs_app, nSends, nRecvs, Op.sends, Op.recvs] at this ⊢
    omega
  · intro k b hk
    rcases snoc_get hk with hk | ⟨rfl, rfl⟩
    · exact h.res.app _ rfl k b hk
    · refine ⟨_, _, hi.mono _, ?_, .inr (hp.last _)⟩
      have := sent_last (tr := tr) .results .loop
      rw [h.cntS] at this
      rw [nRecvs_app]
      exact this

theorem Known.recvS {r : τ × ε} (h : Known q rest hand (r :: res) ex fin tr) :
    Known q rest hand res ex fin (tr ++ [⟨.client, .recv .results⟩] ++ [⟨.client, .gets r.1 r.2⟩]) := by
  obtain ⟨i, m, hi, hs, hm⟩ := h.res 0 r rfl
  obtain ⟨m1, m2, m3⟩ := h.marks .client (.recv .results) (by simp) (by simp) (by simp)
  have hp := SentAt.past hs hm .client
  replace hi := hi.mono [⟨.client, .recv .results⟩]
  have h' : Known q rest hand res ex fin (tr ++ [⟨.client, .recv .results⟩]) := by
    refine ⟨h.loop_app _, ?_, ?_, ?_, h.queue.app _ rfl, h.rest.app _, h.ex.app _, h.fin.app _, h.hand.app _, ?_, m1, m2, m3⟩
    · have := h.cntQ
      simpa [nSends_app, nRecvs_app, nSends, nRecvs, Op.sends, Op.recvs] using this
    · have := h.cntR
      simpa [nSends_app, nRecvs_app, nSends, nRecvs, Op.sends, Op.recvs] using this
    · have := h.cntS
      simp [nSends_app, nRecvs_app, nSends, nRecvs, Op.sends, Op.recvs] at this ⊢
      omega
    · intro k b hk
      obtain ⟨i, m, a1, a2, a3⟩ := h.res (k + 1) b (cons_get hk)
      refine ⟨i, m, a1.mono _, ?_, a3.mono _⟩
      have := a2.mono [⟨.client, .recv .results⟩]
      rw [nRecvs_app, show nRecvs .results ([⟨.client, .recv .results⟩] : List (Ev τ ε)) = 1 from rfl,
        Nat.add_assoc, Nat.add_comm 1 k]
      exact this
  generalize tr ++ [⟨.client, .recv .results⟩] = tr' at *
  refine ⟨h'.loop_app _, ?_, ?_, ?_, h'.queue.app _ rfl, h'.rest.app _, h'.ex.app _, h'.fin.app _, h'.hand.app _,
    h'.res.app _ rfl, fun j u hj => ?_, fun j u x hj => ?_, fun j u x hj => ?_⟩
  · have := h'.cntQ
    simpa [nSends_app, nRecvs_app, nSends, nRecvs, Op.sends, Op.recvs] using this
  · have := h'.cntR
    simpa [nSends_app, nRecvs_app, nSends, nRecvs, Op.sends, Op.recvs] using this
  · have := h'.cntS
    simpa [nSends_app, nRecvs_app, nSends, nRecvs, Op.sends, Op.recvs] using this
  · rcases at_snoc hj with hj | ⟨rfl, ho⟩
    · obtain ⟨i, b, a1, a2, a3⟩ := h'.begun j u hj; exact ⟨i, b, a1.mono _, a2, a3.mono _⟩
    · cases ho
  · rcases at_snoc hj with hj | ⟨rfl, ho⟩
    · obtain ⟨i, a1, a3⟩ := h'.ended j u x hj; exact ⟨i, a1.mono _, a3.mono _⟩
    · cases ho
  · rcases at_snoc hj with hj | ⟨rfl, ho⟩
    · obtain ⟨i, a1, a3⟩ := h'.got j u x hj; exact ⟨i, a1.mono _, a3.mono _⟩
    · cases ho
      exact ⟨i, hi.mono _, hp.last _⟩

end steps

theorem zip_mid {α : Type} {a b : List α} {x : α} {p q : List Nat} {n : Nat} (hl : p.length = a.length) :
    (p ++ n :: q).zip (a ++ x :: b) = p.zip a ++ (n, x) :: q.zip b := by
  rw [List.zip_append hl]; rfl

/-- The numbers belong to the goroutines, and what is known. -/
theorem Watched.known {cap : Nat} {s : St τ ε} {xs fs : List Nat} (w : Watched cap s xs fs tr) :
    xs.length = s.executing.length ∧ fs.length = s.finished.length ∧
    Known s.queue s.pc.rest s.pc.hand s.results (xs.zip s.executing) (fs.zip s.finished) tr := by
  induction w with
  | start => exact ⟨rfl, rfl, Known.init⟩
  | send _ batch _ _ ih =>
    obtain ⟨l1, l2, ih⟩ := ih
    refine ⟨l1, l2, ?_⟩
    have := ih.sendQ batch
    simpa using this
  | sendDirect _ batch _ hq hp ih =>
    obtain ⟨l1, l2, ih⟩ := ih
    refine ⟨l1, l2, ?_⟩
    rw [hp, hq] at ih
    have := (ih.sendQ batch).recvQ
    simpa [hq, Pc.rest, Pc.hand] using this
  | close _ _ ih => exact ih
  | recv _ r rest h ih =>
    obtain ⟨l1, l2, ih⟩ := ih
    refine ⟨l1, l2, ?_⟩
    rw [h] at ih
    have := ih.recvS
    simpa using this
  | recvDirect _ r h hp ih =>
    obtain ⟨l1, l2, ih⟩ := ih
    refine ⟨l1, l2, ?_⟩
    rw [h, hp] at ih
    have := (Known.sendS ih).recvS
    simpa [h, Pc.rest, Pc.hand] using this
  | recvDirectLast _ r h hp ih =>
    obtain ⟨l1, l2, ih⟩ := ih
    refine ⟨l1, l2, ?_⟩
    rw [h, hp] at ih
    have := (Known.sendS ih).recvS
    simpa [h, Pc.rest, Pc.hand] using this
  | take _ batch rest hp hq ih =>
    obtain ⟨l1, l2, ih⟩ := ih
    refine ⟨l1, l2, ?_⟩
    rw [hp, hq] at ih
    exact ih.recvQ
  | @spawn s xs fs tr _ a b t hp ih =>
    obtain ⟨l1, l2, ih⟩ := ih
    refine ⟨by simp [l1], l2, ?_⟩
    rw [hp] at ih
    have := Known.spawn (a := a) (b := b) ih s.started.length
    simp only [List.append_assoc, List.singleton_append] at this
    rw [show ({ s with pc := .spawn (a ++ b), executing := s.executing ++ [t], started := s.started ++ [t], running := s.running + 1 } : St τ ε).executing
      = s.executing ++ [t] from rfl, List.zip_append l1]
    exact this
  | spawned _ hp ih =>
    rw [hp] at ih
    exact ih
  | @finish s fs tr xa xb n _ a b t e h hl ih =>
    obtain ⟨l1, l2, ih⟩ := ih
    rw [h] at l1
    refine ⟨by simp at l1 ⊢; omega, by simp [l2], ?_⟩
    rw [h, zip_mid hl] at ih
    have := ih.finish e
    rw [← List.zip_append hl] at this
    simp only
    rw [List.zip_append l2]
    exact this
  | @relay s xs tr fa fb n _ a b r hp h hl ih =>
    obtain ⟨l1, l2, ih⟩ := ih
    rw [h] at l2
    refine ⟨l1, by simp at l2 ⊢; omega, ?_⟩
    rw [h, zip_mid hl, hp] at ih
    have := Known.relay ih
    rw [← List.zip_append hl] at this
    simpa [Pc.rest, Pc.hand] using this
  | @relayLast s xs tr fa fb n _ a b r hp _ h hl ih =>
    obtain ⟨l1, l2, ih⟩ := ih
    rw [h] at l2
    refine ⟨l1, by simp at l2 ⊢; omega, ?_⟩
    rw [h, zip_mid hl, hp] at ih
    have := Known.relay ih
    rw [← List.zip_append hl] at this
    simpa [Pc.rest, Pc.hand] using this
  | put _ r hp _ ih =>
    obtain ⟨l1, l2, ih⟩ := ih
    refine ⟨l1, l2, ?_⟩
    rw [hp] at ih
    exact Known.sendS ih
  | putLast _ r hp _ ih =>
    obtain ⟨l1, l2, ih⟩ := ih
    refine ⟨l1, l2, ?_⟩
    rw [hp] at ih
    exact Known.sendS ih
  | notice _ hp _ _ ih => rw [hp] at ih; exact ih
  | last _ hp _ ih => rw [hp] at ih; exact ih
  | more _ hp _ ih => rw [hp] at ih; exact ih
  | ends _ hp _ ih => rw [hp] at ih; exact ih
  | panic _ _ _ _ ih => exact ih

/-- What was submitted, has begun, and has ended, by the events. -/
def Ev.submitted (e : Ev τ ε) : List τ := match e.op with | .submits b => b | _ => []
def Ev.begun (e : Ev τ ε) : List τ := match e.op with | .begins t => [t] | _ => []
def Ev.ended (e : Ev τ ε) : List (τ × ε) := match e.op with | .ends t x => [(t, x)] | _ => []

theorem Watched.events {cap : Nat} {s : St τ ε} {xs fs : List Nat} (w : Watched cap s xs fs tr) :
    tr.flatMap Ev.submitted = s.submitted ∧ tr.flatMap Ev.begun = s.started ∧ tr.flatMap Ev.ended = s.ran := by
  induction w with
  | start => exact ⟨rfl, rfl, rfl⟩
  | _ => simp_all [List.flatMap_append, List.flatMap_cons, Ev.submitted, Ev.begun, Ev.ended]

/-- Something that occurs once is at one place. -/
theorem once {α β : Type} {l : List α} {f : α → List β} (hn : (l.flatMap f).Nodup) {i j : Nat} {a b : α} {x : β}
    (hi : l[i]? = some a) (hj : l[j]? = some b) (ha : x ∈ f a) (hb : x ∈ f b) : i = j := by
  induction l generalizing i j with
  | nil => simp at hi
  | cons y l ih =>
    rw [List.flatMap_cons, List.nodup_append] at hn
    obtain ⟨-, h2, h3⟩ := hn
    cases i with
    | zero =>
      cases j with
      | zero => rfl
      | succ j =>
        simp at hi hj
        subst hi
        exact absurd rfl (h3 x ha x (List.mem_flatMap.2 ⟨b, List.mem_of_getElem? hj, hb⟩))
    | succ i =>
      cases j with
      | zero =>
        simp at hi hj
        subst hj
        exact absurd rfl (h3 x hb x (List.mem_flatMap.2 ⟨a, List.mem_of_getElem? hi, ha⟩))
      | succ j =>
        simp at hi hj
        rw [ih h2 hi hj]

end lemmas

variable {cap : Nat} {s : St τ ε}

/-- The events are those of the steps of the model: a state can be reached exactly if it can be reached
while watching. -/
theorem C136_watched : Reachable cap s ↔ ∃ xs fs tr, Watched cap s xs fs tr := by
  constructor
  · intro h
    unfold Reachable at h
    induction h with
    | refl => exact ⟨_, _, _, .start⟩
    | tail _ hs ih =>
      obtain ⟨xs, fs, tr, w⟩ := ih
      obtain ⟨l1, l2, -⟩ := w.known
      have split : ∀ {α : Type} {ns : List Nat} {a b : List α} {x : α}, ns.length = (a ++ x :: b).length →
          ∃ p n q, ns = p ++ n :: q ∧ p.length = a.length := by
        intro α ns a b x h
        have hlt : a.length < ns.length := by rw [h]; simp
        exact ⟨ns.take a.length, ns[a.length], ns.drop (a.length + 1), by simp, by simp; omega⟩
      rcases hs with hs | hs
      · cases hs with
        | send batch ho hr => exact ⟨_, _, _, .send w batch ho hr⟩
        | sendDirect batch ho hq hp => exact ⟨_, _, _, .sendDirect w batch ho hq hp⟩
        | close ho => exact ⟨_, _, _, .close w ho⟩
      · cases hs with
        | recv r rest h => exact ⟨_, _, _, .recv w r rest h⟩
        | recvDirect r h hp => exact ⟨_, _, _, .recvDirect w r h hp⟩
        | recvDirectLast r h hp => exact ⟨_, _, _, .recvDirectLast w r h hp⟩
        | take batch rest hp hq => exact ⟨_, _, _, .take w batch rest hp hq⟩
        | spawn a b t hp => exact ⟨_, _, _, .spawn w a b t hp⟩
        | spawned hp => exact ⟨_, _, _, .spawned w hp⟩
        | finish a b t e h =>
          obtain ⟨p, n, q, rfl, hl⟩ := split (h ▸ l1)
          exact ⟨_, _, _, .finish w a b t e h hl⟩
        | relay a b r hp h =>
          obtain ⟨p, n, q, rfl, hl⟩ := split (h ▸ l2)
          exact ⟨_, _, _, .relay w a b r hp h hl⟩
        | put r hp hr => exact ⟨_, _, _, .put w r hp hr⟩
        | notice hp hq hc => exact ⟨_, _, _, .notice w hp hq hc⟩
        | relayLast a b r hp ho h =>
          obtain ⟨p, n, q, rfl, hl⟩ := split (h ▸ l2)
          exact ⟨_, _, _, .relayLast w a b r hp ho h hl⟩
        | putLast r hp hr => exact ⟨_, _, _, .putLast w r hp hr⟩
        | last hp h => exact ⟨_, _, _, .last w hp h⟩
        | more hp h => exact ⟨_, _, _, .more w hp h⟩
        | ends hp h => exact ⟨_, _, _, .ends w hp h⟩
        | panic h hc hp => exact ⟨_, _, _, .panic w h hc hp⟩
  · rintro ⟨xs, fs, tr, w⟩
    induction w with
    | start => exact .refl _
    | send _ batch ho hr ih => exact .tail ih (.inl (.send _ batch ho hr))
    | sendDirect _ batch ho hq hp ih => exact .tail ih (.inl (.sendDirect _ batch ho hq hp))
    | close _ ho ih => exact .tail ih (.inl (.close _ ho))
    | recv _ r rest h ih => exact .tail ih (.inr (.recv _ r rest h))
    | recvDirect _ r h hp ih => exact .tail ih (.inr (.recvDirect _ r h hp))
    | recvDirectLast _ r h hp ih => exact .tail ih (.inr (.recvDirectLast _ r h hp))
    | take _ batch rest hp hq ih => exact .tail ih (.inr (.take _ batch rest hp hq))
    | spawn _ a b t hp ih => exact .tail ih (.inr (.spawn _ a b t hp))
    | spawned _ hp ih => exact .tail ih (.inr (.spawned _ hp))
    | finish _ a b t e h _ ih => exact .tail ih (.inr (.finish _ a b t e h))
    | relay _ a b r hp h _ ih => exact .tail ih (.inr (.relay _ a b r hp h))
    | put _ r hp hr ih => exact .tail ih (.inr (.put _ r hp hr))
    | notice _ hp hq hc ih => exact .tail ih (.inr (.notice _ hp hq hc))
    | relayLast _ a b r hp ho h _ ih => exact .tail ih (.inr (.relayLast _ a b r hp ho h))
    | putLast _ r hp hr ih => exact .tail ih (.inr (.putLast _ r hp hr))
    | last _ hp h ih => exact .tail ih (.inr (.last _ hp h))
    | more _ hp h ih => exact .tail ih (.inr (.more _ hp h))
    | ends _ hp h ih => exact .tail ih (.inr (.ends _ hp h))
    | panic _ h hc hp ih => exact .tail ih (.inr (.panic _ h hc hp))

variable {xs fs : List Nat} {tr : List (Ev τ ε)}

theorem nodup_started (w : Watched cap s xs fs tr) (hn : s.submitted.Nodup) : s.started.Nodup ∧ (s.ran.map Prod.fst).Nodup := by
  have hi := inv_of_reachable (C136_watched.2 ⟨_, _, _, w⟩)
  have h1 := (hi.submitted.nodup_iff.1 hn)
  have h2 := (List.nodup_append.1 h1).2.1
  exact ⟨h2, (List.nodup_append.1 (hi.started.nodup_iff.1 h2)).2.1⟩

/-- The goroutines that were started, by the events. -/
def Ev.started (e : Ev τ ε) : List Gor := match e.op with | .go g => [g] | _ => []

/-- No two goroutines have the same number: none is started twice. -/
theorem C136_numbers (w : Watched cap s xs fs tr) {g h h' : Gor} {i j : Nat} (hi : tr[i]? = some ⟨h, .go g⟩)
    (hj : tr[j]? = some ⟨h', .go g⟩) : i = j := by
  have key : tr.flatMap Ev.started = .loop :: (List.range s.started.length).map .task := by
    clear hi hj
    induction w with
    | start => rfl
    | _ => simp_all [List.flatMap_append, List.flatMap_cons, Ev.started, List.range_succ]
  have hn : (tr.flatMap Ev.started).Nodup := by
    rw [key, List.nodup_cons]
    refine ⟨by simp, List.pairwise_map.2 (List.nodup_range.imp fun h h' => h (by cases h'; rfl))⟩
  exact once hn hi hj (x := g) (by simp [Ev.started]) (by simp [Ev.started])

/-- C136. Tasks that can be told apart are submitted to a target of a task set, in any batches. What was
done before a task was submitted happens before the task begins; and that the task has ended, with its
outcome, happens before its result is got, whatever the order in which the goroutines take their steps. -/
theorem C136_visible (w : Watched cap s xs fs tr) (hn : s.submitted.Nodup) {t : τ} {g : Gor} :
    (∀ (i j : Nat) (batch : List τ), tr[i]? = some ⟨.client, .submits batch⟩ → t ∈ batch →
      tr[j]? = some ⟨g, .begins t⟩ → HB tr i j) ∧
    (∀ (i j : Nat) (g' : Gor) (e : ε), tr[i]? = some ⟨g, .begins t⟩ → tr[j]? = some ⟨g', .ends t e⟩ → HB tr i j) ∧
    (∀ (i j : Nat) (g' : Gor) (e e' : ε), tr[i]? = some ⟨g, .ends t e⟩ → tr[j]? = some ⟨g', .gets t e'⟩ →
      e' = e ∧ HB tr i j) := by
  obtain ⟨-, -, hk⟩ := w.known
  obtain ⟨e1, e2, e3⟩ := w.events
  obtain ⟨n2, n3⟩ := nodup_started w hn
  rw [← e1] at hn
  rw [← e2] at n2
  refine ⟨fun i j batch hi ht hj => ?_, fun i j g' e hi hj => ?_, fun i j g' e e' hi hj => ?_⟩
  · obtain ⟨i', b', ⟨g1, h1⟩, h2, h3⟩ := hk.begun j t ⟨_, hj⟩
    obtain rfl := once hn hi h1 (x := t) ht h2
    exact h3
  · obtain ⟨i', ⟨g1, h1⟩, h3⟩ := hk.ended j t e ⟨_, hj⟩
    obtain rfl := once n2 hi h1 (x := t) (by simp [Ev.begun]) (by simp [Ev.begun])
    exact h3
  · obtain ⟨i', ⟨g1, h1⟩, h3⟩ := hk.got j t e' ⟨_, hj⟩
    have n4 : (tr.flatMap fun ev => ev.ended.map Prod.fst).Nodup := by
      rw [← List.map_flatMap, e3]; exact n3
    obtain rfl := once n4 hi h1 (x := t) (by simp [Ev.ended]) (by simp [Ev.ended])
    rw [hi] at h1
    cases h1
    exact ⟨rfl, h3⟩

/-- C136. So a client that has waited for the result of a task before submitting another can rely on
the other seeing what the first has done. -/
theorem C136_rounds (w : Watched cap s xs fs tr) (hn : s.submitted.Nodup) {t u : τ} {e e' : ε} {batch : List τ}
    {g g' : Gor} {i j k l : Nat} (hi : tr[i]? = some ⟨g, .ends t e⟩) (hj : tr[j]? = some ⟨.client, .gets t e'⟩)
    (hk : tr[k]? = some ⟨.client, .submits batch⟩) (hjk : j < k) (hu : u ∈ batch)
    (hl : tr[l]? = some ⟨g', .begins u⟩) : HB tr i l := by
  have h1 := ((C136_visible w hn).2.2 i j _ e e' hi hj).2
  have h2 := (C136_visible w hn).1 k l batch hk hu hl
  exact .trans h1 (.trans (.seq hj hk hjk rfl) h2)

/-! ### The hypotheses are met -/

/-- C136: a task is submitted, executed, and its result got, and then another one. -/
example : ∃ (s : St Nat Bool) (xs fs : List Nat) (tr : List (Ev Nat Bool)), Watched 1 s xs fs tr ∧ s.submitted.Nodup ∧
    tr[5]? = some ⟨.task 0, .begins 7⟩ ∧ tr[6]? = some ⟨.task 0, .ends 7 true⟩ ∧ tr[11]? = some ⟨.client, .gets 7 true⟩ ∧
    tr[12]? = some ⟨.client, .submits [8, 9]⟩ ∧ tr[16]? = some ⟨.task 1, .begins 9⟩ :=
  have w1 := Watched.send (Watched.start (τ := Nat) (ε := Bool) (cap := 1)) [7] rfl (by decide)
  have w2 := w1.take [7] [] rfl rfl
  have w3 := w2.spawn [] [] 7 rfl
  have w4 := w3.spawned rfl
  have w5 := Watched.finish (xa := []) w4 [] [] 7 true rfl rfl
  have w6 := Watched.relay (fa := []) w5 [] [] (7, true) rfl rfl rfl
  have w7 := w6.put _ rfl (by decide)
  have w8 := w7.recv _ [] rfl
  have w9 := w8.sendDirect [8, 9] rfl rfl rfl
  have w10 := w9.spawn [8] [] 9 rfl
  ⟨_, _, _, _, w10, by decide, rfl, rfl, rfl, rfl, rfl⟩

end Verif.TaskSet.Sync
