import Verif.Json.Shipped
import Verif.Run.Messages

/-!
# examples/messages.jsonnet, under every schedule
-/

namespace Verif.Json
open Verif Book Run Run.Spec

/-- examples/messages.jsonnet, evaluated -/
def messaging : Value := .obj [
  (b!"targets", .obj [(b!"t", .obj [(b!"class", .str b!"demo")])]),
  (b!"tasks", .obj [
    (b!"step1", .obj [(b!"message", .str b!"Tuning frobnicator..."), (b!"target", .str b!"t/sleep")]),
    (b!"step2", .obj [(b!"after", .arr [.str b!"step1"]), (b!"message", .str b!"Resetting twiddler..."),
      (b!"target", .str b!"t/sleep")]),
    (b!"step3", .obj [(b!"after", .arr [.str b!"step2"]), (b!"message", .str b!"Toggling gonkulator..."),
      (b!"target", .str b!"t/sleep")])])]

def messagingSrc : Src where
  targets := [(b!"t", some ⟨b!"demo", []⟩)]
  tasks := [
    (b!"step1", some ⟨[], b!"t/sleep", b!"Tuning frobnicator...", []⟩),
    (b!"step2", some ⟨[b!"step1"], b!"t/sleep", b!"Resetting twiddler...", []⟩),
    (b!"step3", some ⟨[b!"step2"], b!"t/sleep", b!"Toggling gonkulator...", []⟩)]

theorem messaging_decode (tx : Text) : decodeFile tx messaging = .ok messagingSrc := rfl

def messagingBook : Runbook where
  targets := [(b!"t", .demo {})]
  tasks := [
    (b!"step1", ⟨b!"t", [], b!"Tuning frobnicator...", .sleep ⟨1⟩⟩),
    (b!"step2", ⟨b!"t", [b!"step1"], b!"Resetting twiddler...", .sleep ⟨1⟩⟩),
    (b!"step3", ⟨b!"t", [b!"step2"], b!"Toggling gonkulator...", .sleep ⟨1⟩⟩)]

theorem messaging_parse (tx : Text) (basedir : Str) :
    Book.parse (decoder tx) basedir messagingSrc = .ok messagingBook := by
  rfl

theorem messaging_ordered : Run.Spec.Ordered messagingSrc := by
  refine Run.ordered_of [b!"step1", b!"step2", b!"step3"] ?_
  simp [messagingSrc, GoMap.keys]

/-- The messages in the order in which they are meant to appear. -/
def announced : List (Str × Str) := [(b!"step1", b!"Tuning frobnicator..."), (b!"step2", b!"Resetting twiddler..."),
  (b!"step3", b!"Toggling gonkulator...")]

theorem messaging_messages : messages messagingSrc = announced := by decide

/-- **C107, examples/messages.jsonnet.** At any time the messages logged are the first few of the three, in their order.
Every run ends, returns nil, and has then logged all three. -/
theorem C107_messages {tx : Text} {basedir : Str} {proc : Proc} {book : Runbook} {s : Talk}
    (h : TReach (decoder tx) basedir proc messagingSrc book s) :
    s.log <+: announced ∧ ((∀ s', ¬ TAct proc book s s') → s.st.main = .returned none) ∧
    (s.st.main = .returned none → s.log = announced) := by
  have hb := h.reach.parse
  rw [messaging_parse] at hb
  cases hb
  obtain ⟨w1, w2⟩ := decodeFile_wf (messaging_decode tx)
  have hj := decoder_json tx
  have hne : ∀ o, ([], o) ∉ messagingSrc.tasks := by simp [messagingSrc]
  obtain ⟨h1, h2, h3, _, h5, h6⟩ := C109_messages hj w1 w2 h
  obtain ⟨h5, h7⟩ := h5 hne
  rw [messaging_messages] at h2 h3 h6
  have f1 : Follows messagingSrc b!"step2" b!"step1" := .single (depends_iff.mp rfl)
  have f2 : Follows messagingSrc b!"step3" b!"step2" := .single (depends_iff.mp rfl)
  have f3 : Follows messagingSrc b!"step3" b!"step1" := .trans f2 f1
  have hpre : s.log <+: announced := by
    have g1 : ∀ m, (b!"step2", m) ∈ s.log → (b!"step1", b!"Tuning frobnicator...") ∈ s.log := by
      intro m hm
      obtain ⟨q, hq⟩ := h5 _ hm _ f1
      exact h3 q _ _ hq _ (by simp [announced])
    have g2 : ∀ m, (b!"step3", m) ∈ s.log → (b!"step2", b!"Resetting twiddler...") ∈ s.log := by
      intro m hm
      obtain ⟨q, hq⟩ := h5 _ hm _ f2
      exact h3 q _ _ hq _ (by simp [announced])
    have hlen : s.log.length ≤ 3 := by
      have := (List.Nodup.of_map _ h1).subperm h2
      simpa [announced] using this.length_le
    generalize s.log = l at *
    have hin : ∀ x ∈ l, x = (b!"step1", b!"Tuning frobnicator...") ∨ x = (b!"step2", b!"Resetting twiddler...") ∨
        x = (b!"step3", b!"Toggling gonkulator...") := fun x hx => by simpa [announced] using h2 x hx
    rcases l with _ | ⟨x, _ | ⟨y, _ | ⟨z, _ | ⟨u, l⟩⟩⟩⟩
    · exact List.nil_prefix
    · rcases hin x (by simp) with rfl | rfl | rfl
      · simp [announced]
      · simp at g1
      · simp at g2
    · rcases hin x (by simp) with rfl | rfl | rfl <;> rcases hin y (by simp) with rfl | rfl | rfl <;>
        simp_all [announced]
    · rcases hin x (by simp) with rfl | rfl | rfl <;> rcases hin y (by simp) with rfl | rfl | rfl <;>
        rcases hin z (by simp) with rfl | rfl | rfl <;> simp_all [announced]
    · simp only [List.length_cons] at hlen; omega
  refine ⟨hpre, ?_, ?_⟩
  · intro hend
    have hend' : ∀ s', ¬ Act proc messagingBook (s.st, s.w) s' := by
      intro s' ha
      obtain ⟨s'', h''⟩ := h.live hj w1 w2 ha
      exact hend s'' h''
    rcases C90_demo_runs hj w1 w2 messaging_ordered (by simp [messagingSrc]) h.reach
      (by simp [messagingBook]) hend' with ⟨h, _⟩ | ⟨q, f, _, hf⟩
    · exact h
    · exact absurd (isTask_iff.mp hf) (by simp [messagingBook])
  · intro hret
    have := (h6 messaging_ordered hret).length_eq
    exact List.IsPrefix.eq_of_length hpre this

/-- There is such a run. -/
theorem messaging_succeeds (tx : Text) (basedir : Str) {proc : Proc} (hm : 2 ≤ proc.maxChan) :
    ∃ s, TReach (decoder tx) basedir proc messagingSrc messagingBook s ∧ s.st.main = .returned none ∧
      s.log = announced := by
  obtain ⟨w1, w2⟩ := decodeFile_wf (messaging_decode tx)
  have hj := decoder_json tx
  obtain ⟨st, w, h, hr⟩ := Run.exists_success hj w1 w2 (by simp [messagingSrc]) (messaging_parse tx basedir)
    (proc := proc) (le_trans (by decide +kernel) hm) (fun q f hf => absurd (isTask_iff.mp hf) (by simp [messagingBook]))
    (by simp [messagingBook])
  obtain ⟨log, ht⟩ := exists_talk hj w1 w2 h
  exact ⟨_, ht, hr, (C107_messages ht).2.2 hr⟩

end Verif.Json
