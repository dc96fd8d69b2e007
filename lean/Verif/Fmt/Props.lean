import Verif.Fmt.Lemmas
import Verif.Dag.Props
import Verif.Sh.Props
import Verif.Hcl.TextProps

/-!
# C120: messages about names say which names
-/

namespace Verif.Fmt
open Verif Verif.Dag Verif.Dag.Spec

variable {isPrint : Nat → Bool}

theorem quote_literal (hp : PrintsNoControls isPrint) (s : Str) : LiteralFor (quote isPrint s) s :=
  ⟨_, rfl, literal_quoteSkip hp [] 0 s⟩

theorem quoteElems_list (hp : PrintsNoControls isPrint) : ∀ l, ListFor (quoteElems isPrint l) l
  | [] => .nil
  | [s] => .one (quote_literal hp s)
  | s :: t :: l => .more (quote_literal hp s) (quoteElems_list hp (t :: l))

/-! ## Messages can be read in one way only -/

theorem LiteralFor.unique {t u v w r r' : Str} (h : LiteralFor t v) (h' : LiteralFor u w)
    (e : t ++ r = u ++ r') : v = w ∧ r = r' := by
  obtain ⟨b, rfl, hb⟩ := h
  obtain ⟨b', rfl, hb'⟩ := h'
  have e' : b ++ r = b' ++ r' := (List.cons.inj e).2
  have h1 := literal_append hb (rest := r)
  have h2 := literal_append hb' (rest := r')
  rw [e', h2] at h1
  cases h1
  exact ⟨rfl, rfl⟩

theorem ListFor.unique : ∀ {t u r r' : Str} {l l' : List Str}, ListFor t l → ListFor u l' →
    t ++ 0x5D :: r = u ++ 0x5D :: r' → l = l' ∧ r = r' := by
  intro t u r r' l l' h
  induction h generalizing u l' with
  | nil =>
    rintro (_ | ⟨b, rfl, -⟩ | ⟨⟨b, rfl, -⟩, -⟩) e
    · exact ⟨rfl, (List.cons.inj e).2⟩
    · cases e
    · cases e
  | one h =>
    rintro (_ | h' | ⟨h', -⟩) e
    · obtain ⟨b, rfl, -⟩ := h
      cases e
    · obtain ⟨rfl, e⟩ := h.unique h' e
      exact ⟨rfl, (List.cons.inj e).2⟩
    · rw [List.append_assoc, List.append_assoc] at e
      obtain ⟨rfl, e⟩ := h.unique h' e
      cases e
  | more h _ ih =>
    rintro (_ | h' | ⟨h', h2⟩) e
    · obtain ⟨b, rfl, -⟩ := h
      cases e
    · rw [List.append_assoc, List.append_assoc] at e
      obtain ⟨rfl, e⟩ := h.unique h' e
      cases e
    · rw [List.append_assoc, List.append_assoc, List.append_assoc, List.append_assoc] at e
      obtain ⟨rfl, e⟩ := h.unique h' e
      obtain ⟨e1, e2⟩ := ih h2 (List.cons.inj e).2
      exact ⟨by rw [e1], e2⟩

/-- **C120, one reading.** A message tells one cycle, one missing node or one command, not two. -/
theorem C120_one_reading (m : Str) :
    (∀ c c', TellsCycle m c → TellsCycle m c' → c = c') ∧
    (∀ n e n' e', TellsMissing m n e → TellsMissing m n' e' → n = n' ∧ e = e') ∧
    (∀ a a', TellsCommand m a → TellsCommand m a' → a = a') ∧
    (∀ c n e, TellsCycle m c → ¬ TellsMissing m n e) := by
  refine ⟨?_, ?_, ?_, ?_⟩
  · rintro c c' ⟨t, h, rfl⟩ ⟨t', h', e⟩
    rw [List.append_assoc, List.append_assoc] at e
    exact (h.unique h' (List.append_cancel_left e)).1
  · rintro n e n' e' ⟨t, u, h1, h2, rfl⟩ ⟨t', u', h1', h2', he⟩
    simp only [List.append_assoc] at he
    obtain ⟨rfl, he⟩ := h1.unique h1' (List.append_cancel_left he)
    have he := List.append_cancel_left he
    rw [← List.append_nil u, ← List.append_nil u'] at he
    exact ⟨rfl, (h2.unique h2' he).1⟩
  · rintro a a' ⟨t, h, rfl⟩ ⟨t', h', e⟩
    have e := List.append_cancel_left e
    rw [← List.append_nil t, ← List.append_nil t'] at e
    exact (h.unique h' e).1
  · rintro c n e ⟨t, -, rfl⟩ ⟨t', u', -, -, he⟩
    cases he

/-- **C120, every set of dependencies.** The message of the error with which a set of dependencies is refused says what is wrong with
it: either it names a node and a dependency of it that does not exist, or it names the nodes of a cycle
in order. What is missing: with a cycle through a node named "" (C05) the message may name no node. -/
theorem C120_dependencies_partial (hp : PrintsNoControls isPrint) (nodes : GoMap Str (List Str)) (wf : nodes.WF)
    (e : DagError) (h : newDependencyGraph nodes = some (.error e)) :
    (∃ n m, TellsMissing (dagMessage isPrint e) n m ∧ Spec.Edge nodes n m ∧ m ∉ nodes.keys) ∨
    (∃ c, TellsCycle (dagMessage isPrint e) c ∧ IsReportedCycle (Spec.Edge nodes) c) ∨
    (TellsCycle (dagMessage isPrint e) [] ∧ Relation.TransGen (Spec.Edge nodes) b!"" b!"") := by
  have tells : ∀ c, TellsCycle (dagMessage isPrint (.circular c)) c := fun c =>
    ⟨quoteElems isPrint c, quoteElems_list hp c, by simp [dagMessage, quoteList]⟩
  obtain ⟨h1, h2, h3, h4⟩ := C07_newDependencyGraph_exact nodes wf
  by_cases hc : Closed nodes
  · have ha : ¬ Acyclic (Spec.Edge nodes) := fun ha => by
      obtain ⟨g, hg⟩ := h2.2 ⟨hc, ha⟩
      rw [h] at hg
      cases hg
    obtain ⟨c, hcy, hr⟩ := h4 hc ha
    rw [h] at hcy
    cases hcy
    rcases hr with hr | ⟨rfl, hr⟩
    · exact .inr (.inl ⟨c, tells c, hr⟩)
    · exact .inr (.inr ⟨tells [], hr⟩)
  · obtain ⟨n, m, hm, h5, h6⟩ := h3 hc
    rw [h] at hm
    cases hm
    exact .inl ⟨n, m, ⟨_, _, quote_literal hp n, quote_literal hp m, rfl⟩, h5, h6⟩

/-- **C120, commands.** A refused command is the one in the message. -/
theorem C120_command (hp : PrintsNoControls isPrint) (x : Sh.Exec) (e : Sh.CheckError)
    (h : x.check = some e) :
    (x.args = [] ∧ checkMessage isPrint e = b!"too few args") ∨
    ∃ arg0 rest, x.args = arg0 :: rest ∧ TellsCommand (checkMessage isPrint e) arg0 := by
  rcases Sh.C31_check_error x e h with ⟨h1, rfl⟩ | ⟨a, rest, h1, rfl⟩
  · exact .inl ⟨h1, rfl⟩
  · exact .inr ⟨a, rest, h1, _, quote_literal hp a, rfl⟩

/-! ## One line -/

theorem oneLine_append {s t : Str} (h : OneLine s) (h' : OneLine t) : OneLine (s ++ t) := by
  intro c hc
  rcases List.mem_append.1 hc with hc | hc
  · exact h c hc
  · exact h' c hc

theorem oneLine_hex : ∀ n r, OneLine (Hcl.hexDigits n r)
  | 0, _ => by intro c hc; cases hc
  | n + 1, r => by
    refine oneLine_append (oneLine_hex n _) ?_
    have : ∀ n, n < 16 → 0x20 ≤ (Hcl.hexDigit n).toNat ∧ (Hcl.hexDigit n).toNat ≠ 0x7F := by decide
    intro c hc
    rw [List.mem_singleton.1 hc]
    exact this _ (Nat.mod_lt r (by decide +kernel))

instance (s : Str) : Decidable (OneLine s) := by unfold OneLine; infer_instance

theorem oneLine_escape (hp : PrintsNoControls isPrint) (r : Nat) : OneLine (escapeRune isPrint r) := by
  unfold escapeRune
  split
  · rename_i h
    rcases h with rfl | rfl <;> decide +kernel
  split
  · rename_i hpr
    have h1 : ¬ (r < 0x20 ∨ 0x7F ≤ r ∧ r < 0xA0) := fun h => by rw [hp r h] at hpr; cases hpr
    intro c hc
    rcases Hcl.encode1_bytes c hc with h | ⟨h, rfl⟩
    · omega
    · rw [Utf8.toNat_ofNat (by omega)]
      omega
  repeat' split
  all_goals first
    | decide +kernel
    | exact oneLine_append (by decide +kernel) (oneLine_hex _ _)

theorem oneLine_quoteSkip (hp : PrintsNoControls isPrint) : ∀ k s, OneLine (quoteSkip isPrint k s)
  | k, [] => by intro c hc; simp [quoteSkip] at hc
  | k + 1, _ :: s => by rw [quoteSkip]; exact oneLine_quoteSkip hp k s
  | 0, b :: s => by
    rw [quoteSkip]
    simp only
    split
    · exact oneLine_append (oneLine_append (by decide +kernel) (oneLine_hex _ _)) (oneLine_quoteSkip hp 0 s)
    · exact oneLine_append (oneLine_escape hp _) (oneLine_quoteSkip hp _ s)

theorem oneLine_quote (hp : PrintsNoControls isPrint) (s : Str) : OneLine (quote isPrint s) :=
  oneLine_append (s := [0x22]) (by decide +kernel) (oneLine_append (oneLine_quoteSkip hp 0 s) (by decide +kernel))

theorem oneLine_elems (hp : PrintsNoControls isPrint) : ∀ l, OneLine (quoteElems isPrint l)
  | [] => by intro c hc; cases hc
  | [s] => oneLine_quote hp s
  | s :: t :: l =>
    oneLine_append (oneLine_append (oneLine_quote hp s) (by decide +kernel)) (oneLine_elems hp (t :: l))

/-- **C120, one line.** Whatever names a file contains, the message has no line breaks and no other
control characters, so that it cannot be mistaken for something else. -/
theorem C120_one_line (hp : PrintsNoControls isPrint) (e : DagError) (e' : Sh.CheckError) :
    OneLine (dagMessage isPrint e) ∧ OneLine (checkMessage isPrint e') := by
  constructor
  · cases e with
    | circular c =>
      exact oneLine_append (by decide +kernel) (oneLine_append (oneLine_append (by decide +kernel) (oneLine_elems hp c)) (by decide +kernel))
    | invalidEdge n m =>
      exact oneLine_append (oneLine_append (oneLine_append (by decide +kernel) (oneLine_quote hp n)) (by decide +kernel))
        (oneLine_quote hp m)
  · cases e' with
    | tooFewArgs =>
      show OneLine b!"too few args"
      decide +kernel
    | illegalCommand a => exact oneLine_append (by decide +kernel) (oneLine_quote hp a)

/-- The contract of `strconv.IsPrint` can be met. -/
example : PrintsNoControls Hcl.asciiPrint := by
  intro r h
  simp only [Hcl.asciiPrint, Bool.and_eq_false_iff, decide_eq_false_iff_not]
  omega

/-- A task with a line break in its name, and one whose name is not UTF-8. -/
example : newDependencyGraph [(b!"a\nb", [[0x62, 0xFF]]), ([0x62, 0xFF], [b!"a\nb"])] =
      some (.error (.circular [[0x62, 0xFF], b!"a\nb"])) ∧
    dagMessage Hcl.asciiPrint (.circular [[0x62, 0xFF], b!"a\nb"]) =
      b!"circular dependency detected: [\"b\\xff\" \"a\\nb\"]" := by decide +kernel

/-- dependency_test.go:14, 23: the errors of the tests. -/
example : dagMessage Hcl.asciiPrint (.invalidEdge b!"foo" b!"bar") =
      b!"node \"foo\" references non-existent node \"bar\"" := by decide +kernel

/-- C120 is false of nodes named "": a task that depends on itself is reported, and no task is named. -/
theorem C120_refuted : ∃ (nodes : GoMap Str (List Str)) (e : DagError), nodes.WF ∧
    newDependencyGraph nodes = some (.error e) ∧
    dagMessage Hcl.asciiPrint e = b!"circular dependency detected: []" :=
  ⟨[(b!"", [b!""])], .circular [], by decide, by decide, by decide +kernel⟩

end Verif.Fmt
