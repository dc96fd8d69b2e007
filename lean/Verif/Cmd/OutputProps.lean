import Verif.Cmd.Output

/-!
# C64, C66, C71: output files
-/

namespace Verif.Cmd
open Verif

/-- `name` is `stem` with the extension `e`: from the last dot of the last path element on, nothing if it
has none. -/
def HasExtension (name stem e : Str) : Prop :=
  name = stem ++ e ∧
  ((e = [] ∧ ∃ dir base, name = dir ++ base ∧ (dir = [] ∨ ∃ d, dir = d ++ b!"/") ∧
      (47 : UInt8) ∉ base ∧ (46 : UInt8) ∉ base) ∨
   ∃ rest, e = b!"." ++ rest ∧ (46 : UInt8) ∉ rest ∧ (47 : UInt8) ∉ rest)

section lemmas

theorem extLoop_spec (rev suffix : Str) (h1 : (46 : UInt8) ∉ suffix) (h2 : (47 : UInt8) ∉ suffix) :
    (extLoop rev suffix = [] ∧ ∃ dir base, rev.reverse ++ suffix = dir ++ base ∧
      (dir = [] ∨ ∃ d, dir = d ++ b!"/") ∧ (47 : UInt8) ∉ base ∧ (46 : UInt8) ∉ base) ∨
    ∃ stem rest, extLoop rev suffix = b!"." ++ rest ∧ (46 : UInt8) ∉ rest ∧ (47 : UInt8) ∉ rest ∧
      rev.reverse ++ suffix = stem ++ (b!"." ++ rest) := by
  induction rev generalizing suffix with
  | nil => exact .inl ⟨rfl, [], suffix, rfl, .inl rfl, h2, h1⟩
  | cons b rest ih =>
    rw [extLoop]
    by_cases hb : b = 47
    · subst hb
      exact .inl ⟨rfl, rest.reverse ++ b!"/", suffix, by simp, .inr ⟨_, rfl⟩, h2, h1⟩
    · by_cases hb' : b = 46
      · subst hb'
        exact .inr ⟨rest.reverse, suffix, by simp, h1, h2, by simp⟩
      · rw [if_neg hb, if_neg hb']
        have e : (b :: rest).reverse ++ suffix = rest.reverse ++ (b :: suffix) := by simp
        rw [e]
        refine ih (b :: suffix) ?_ ?_
        · simp only [List.mem_cons, not_or]; exact ⟨fun h => hb' h.symm, h1⟩
        · simp only [List.mem_cons, not_or]; exact ⟨fun h => hb h.symm, h2⟩

theorem ext_spec (name : Str) :
    HasExtension name (name.take (name.length - (ext name).length)) (ext name) := by
  rcases extLoop_spec name.reverse [] (by simp) (by simp) with ⟨h1, h2⟩ | ⟨stem, rest, h1, h2, h3, h4⟩
  · have he : ext name = [] := h1
    rw [List.reverse_reverse, List.append_nil] at h2
    exact ⟨by rw [he]; simp, .inl ⟨he, h2⟩⟩
  · have he : ext name = b!"." ++ rest := h1
    rw [List.reverse_reverse, List.append_nil] at h4
    refine ⟨?_, .inr ⟨rest, he, h2, h3⟩⟩
    rw [he]
    conv => lhs; rw [h4]
    rw [h4]
    simp

theorem last_dot {a c b d : Str} (hb : (46 : UInt8) ∉ b) (hd : (46 : UInt8) ∉ d)
    (h : a ++ 46 :: b = c ++ 46 :: d) : a = c ∧ b = d := by
  induction a generalizing c with
  | nil =>
    cases c with
    | nil => simpa using h
    | cons x c =>
      simp only [List.nil_append, List.cons_append, List.cons.injEq] at h
      exact absurd (h.2 ▸ by simp) hb
  | cons y a ih =>
    cases c with
    | nil =>
      simp only [List.nil_append, List.cons_append, List.cons.injEq] at h
      exact absurd (h.2 ▸ by simp) hd
    | cons x c =>
      simp only [List.cons_append, List.cons.injEq] at h
      obtain ⟨h1, h2⟩ := ih h.2
      exact ⟨by rw [h.1, h1], h2⟩

theorem hasExtension_unique {name s1 e1 s2 e2 : Str} (h1 : HasExtension name s1 e1)
    (h2 : HasExtension name s2 e2) : s1 = s2 ∧ e1 = e2 := by
  obtain ⟨n1, c1⟩ := h1
  obtain ⟨n2, c2⟩ := h2
  have mixed : ∀ {s e rest : Str}, name = s ++ e → e = b!"." ++ rest → (46 : UInt8) ∉ rest →
      (47 : UInt8) ∉ rest → (∃ dir base, name = dir ++ base ∧ (dir = [] ∨ ∃ d, dir = d ++ b!"/") ∧
      (47 : UInt8) ∉ base ∧ (46 : UInt8) ∉ base) → False := by
    rintro s e rest hn he r1 r2 ⟨dir, base, hd, hdir, b1, b2⟩
    subst he
    rw [hn] at hd
    rcases List.append_eq_append_iff.1 hd with ⟨a', h1, h2⟩ | ⟨c', h1, h2⟩
    · rcases hdir with rfl | ⟨d, rfl⟩
      · have : a' = [] := by
          have := congrArg List.length h1
          simp only [List.length_nil, List.length_append] at this
          exact List.length_eq_zero_iff.1 (by omega)
        subst this
        rw [List.nil_append] at h2
        exact b2 (h2 ▸ by simp)
      · cases a' with
        | nil => exact b2 (by simp only [List.nil_append] at h2; exact h2 ▸ by simp)
        | cons x a' =>
          simp only [List.cons_append, List.nil_append, List.cons.injEq] at h2
          obtain ⟨rfl, h2⟩ := h2
          have : (47 : UInt8) ∈ a' := by
            have hl := congrArg List.getLast? h1
            rw [List.getLast?_append, List.getLast?_append] at hl
            cases a' with
            | nil => revert hl; simp
            | cons y a' =>
              have hm : ((46 : UInt8) :: y :: a').getLast? = some 47 := by
                simpa using hl.symm
              rw [List.getLast?_cons_cons] at hm
              exact List.mem_of_getLast? hm
          exact r2 (h2 ▸ by simp [this])
    · exact b2 (h2 ▸ by simp)
  rcases c1 with ⟨rfl, c1⟩ | ⟨r1, rfl, d1, d2⟩ <;> rcases c2 with ⟨rfl, c2⟩ | ⟨r2, rfl, d3, d4⟩
  · simp only [List.append_nil] at n1 n2
    exact ⟨n1.symm.trans n2, rfl⟩
  · exact (mixed n2 rfl d3 d4 c1).elim
  · exact (mixed n1 rfl d1 d2 c2).elim
  · have h := n1.symm.trans n2
    obtain ⟨h1, h2⟩ := last_dot d1 d3 (by simpa using h)
    exact ⟨h1, by rw [h2]⟩

end lemmas

/-- C64, the part that holds: with `-O` and no `-o` the output is the input with its extension replaced;
it is another file, and the input file is untouched, unless the extension is `.dot` already. -/
theorem C64_auto_output_partial (os : Os) (libs : Libs) (c : DotCmd) (w : World) (stem e : Str)
    (ho : c.output = []) (ha : c.autoOut = true) (hx : HasExtension c.file stem e)
    (he : e ≠ b!".dot") :
    c.target = stem ++ b!".dot" ∧ c.target ≠ c.file ∧
      (c.run os libs w).1.files c.file = w.files c.file := by
  have ht : c.target = stem ++ b!".dot" := by
    rw [DotCmd.target, if_neg (by simp [ho]), if_pos ha,
      (hasExtension_unique (ext_spec c.file) hx).1]
  have hne : c.target ≠ c.file := by
    rw [ht, hx.1]
    intro h
    exact he (List.append_cancel_left h).symm
  refine ⟨ht, hne, ?_⟩
  have hnd : c.target ≠ b!"-" := by
    rw [ht]
    intro h
    have := congrArg List.length h
    simp at this
  have hnf : ¬ c.file = c.target := fun h => hne h.symm
  unfold DotCmd.run openOutput openTrunc
  rw [if_pos hnd]
  cases os.openFails c.target with
  | true => rfl
  | false =>
    simp only [Bool.false_eq_true, if_false]
    split
    · simp [setFile, hnf]
    · simp [write, setFile, hnf]

/-- Every name has an extension, possibly none, and only one. -/
theorem C64_extension_exists_unique (name : Str) : ∃! p : Str × Str, HasExtension name p.1 p.2 := by
  refine ⟨(name.take (name.length - (ext name).length), ext name), ext_spec name, ?_⟩
  rintro ⟨s, e⟩ h
  obtain ⟨h1, h2⟩ := hasExtension_unique h (ext_spec name)
  simp only at h1 h2
  rw [h1, h2]

example : HasExtension b!"books/nightly.jsonnet" b!"books/nightly" b!".jsonnet" ∧
    HasExtension b!"books.d/nightly" b!"books.d/nightly" [] ∧
    ({ file := b!"books.d/nightly", autoOut := true : DotCmd }).target = b!"books.d/nightly.dot" := by
  refine ⟨⟨rfl, .inr ⟨b!"jsonnet", rfl, by decide, by decide⟩⟩,
    ⟨rfl, .inl ⟨rfl, b!"books.d/", b!"nightly", rfl, .inr ⟨b!"books.d", rfl⟩, by decide, by decide⟩⟩, by
    decide +kernel⟩

/-- C64 is false of the code: a runbook whose name ends in `.dot` is its own output, and is emptied
before it is read, whatever it contains. -/
theorem C64_refuted (os : Os) (libs : Libs) (stem : Str) (w : World)
    (hopen : os.openFails (stem ++ b!".dot") = false)
    (hempty : ∀ files, files (stem ++ b!".dot") = some [] →
      libs.parse files (stem ++ b!".dot") = .error ()) :
    let c : DotCmd := { file := stem ++ b!".dot", autoOut := true }
    c.target = c.file ∧ (c.run os libs w).2 = .failure ∧
      (c.run os libs w).1.files c.file = some [] := by
  intro c
  have ht : c.target = c.file := by
    have hx : HasExtension c.file stem b!".dot" :=
      ⟨rfl, .inr ⟨b!"dot", rfl, by decide, by decide⟩⟩
    rw [DotCmd.target, if_neg (by simp [c]), if_pos rfl, (hasExtension_unique (ext_spec c.file) hx).1]
  have hnd : c.target ≠ b!"-" := by
    rw [ht]
    intro h
    have := congrArg List.length h
    simp [c] at this
  have hp := hempty (setFile w.files (stem ++ b!".dot") []) (by simp [setFile])
  have hr : c.run os libs w = ({ w with files := setFile w.files c.file [] }, .failure) := by
    unfold DotCmd.run openOutput openTrunc
    rw [if_pos hnd, ht]
    simp only [c, hopen, Bool.false_eq_true, if_false, hp]
  rw [hr]
  exact ⟨ht, rfl, by simp [setFile]⟩

/-- C64, exactly: with `-O` and no `-o` the output is another file than the input if and only if the input's
extension is not `.dot`. -/
theorem C64_exact (c : DotCmd) (stem e : Str) (ho : c.output = []) (ha : c.autoOut = true)
    (hx : HasExtension c.file stem e) : c.target ≠ c.file ↔ e ≠ b!".dot" := by
  rw [DotCmd.target, if_neg (by simp [ho]), if_pos ha, (hasExtension_unique (ext_spec c.file) hx).1, hx.1]
  exact not_congr ⟨fun h => (List.append_cancel_left h).symm, fun h => by rw [h]⟩

/-- An operating system where everything works, and libraries that accept every file but an empty
one. -/
def fineOs : Os := { openFails := fun _ => false, write := fun t => (t, false) }

@[inherit_doc fineOs]
def sampleLibs : Libs where
  parse := fun files name =>
    match files name with
    | some (_ :: _) => .ok { targets := [], tasks := [] }
    | _ => .error ()
  eval := fun files name _ =>
    match files name with
    | some (b :: t) => .ok (b :: t)
    | _ => .error ()
  graph := fun _ _ => b!"digraph runbook {}\n"

/-- The hypotheses of `C64_refuted` are met, with a file that was a fine runbook. -/
example : (∀ files, files (b!"book" ++ b!".dot") = some [] →
      sampleLibs.parse files (b!"book" ++ b!".dot") = .error ()) ∧
    sampleLibs.parse (fun _ => some b!"{}") b!"book.dot" = .ok { targets := [], tasks := [] } := by
  refine ⟨?_, rfl⟩
  intro files h
  simp only [sampleLibs, h]

/-- C66 is false of the code. Whenever the runbook cannot be read or evaluated, `runbook dot` and
`runbook eval` fail having emptied the output file; and when writing fails, `inspect` and
`runbook eval` leave what was written instead of the previous contents. -/
theorem C66_refuted (os : Os) (libs : Libs) (terminal : Writer → Bool) (w : World) (output : Str)
    (h1 : output ≠ []) (h2 : output ≠ b!"-") (hopen : os.openFails output = false) :
    (∀ c : DotCmd, c.output = output → libs.parse (setFile w.files output []) c.file = .error () →
      (c.run os libs w).2 = .failure ∧ (c.run os libs w).1.files output = some []) ∧
    (∀ c : EvalCmd, c.output = output → (∀ b, libs.eval (setFile w.files output []) c.file b = .error ()) →
      (c.run os libs terminal w).2 = .failure ∧
        (c.run os libs terminal w).1.files output = some []) ∧
    (∀ text, (os.write text).2 = true → (runInspect os (.ok text) output w).2 = .failure ∧
      (runInspect os (.ok text) output w).1.files output = some (os.write text).1) := by
  refine ⟨?_, ?_, ?_⟩
  · intro c hc hp
    have ht : c.target = output := by rw [DotCmd.target, if_pos (by rw [hc]; exact h1), hc]
    have hr : c.run os libs w = ({ w with files := setFile w.files output [] }, .failure) := by
      unfold DotCmd.run openOutput openTrunc
      rw [ht, if_pos h2]
      simp only [hopen, Bool.false_eq_true, if_false, hp]
    rw [hr]
    exact ⟨rfl, by simp [setFile]⟩
  · intro c hc hp
    have hr : c.run os libs terminal w =
        ({ w with files := setFile w.files output [] }, .failure) := by
      unfold EvalCmd.run openOutput openTrunc
      rw [hc, if_pos h1, if_pos h2]
      simp only [hopen, Bool.false_eq_true, if_false, hp]
    rw [hr]
    exact ⟨rfl, by simp [setFile]⟩
  · intro text ht
    simp [runInspect, openOutput, openTrunc, h1, h2, hopen, write, ht, setFile, contents]

/-- A failing `runbook dot` on a file system with an earlier result. -/
example : ∃ (w : World) (c : DotCmd), w.files b!"out.dot" = some b!"digraph {}" ∧
    c.output = b!"out.dot" ∧
    sampleLibs.parse (setFile w.files b!"out.dot" []) c.file = .error () :=
  ⟨{ files := fun n => if n = b!"out.dot" then some b!"digraph {}" else none },
    { file := b!"missing.jsonnet", output := b!"out.dot" }, by decide +kernel, rfl, by rfl⟩

/-- C66, the part that holds. If the output cannot be opened, no command changes any file. Without an
output file none of the commands changes any file. If connecting or inspecting fails, `inspect` changes
no file. Other files than the output are never changed. What is missing: failures after the output file
has been opened, which are the rest. -/
theorem C66_output_kept_partial (os : Os) (libs : Libs) (terminal : Writer → Bool) (w : World)
    (output : Str) (dot : DotCmd) (eval : EvalCmd) (db : Except Unit Str) (hd : dot.output = output)
    (hda : dot.autoOut = false) (he : eval.output = output) :
    ((output = [] ∨ output = b!"-" ∨ os.openFails output = true) →
      (dot.run os libs w).1.files = w.files ∧ (eval.run os libs terminal w).1.files = w.files ∧
        (runInspect os db output w).1.files = w.files) ∧
    (∀ e, db = .error e → (runInspect os db output w).2 = .failure ∧
      (runInspect os db output w).1.files = w.files) ∧
    (∀ name, name ≠ output → (dot.run os libs w).1.files name = w.files name ∧
      (eval.run os libs terminal w).1.files name = w.files name ∧
      (runInspect os db output w).1.files name = w.files name) := by
  have key : ∀ out : Str, (out = b!"-" ∨ os.openFails out = true) →
      openOutput os out w = none ∨ openOutput os out w = some (.stdout, w) := by
    intro out h
    unfold openOutput openTrunc
    by_cases ho : out = b!"-"
    · right; rw [if_neg (by simp [ho])]
    · left
      rcases h with h | h
      · exact absurd h ho
      · rw [if_pos ho]; simp [h]
  have keyIn : ∀ out : Str, ∀ name, name ≠ out → ∀ dest w', openOutput os out w = some (dest, w') →
      w'.files name = w.files name ∧ (dest = .stdout ∨ dest = .file out) := by
    intro out name hn dest w' h
    unfold openOutput openTrunc at h
    split at h
    · cases hf : os.openFails out with
      | true => simp [hf] at h
      | false =>
        simp only [hf, Bool.false_eq_true, if_false, Option.some.injEq, Prod.mk.injEq] at h
        obtain ⟨rfl, rfl⟩ := h
        exact ⟨by simp [setFile, hn], .inr rfl⟩
    · simp only [Option.some.injEq, Prod.mk.injEq] at h
      obtain ⟨rfl, rfl⟩ := h
      exact ⟨rfl, .inl rfl⟩
  have hdt : dot.target = (if output ≠ [] then output else b!"-") := by
    unfold DotCmd.target; rw [hd, hda]; simp
  have hit : (if output = [] then b!"-" else output) = (if output ≠ [] then output else b!"-") := by
    by_cases h : output = [] <;> simp [h]
  have wr : ∀ (dest : Writer) (text : Str) (w' : World) (name : Str), (dest = .stdout ∨ dest = .file output ∨
      dest = .file b!"-") → name ≠ output → name ≠ b!"-" ∨ dest ≠ .file b!"-" →
      (write os dest text w').1.files name = w'.files name := by
    intro dest text w' name h hn hn'
    rcases h with rfl | rfl | rfl
    · rfl
    · simp [write, setFile, hn]
    · rcases hn' with hn' | hn'
      · simp [write, setFile, hn']
      · exact absurd rfl hn'
  refine ⟨?_, ?_, ?_⟩
  · intro h
    have hk := key (if output ≠ [] then output else b!"-") (by
      rcases h with h | h | h
      · simp [h]
      · left; simp [h]
      · by_cases ho : output = []
        · left; simp [ho]
        · right; simpa [ho] using h)
    refine ⟨?_, ?_, ?_⟩
    · unfold DotCmd.run
      rw [hdt]
      rcases hk with hk | hk <;> rw [hk]
      simp only
      split <;> rfl
    · unfold EvalCmd.run
      rw [he]
      rcases hk with hk | hk <;> rw [hk]
      simp only
      split <;> rfl
    · unfold runInspect
      cases db with
      | error e => rfl
      | ok text =>
        simp only [hit]
        rcases hk with hk | hk
        · rw [hk]
        · rw [hk]; rfl
  · rintro e rfl
    exact ⟨rfl, rfl⟩
  · intro name hn
    have hopen : ∀ dest w', openOutput os (if output ≠ [] then output else b!"-") w = some (dest, w') →
        w'.files name = w.files name ∧ ∀ text, (write os dest text w').1.files name = w.files name := by
      intro dest w' h
      by_cases ho : output = []
      · rw [if_neg (by simp [ho])] at h
        unfold openOutput at h
        simp only [ne_eq, not_true_eq_false, if_false, Option.some.injEq, Prod.mk.injEq] at h
        obtain ⟨rfl, rfl⟩ := h
        exact ⟨rfl, fun _ => rfl⟩
      · rw [if_pos ho] at h
        obtain ⟨h1, h2⟩ := keyIn output name hn dest w' h
        refine ⟨h1, fun text => ?_⟩
        rcases h2 with rfl | rfl
        · exact h1
        · simp [write, setFile, hn, h1]
    refine ⟨?_, ?_, ?_⟩
    · unfold DotCmd.run
      rw [hdt]
      cases ho : openOutput os (if output ≠ [] then output else b!"-") w with
      | none => rfl
      | some p =>
        obtain ⟨dest, w'⟩ := p
        obtain ⟨h1, h2⟩ := hopen dest w' ho
        simp only
        split
        · exact h1
        · exact h2 _
    · unfold EvalCmd.run
      rw [he]
      cases ho : openOutput os (if output ≠ [] then output else b!"-") w with
      | none => rfl
      | some p =>
        obtain ⟨dest, w'⟩ := p
        obtain ⟨h1, h2⟩ := hopen dest w' ho
        simp only
        split
        · exact h1
        · exact h2 _
    · unfold runInspect
      cases db with
      | error e => rfl
      | ok text =>
        simp only [hit]
        cases ho : openOutput os (if output ≠ [] then output else b!"-") w with
        | none => rfl
        | some p =>
          obtain ⟨dest, w'⟩ := p
          exact (hopen dest w' ho).2 text

/-- Commands and an output as in the theorem: a file that cannot be opened. -/
example : ∃ (os : Os) (dot : DotCmd) (eval : EvalCmd), dot.output = b!"/etc/x" ∧
    dot.autoOut = false ∧ eval.output = b!"/etc/x" ∧ os.openFails b!"/etc/x" = true :=
  ⟨{ openFails := fun _ => true, write := fun t => (t, false) }, { file := b!"a", output := b!"/etc/x" },
    { file := b!"a", output := b!"/etc/x" }, rfl, rfl, rfl, rfl⟩

/-- C71 is false of the code: `runbook dot` does not look at the result of the write, so it succeeds
however little has been written. -/
theorem C71_refuted (os : Os) (libs : Libs) (c : DotCmd) (w : World) (book : Book.Runbook)
    (h : c.target = b!"-") (hp : libs.parse w.files c.file = .ok book) :
    (c.run os libs w).2 = .success ∧
    (c.run os libs w).1.stdout = w.stdout ++ (os.write (libs.graph book c.splines)).1 := by
  unfold DotCmd.run openOutput
  rw [h]
  simp [hp, write]

/-- The write fails and nothing is written, and the command succeeds. -/
example : ∃ (os : Os) (c : DotCmd) (w : World) (book : Book.Runbook),
    (∀ t, os.write t = ([], true)) ∧ c.target = b!"-" ∧
    sampleLibs.parse w.files c.file = .ok book ∧ (c.run os sampleLibs w).2 = .success :=
  ⟨{ openFails := fun _ => false, write := fun _ => ([], true) }, { file := b!"a" },
    { files := fun _ => some b!"{}" }, { targets := [], tasks := [] }, fun _ => rfl, rfl, rfl, rfl⟩

/-- C71, the part that holds: `runbook eval` and `inspect` succeed only if the write of the whole result
succeeded, and `runbook dot` only if the runbook was read and its graph handed to the write. The files are
those there were, but for the output (see C64 and C66 for when that is one that is read). What is
missing: that `runbook dot` reports a failed write. -/
theorem C71_success_means_written_partial (os : Os) (libs : Libs) (terminal : Writer → Bool) (w : World)
    (hw : ∀ t, (os.write t).2 = false → (os.write t).1 = t) :
    (∀ c : EvalCmd, (c.run os libs terminal w).2 = .success →
      ∃ (files : Str → Option Str) (color : Bool) (text : Str),
        (∀ f, f ≠ c.output ∨ c.output = [] ∨ c.output = b!"-" → files f = w.files f) ∧
        libs.eval files c.file color = .ok text ∧
        if c.output = [] ∨ c.output = b!"-" then (c.run os libs terminal w).1.stdout = w.stdout ++ text
        else (c.run os libs terminal w).1.files c.output = some text) ∧
    (∀ db output, (runInspect os db output w).2 = .success → ∃ text, db = .ok text ∧
      if output = [] ∨ output = b!"-" then (runInspect os db output w).1.stdout = w.stdout ++ text
      else (runInspect os db output w).1.files output = some text) ∧
    (∀ c : DotCmd, (c.run os libs w).2 = .success →
      ∃ (files : Str → Option Str) (book : Book.Runbook),
        (∀ f, f ≠ c.target ∨ c.target = b!"-" → files f = w.files f) ∧ libs.parse files c.file = .ok book ∧
        if c.target = b!"-" then
          (c.run os libs w).1.stdout = w.stdout ++ (os.write (libs.graph book c.splines)).1
        else (c.run os libs w).1.files c.target = some (os.write (libs.graph book c.splines)).1) := by
  have hopen : ∀ out dest w', openOutput os out w = some (dest, w') →
      if out = b!"-" then dest = .stdout ∧ w' = w
      else dest = .file out ∧ w' = { w with files := setFile w.files out [] } := by
    intro out dest w' h
    unfold openOutput openTrunc at h
    by_cases ho : out = b!"-"
    · rw [if_neg (by simp [ho])] at h
      simp only [Option.some.injEq, Prod.mk.injEq] at h
      rw [if_pos ho]
      exact ⟨h.1.symm, h.2.symm⟩
    · rw [if_pos ho] at h
      rw [if_neg ho]
      cases hf : os.openFails out with
      | true => simp [hf] at h
      | false =>
        simp only [hf, Bool.false_eq_true, if_false, Option.some.injEq, Prod.mk.injEq] at h
        exact ⟨h.1.symm, h.2.symm⟩
  have hfiles : ∀ out dest w', openOutput os out w = some (dest, w') →
      ∀ f, f ≠ out ∨ out = b!"-" → w'.files f = w.files f := by
    intro out dest w' h f hf
    have := hopen out dest w' h
    by_cases ho : out = b!"-"
    · rw [if_pos ho] at this
      rw [this.2]
    · rw [if_neg ho] at this
      rw [this.2]
      exact if_neg (hf.resolve_right ho)
  have hwr : ∀ out dest w' text, openOutput os out w = some (dest, w') →
      if out = b!"-" then (write os dest text w').1.stdout = w.stdout ++ (os.write text).1
      else (write os dest text w').1.files out = some (os.write text).1 := by
    intro out dest w' text h
    have := hopen out dest w' h
    by_cases ho : out = b!"-"
    · rw [if_pos ho] at this ⊢
      obtain ⟨rfl, rfl⟩ := this
      rfl
    · rw [if_neg ho] at this ⊢
      obtain ⟨rfl, rfl⟩ := this
      simp [write, setFile, contents]
  have herr : ∀ dest text (w' : World), (write os dest text w').2 = (os.write text).2 := by
    intro dest text w'; cases dest <;> rfl
  refine ⟨?_, ?_, ?_⟩
  · intro c hs
    unfold EvalCmd.run at hs ⊢
    cases ho : openOutput os (if c.output ≠ [] then c.output else b!"-") w with
    | none => rw [ho] at hs; cases hs
    | some p =>
      obtain ⟨dest, w'⟩ := p
      rw [ho] at hs
      simp only at hs ⊢
      cases he : libs.eval w'.files c.file (c.useColor terminal dest) with
      | error e => rw [he] at hs; cases hs
      | ok text =>
        rw [he] at hs
        simp only [herr] at hs ⊢
        have hok : (os.write text).2 = false := by
          cases hb : (os.write text).2 with
          | false => rfl
          | true => rw [hb] at hs; cases hs
        refine ⟨w'.files, c.useColor terminal dest, text, ?_, he, ?_⟩
        · intro f hf
          refine hfiles _ dest w' ho f ?_
          by_cases hc : c.output = []
          · exact .inr (by simp [hc])
          · rw [if_pos hc]
            exact hf.imp_right (fun h => h.resolve_left hc)
        have := hwr _ dest w' text ho
        rw [hw text hok] at this
        by_cases hc : c.output = []
        · rw [if_pos (.inl hc)]
          simpa [hc] using this
        · rw [if_pos (c := c.output ≠ []) hc] at this
          by_cases hd : c.output = b!"-"
          · rw [if_pos (.inr hd)]; rwa [if_pos hd] at this
          · rw [if_neg (by simp [hc, hd])]; rwa [if_neg hd] at this
  · intro db output hs
    unfold runInspect at hs ⊢
    cases db with
    | error e => cases hs
    | ok text =>
      simp only at hs ⊢
      cases ho : openOutput os (if output = [] then b!"-" else output) w with
      | none => rw [ho] at hs; cases hs
      | some p =>
        obtain ⟨dest, w'⟩ := p
        rw [ho] at hs
        simp only [herr] at hs ⊢
        have hok : (os.write text).2 = false := by
          cases hb : (os.write text).2 with
          | false => rfl
          | true => rw [hb] at hs; cases hs
        refine ⟨text, rfl, ?_⟩
        have := hwr _ dest w' text ho
        rw [hw text hok] at this
        by_cases hc : output = []
        · rw [if_pos (.inl hc)]
          simpa [hc] using this
        · rw [if_neg (c := output = []) hc] at this
          by_cases hd : output = b!"-"
          · rw [if_pos (.inr hd)]; rwa [if_pos hd] at this
          · rw [if_neg (by simp [hc, hd])]; rwa [if_neg hd] at this
  · intro c hs
    unfold DotCmd.run at hs ⊢
    cases ho : openOutput os c.target w with
    | none => rw [ho] at hs; cases hs
    | some p =>
      obtain ⟨dest, w'⟩ := p
      rw [ho] at hs
      simp only at hs ⊢
      cases he : libs.parse w'.files c.file with
      | error e => rw [he] at hs; cases hs
      | ok book =>
        exact ⟨w'.files, book, hfiles _ dest w' ho, he, hwr _ dest w' _ ho⟩

/-- Writes that succeed write everything: the contract of `io.Writer`. -/
example : (∀ t, (fineOs.write t).2 = false → (fineOs.write t).1 = t) ∧
    (({ file := b!"a", output := b!"b" : EvalCmd }).run fineOs sampleLibs (fun _ => true)
      { files := fun _ => some b!"{}" }).2 = .success := by
  exact ⟨fun _ _ => rfl, by decide +kernel⟩

end Verif.Cmd
