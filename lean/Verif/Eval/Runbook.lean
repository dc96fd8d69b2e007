import Verif.Eval.Same
import Verif.Json.Examples

/-!
# C104: what `runbook eval` prints is the same runbook
-/

namespace Verif.Eval
open Verif Json Spec Book

mutual
/-- If every number is printed as it was written, so is the value. -/
theorem shows_eq {R : Str → Str → Prop} (v v' : Value) (h : Shows R v v')
    (hk : ∀ a b, Within (.num a) v → R a b → a = b) : S v v' := by
  cases v with
  | null => cases h; exact .null
  | bool b => cases h; exact .bool
  | num lit =>
    cases h with
    | num h => exact .num (hk _ _ .self h)
  | str s => cases h; exact .str
  | arr l =>
    cases h with
    | arr h => exact .arr (elems_eq l _ h fun a b v hv hw => hk a b (.elem hv hw))
  | obj l =>
    have hall := members_eq (R := R) l fun a b p hp hw => hk a b (.member (k := p.1) hp hw)
    cases h with
    | obj h1 h2 h3 => exact .obj h1 h2 fun k v v' hl hv => hall (k, v) (last_mem hl) v' (h3 k v v' hl hv)

theorem elems_eq {R : Str → Str → Prop} (l l' : List Value) (h : List.Forall₂ (Shows R) l l')
    (hk : ∀ a b, ∀ v ∈ l, Within (.num a) v → R a b → a = b) : List.Forall₂ S l l' := by
  cases l with
  | nil => cases h; exact .nil
  | cons v l =>
    cases h with
    | cons h1 h2 =>
      exact .cons (shows_eq v _ h1 fun a b => hk a b v (by simp))
        (elems_eq l _ h2 fun a b u hu => hk a b u (by simp [hu]))

theorem members_eq {R : Str → Str → Prop} (l : List (Str × Value))
    (hk : ∀ a b, ∀ p ∈ l, Within (.num a) p.2 → R a b → a = b) :
    ∀ p ∈ l, ∀ v', Shows R p.2 v' → S p.2 v' := by
  cases l with
  | nil => intro p hp; cases hp
  | cons q l =>
    obtain ⟨k, v⟩ := q
    have h1 := fun v' h => shows_eq (R := R) v v' h fun a b => hk a b (k, v) (by simp)
    have h2 := members_eq (R := R) l fun a b u hu => hk a b u (by simp [hu])
    intro p hp v' hv
    rcases List.mem_cons.1 hp with rfl | hp
    · exact h1 v' hv
    · exact h2 p hp v' hv
end

/-- What is printed denotes a value that is the same up to order. -/
theorem printed {F : Type} (fl : Floats F) (hf : Sound fl) (noColor : Bool) (doc : Value)
    (hs : ValidStrings doc) (hn : PlainNames doc)
    (hk : ∀ lit x, Within (.num lit) doc → fl.parse lit = some x → fl.print x = lit) (text : Str)
    (h : eval fl noColor false doc = some text) :
    ∃ v, Denotes text v ∧ (∀ v', Denotes text v' → v' = v) ∧ S doc v := by
  obtain ⟨-, v, h1, h2, h3, -⟩ := C102_json_partial fl hf noColor doc hs hn text h
  refine ⟨v, h1, h2, shows_eq doc v h3 ?_⟩
  rintro a b hw ⟨x, hx, -, rfl⟩
  exact (hk a x hw hx).symm

/-- **C104.** If a file is a runbook, what `eval` prints for it is the same runbook: it has the same targets
and the same tasks under the same ids. (Proved for files whose names have no quotes, backslashes and control
characters, in which nothing is given twice, and whose numbers are written as `eval` writes them.) -/
theorem C104_same_partial {F : Type} (fl : Floats F) (hf : Sound fl) (noColor : Bool) (tx : Text)
    (basedir : Str) (doc : Value) (hs : ValidStrings doc) (hn : PlainNames doc) (hp : Json.Spec.Plain doc)
    (hk : ∀ lit x, Within (.num lit) doc → fl.parse lit = some x → fl.print x = lit) (text : Str)
    (h : eval fl noColor false doc = some text) (book : Runbook) (hb : parse tx basedir doc = .ok book) :
    ∃ v book', Denotes text v ∧ (∀ v', Denotes text v' → v' = v) ∧ parse tx basedir v = .ok book' ∧
      Like book book' := by
  obtain ⟨v, h1, h2, h3⟩ := printed fl hf noColor doc hs hn hk text h
  have hp' := plain_to h3 hp
  have hv := (C93_accepts_iff_partial tx basedir doc hp).1 ⟨book, hb⟩
  obtain ⟨book', hb'⟩ := (C93_accepts_iff_partial tx basedir v hp').2 (valid_to faith_shows h3 hp hp' hv)
  obtain ⟨d1, -, -⟩ := C93_reads_partial tx basedir doc hp book hb
  obtain ⟨d2, w3, w4⟩ := C93_reads_partial tx basedir v hp' book' hb'
  exact ⟨v, book', h1, h2, hb', like_of h3 hp hp' hv.sections d1 d2 w3 w4 hv⟩

/-- **C104, other files.** If a file is no runbook, neither is what `eval` prints for it. -/
theorem C104_rejects_partial {F : Type} (fl : Floats F) (hf : Sound fl) (noColor : Bool) (tx : Text)
    (basedir : Str) (doc : Value) (hs : ValidStrings doc) (hn : PlainNames doc) (hp : Json.Spec.Plain doc)
    (hk : ∀ lit x, Within (.num lit) doc → fl.parse lit = some x → fl.print x = lit) (text : Str)
    (h : eval fl noColor false doc = some text) (hb : ∀ book, parse tx basedir doc ≠ .ok book) :
    ∀ v, Denotes text v → ∀ book, parse tx basedir v ≠ .ok book := by
  obtain ⟨v, h1, h2, h3⟩ := printed fl hf noColor doc hs hn hk text h
  intro v' hv' book' hb'
  obtain rfl := h2 v' hv'
  have hp' := plain_to h3 hp
  have hv := (C93_accepts_iff_partial tx basedir v' hp').1 ⟨book', hb'⟩
  obtain ⟨book, hb''⟩ := (C93_accepts_iff_partial tx basedir doc hp).2 (valid_to faith_shown h3 hp' hp hv)
  exact hb book hb''

/-- A runbook whose only target is called `"`. -/
def quoteTarget : Value :=
  .obj [(b!"targets", .obj [(b!"\"", .obj [(b!"class", .str b!"demo")])])]

/-- **C104 is false** of files with other names: what is printed for a runbook with a target called `"` is no
runbook, as it is not JSON. -/
theorem C104_refuted {F : Type} (fl : Floats F) (noColor : Bool) (tx : Text) (basedir : Str) :
    ∃ book text, parse tx basedir quoteTarget = .ok book ∧
      eval fl noColor false quoteTarget = some text ∧ ∀ v, ¬ Denotes text v := by
  refine ⟨⟨[(b!"\"", .demo {})], []⟩,
    b!"{\n  \"targets\": {\n    \"\"\": {\n      \"class\": \"demo\"\n    }\n  }\n}", rfl, rfl,
    fun v hv => ?_⟩
  have := readText_of hv
  rw [show readText b!"{\n  \"targets\": {\n    \"\"\": {\n      \"class\": \"demo\"\n    }\n  }\n}" = none
    by decide +kernel] at this
  cases this

/-! ## An example -/

/-- Two targets and three tasks, with numbers, not in order. -/
def busy : Value := .obj [
  (b!"tasks", .obj [
    (b!"b", .obj [(b!"target", .str b!"sh"), (b!"after", .arr [.str b!"c", .str b!"a"]),
      (b!"config", .obj [(b!"env", .obj [(b!"set", .obj [(b!"Y", .str b!"1"), (b!"X", .null)])]),
        (b!"args", .arr [.str b!"ls", .str b!"-l \"\n"])])]),
    (b!"c", .obj [(b!"target", .str b!"db"), (b!"config", .obj [(b!"sql", .str b!"select 'é'")])]),
    (b!"a", .obj [(b!"target", .str b!"db"), (b!"message", .str b!"go"), (b!"config", .obj [(b!"sql", .str b!"vacuum")])])]),
  (b!"targets", .obj [
    (b!"sh", .obj [(b!"class", .str b!"sh"), (b!"config", .obj [(b!"concurrency", .num b!"3")])]),
    (b!"db", .obj [(b!"config", .obj [(b!"port", .num b!"5432"), (b!"host", .str b!"h")]), (b!"class", .str b!"pg")])])]

def busySrc (tx : Text) : Src where
  targets := [(b!"sh", some ⟨b!"sh", tx.raw (.obj [(b!"concurrency", .num b!"3")])⟩),
    (b!"db", some ⟨b!"pg", tx.raw (.obj [(b!"port", .num b!"5432"), (b!"host", .str b!"h")])⟩)]
  tasks := [(b!"b", some ⟨[b!"c", b!"a"], b!"sh", [],
      tx.raw (.obj [(b!"env", .obj [(b!"set", .obj [(b!"Y", .str b!"1"), (b!"X", .null)])]),
        (b!"args", .arr [.str b!"ls", .str b!"-l \"\n"])])⟩),
    (b!"c", some ⟨[], b!"db", [], tx.raw (.obj [(b!"sql", .str b!"select 'é'")])⟩),
    (b!"a", some ⟨[], b!"db", b!"go", tx.raw (.obj [(b!"sql", .str b!"vacuum")])⟩)]

theorem busy_parse (tx : Text) : ∃ book, parse tx b!"/" busy = .ok book ∧ book.targets.length = 2 ∧
    book.tasks.length = 3 := by
  have hd : decodeFile tx busy = .ok (busySrc tx) := rfl
  rw [Json.parse, hd]
  simp only [Book.parse, busySrc, loadTargets, loadTarget_raw]
  have e1 : newTarget b!"/" b!"sh" = some (.sh { basedir := b!"/" }) := rfl
  have e2 : newTarget b!"/" b!"pg" = some (.pg {}) := rfl
  simp only [e1, e2]
  have e3 : decodeTarget (.obj [(b!"concurrency", .num b!"3")]) (.sh { basedir := b!"/" }) =
    .ok (.sh ⟨b!"/", [], 3, ⟨[], [], []⟩⟩) := rfl
  have e4 : decodeTarget (.obj [(b!"port", .num b!"5432"), (b!"host", .str b!"h")]) (.pg {}) =
    .ok (.pg { host := b!"h", port := 5432 }) := rfl
  simp only [e3, e4, loadTasks, loadTask_raw]
  exact ⟨_, rfl, rfl, rfl⟩

/-- The theorem applies to it. -/
example (tx : Text) : ValidStrings busy ∧ PlainNames busy ∧ Json.Spec.Plain busy ∧ Sound naturals ∧
    (∀ lit x, Within (.num lit) busy → naturals.parse lit = some x → naturals.print x = lit) ∧
    (∃ text, eval naturals false false busy = some text) ∧ ∃ book, parse tx b!"/" busy = .ok book := by
  obtain ⟨h1, h2⟩ := fine_doc (doc := busy) (by decide +kernel)
  refine ⟨h2, h1, plain_of (by decide +kernel), naturals_sound, fun lit x hw hx => ?_,
    Option.isSome_iff_exists.1 (by decide +kernel), ?_⟩
  · have hm := within_parts hw
    have ha : (parts busy).all (fun v => match v with
        | .num l => decide ((naturals.parse l).map naturals.print = some l)
        | _ => true) = true := by decide +kernel
    have := List.all_eq_true.1 ha _ hm
    simpa [hx] using this
  · obtain ⟨book, h, -⟩ := busy_parse tx
    exact ⟨book, h⟩

/-- A file that is no runbook, for the second theorem. -/
example (tx : Text) : ValidStrings (.obj [(b!"steps", .null)]) ∧ PlainNames (.obj [(b!"steps", .null)]) ∧
    Json.Spec.Plain (.obj [(b!"steps", .null)]) ∧ ∀ book, parse tx b!"/" (.obj [(b!"steps", .null)]) ≠ .ok book := by
  obtain ⟨h1, h2⟩ := fine_doc (doc := .obj [(b!"steps", .null)]) (by decide +kernel)
  refine ⟨h2, h1, plain_of (by decide +kernel), fun book h => ?_⟩
  have e : ∃ m, parse tx b!"/" (.obj [(b!"steps", .null)]) = .error m := ⟨_, rfl⟩
  obtain ⟨m, e⟩ := e
  rw [e] at h
  cases h

end Verif.Eval
