import Verif.Run.Runs
import Verif.Path.Place

/-!
# C115: the directory in which commands run
-/

namespace Verif.Run
open Verif Book Spec Path.Spec

variable {dec : Decoder} {proc : Proc} {src : Src} {book : Runbook} {st : Runner.St} {w : World}

/-- **C115, the directory.** Whatever the path by which a runbook was named, and wherever pgutil was
started (`wd`, an absolute path), its directory is the place of the file without the last name on the way
to it, written as an absolute path without detours. -/
theorem C115_basedir (wd filename : Str) (hw : wd.head? = some 47) {ps : List Str} {e : Str}
    (hf : parts 47 filename = ps ++ [e]) (he : Path.Spec.Plain e) :
    Path.basedir wd filename = absolute ((loc (loc [] wd) filename).dropLast) ∧
    ∀ a, loc a (Path.basedir wd filename) = (loc (loc [] wd) filename).dropLast := by
  have h : Path.basedir wd filename = absolute ((loc (loc [] wd) filename).dropLast) := by
    rw [Path.basedir, Path.abs_eq hw _ [], Path.loc_dir _ hf, Path.step_plain he]
    simp
  refine ⟨h, fun a => ?_⟩
  rw [h]
  refine Path.loc_plain ?_ a
  intro x hx
  exact Path.loc_all_plain (Path.loc_all_plain (by simp) wd) filename x (List.dropLast_subset _ hx)

/-- Two ways to name the same file give the same directory. -/
theorem C115_same (wd wd' f f' : Str) (hw : wd.head? = some 47) (hw' : wd'.head? = some 47)
    {ps ps' : List Str} {e e' : Str} (hf : parts 47 f = ps ++ [e]) (hf' : parts 47 f' = ps' ++ [e'])
    (he : Path.Spec.Plain e) (he' : Path.Spec.Plain e') (h : loc (loc [] wd) f = loc (loc [] wd') f') :
    Path.basedir wd f = Path.basedir wd' f' := by
  rw [(C115_basedir wd f hw hf he).1, (C115_basedir wd' f' hw' hf' he').1, h]

/-- **C115.** In every run of a runbook, under every schedule, every command is run in the directory of
the runbook. -/
theorem C115_directory (hj : Json dec) (hw1 : src.targets.WF) (hw2 : src.tasks.WF)
    (wd filename : Str) (hw : wd.head? = some 47) {ps : List Str} {e : Str}
    (hf : parts 47 filename = ps ++ [e]) (he : Path.Spec.Plain e)
    (h : Reach dec (Path.basedir wd filename) proc src (.running book st w))
    {id : Str} {c : Sh.Command} {ok : Bool} (hc : (id, .command c, ok) ∈ w.calls) :
    c.dir = absolute ((loc (loc [] wd) filename).dropLast) ∧
    ∀ a, loc a c.dir = (loc (loc [] wd) filename).dropLast := by
  have hp := parsed hj hw1 hw2 h.parse
  have hd : c.dir = Path.basedir wd filename := by
    rw [h.calls hj hw1 hw2] at hc
    obtain ⟨ev, -, hce⟩ := List.mem_flatMap.1 hc
    cases ev with
    | handleEnd q t ok' =>
      simp only [callsAt, List.mem_map] at hce
      obtain ⟨call, hcall, e1⟩ := hce
      have e2 : call = .command c := congrArg (fun x => x.2.1) e1
      subst e2
      rw [callsOf] at hcall
      split at hcall
      · simp at hcall
      · rename_i s x hq _
        simp only [Option.mem_toList, Option.map_eq_some_iff] at hcall
        obtain ⟨c', hc', e3⟩ := hcall
        obtain rfl := Call.command.inj e3
        rw [Sh.Exec.command] at hc'
        split at hc'
        · cases hc'
        · obtain rfl := Option.some.inj hc'
          exact hp.basedir q s hq
      · cases hcall
    | _ => cases hce
  rw [hd]
  exact C115_basedir wd filename hw hf he

/-- Non-vacuity: `../books/./x.jsonnet`, named from `/home/me`. -/
example : parts 47 b!"../books/./x.jsonnet" = [b!"..", b!"books", b!"."] ++ [b!"x.jsonnet"] ∧
    Path.Spec.Plain b!"x.jsonnet" ∧ Path.basedir b!"/home/me" b!"../books/./x.jsonnet" = b!"/home/books" ∧
    loc (loc [] b!"/home/me") b!"../books/./x.jsonnet" = [b!"home", b!"books", b!"x.jsonnet"] ∧
    Path.basedir b!"/" b!"/home/books//x.jsonnet" = b!"/home/books" ∧ Path.basedir b!"/home/me" b!"../../x" = b!"/" :=
  ⟨by decide, ⟨by decide, by decide, by decide, by decide⟩, by decide +kernel, by decide +kernel, by decide +kernel,
    by decide +kernel⟩

/-- Non-vacuity: a run of the file `books/../ok.jsonnet` in the root directory, with two commands. -/
example : parts 47 b!"books/../ok.jsonnet" = [b!"books", b!".."] ++ [b!"ok.jsonnet"] ∧ Path.Spec.Plain b!"ok.jsonnet" ∧
    ∃ st w, Reach shConfig (Path.basedir b!"/" b!"books/../ok.jsonnet") { proc0 with environ := [b!"HOME=/root"] } okSrc
      (.running okBook st w) ∧ (b!"a", .command ⟨b!"make", [b!"-v"], b!"/", [b!"HOME=/root"]⟩, true) ∈ w.calls := by
  refine ⟨by decide, ⟨by decide, by decide, by decide, by decide⟩, ?_⟩
  obtain ⟨st, w, h, -, -, hc⟩ := okRun
  refine ⟨st, w, ?_, by rw [hc]; simp⟩
  rw [show Path.basedir b!"/" b!"books/../ok.jsonnet" = b!"/" by decide +kernel]
  exact h

end Verif.Run
