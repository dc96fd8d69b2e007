import Verif.Sh.Program
import Verif.Sh.ProgramSpec
import Verif.Sh.Props
import Verif.Path.Place

/-!
# C116: which program a shell task runs
-/

namespace Verif.Sh
open Verif Spec Path.Spec

/-! ## Helper lemmas -/

theorem splitColon_eq (s : Str) : Path.splitColon s = parts 58 s := by
  induction s with
  | nil => rfl
  | cons c s ih => rw [Path.splitColon, parts, ih]; rfl

theorem splitList_eq (s : Str) : Path.splitList s = dirs s := by
  rw [Path.splitList, dirs, splitColon_eq]

theorem getenv_spec {k : Str} (hk : Name k) (env : List Str) :
    (∃ v, LookupFirst env k v ∧ getenv k env = v) ∨ ((∀ v, ¬ LookupFirst env k v) ∧ getenv k env = []) := by
  induction env with
  | nil => exact .inr ⟨(by rintro v h; cases h), rfl⟩
  | cons kv env ih =>
    have skip : (∀ w, ¬ Binds kv k w) →
        (∃ v, LookupFirst (kv :: env) k v ∧ getenv k env = v) ∨
          ((∀ v, ¬ LookupFirst (kv :: env) k v) ∧ getenv k env = []) := by
      intro hb
      rcases ih with ⟨v, h1, h2⟩ | ⟨h1, h2⟩
      · exact .inl ⟨v, .skip hb h1, h2⟩
      · refine .inr ⟨?_, h2⟩
        rintro v (h | ⟨_, h⟩)
        · exact hb v h
        · exact h1 v h
    rw [getenv]
    cases hi : indexByte 61 kv with
    | none =>
      refine skip ?_
      rintro w ⟨-, rfl⟩
      rw [indexByte_none] at hi
      exact hi (by simp)
    | some i =>
      simp only
      obtain ⟨t, ht, hn⟩ := indexByte_some hi
      split
      · rename_i hki
        refine .inl ⟨_, .here ⟨hk, ?_⟩, rfl⟩
        have hlen : i < kv.length := by
          have := congrArg List.length ht
          simp only [List.length_append, List.length_take, List.length_cons] at this
          omega
        have hd : kv.drop (i + 1) = t := by
          have h2 : kv = kv.take i ++ kv.drop i := (List.take_append_drop i kv).symm
          have h3 : kv.drop i = 61 :: t := List.append_cancel_left (h2.symm.trans ht)
          rw [← List.drop_drop, h3]; rfl
        rw [hd, ← hki, List.append_assoc]
        exact ht
      · rename_i hki
        refine skip ?_
        rintro w ⟨-, rfl⟩
        rw [List.append_assoc, show b!"=" ++ w = 61 :: w from rfl, indexByte_append hk.2] at hi
        obtain rfl := Option.some.inj hi
        exact hki (by simp)

theorem path_name : Name b!"PATH" := ⟨by decide, by decide⟩

theorem loc_noslash {a : List Str} {e : Str} (h : (47 : UInt8) ∉ e) : loc a e = step a e := by
  rw [loc, Path.parts_plain h, if_neg]
  · rfl
  · intro h47
    cases e with
    | nil => cases h47
    | cons c e =>
      simp only [List.head?_cons, Option.some.injEq] at h47
      exact h (by simp [h47])

theorem loc_entry (a : List Str) (d : Str) {file : Str} (h : (47 : UInt8) ∉ file) :
    loc a (Path.join (if d = [] then b!"." else d) file) = step (loc a d) file := by
  have h47 : file.head? ≠ some 47 := by
    intro e
    cases file with
    | nil => cases e
    | cons c e' =>
      simp only [List.head?_cons, Option.some.injEq] at e
      exact h (by simp [e])
  rw [Path.loc_join a _ h47, loc_noslash h]
  · split
    · rename_i hd; rw [hd, Path.loc_nil]; rfl
    · rfl
  · split
    · simp
    · assumption

theorem join_ne_nil (d : Str) (file : Str) : Path.join (if d = [] then b!"." else d) file ≠ [] := by
  have hc : ∀ p, Path.clean p ≠ [] := by
    intro p
    obtain ⟨s, r, -, -, -, h⟩ := Path.clean_cases p
    rw [h]
    split
    · simp
    · simpa using ‹_›
  rw [Path.join, if_pos]
  · exact hc _
  · split
    · simp
    · assumption

theorem findIn_iff {m : Machine} {file : Str} (h : (47 : UInt8) ∉ file) {ds : List Str} {path : Str} :
    findIn m file ds = some path ↔ ∃ d, FirstWith m.exe (loc [] m.wd) file ds d ∧
      path = Path.join (if d = [] then b!"." else d) file := by
  induction ds with
  | nil => simp [findIn, FirstWith]
  | cons d ds ih =>
    rw [findIn]
    simp only [Machine.place, loc_entry _ d h]
    split
    · rename_i he
      constructor
      · intro e
        exact ⟨d, ⟨[], ds, rfl, he, by simp⟩, (Option.some.inj e).symm⟩
      · rintro ⟨d', ⟨pre, post, e, h1, h2⟩, rfl⟩
        cases pre with
        | nil =>
          obtain ⟨rfl, -⟩ := List.cons.inj e
          rfl
        | cons x pre =>
          obtain ⟨rfl, -⟩ := List.cons.inj e
          rw [h2 d (by simp)] at he
          cases he
    · rename_i he
      rw [ih]
      constructor
      · rintro ⟨d', ⟨pre, post, rfl, h1, h2⟩, rfl⟩
        refine ⟨d', ⟨d :: pre, post, rfl, h1, ?_⟩, rfl⟩
        intro x hx
        rcases List.mem_cons.1 hx with rfl | hx
        · simpa using he
        · exact h2 x hx
      · rintro ⟨d', ⟨pre, post, e, h1, h2⟩, rfl⟩
        cases pre with
        | nil =>
          obtain ⟨rfl, -⟩ := List.cons.inj e
          exact absurd h1 he
        | cons x pre =>
          obtain ⟨rfl, rfl⟩ := List.cons.inj e
          exact ⟨d', ⟨pre, post, rfl, h1, fun y hy => h2 y (by simp [hy])⟩, rfl⟩

theorem lookupLast_unique {env : List Str} {k v w : Str} (hk : Name k) (h1 : LookupLast env k v)
    (h2 : LookupLast env k w) : v = w := by
  rw [lookupLast_iff hk] at h1 h2
  exact Option.some.inj (h1.symm.trans h2)

theorem lookupFirst_unique {env : List Str} {k v w : Str} (h1 : LookupFirst env k v) (h2 : LookupFirst env k w) :
    v = w := by
  induction h1 with
  | here hb =>
    cases h2 with
    | here hb' =>
      have := hb.2.symm.trans hb'.2
      simpa using this
    | skip hn _ => exact absurd hb (hn _)
  | skip hn _ ih =>
    cases h2 with
    | here hb' => exact absurd hb' (hn _)
    | skip _ h => exact ih h

/-! ## The theorems -/

/-- **C116, what happens.** The program a command starts: with a `/` in its name, the file at this path,
seen from the directory of the runbook; otherwise the PATH of *pgutil's own* environment is searched,
*seen from the directory pgutil was started in*, and the entry of PATH found is then *seen from the
directory of the runbook*. -/
theorem C116_exact (m : Machine) (c : Command) (l : List Str) :
    program m c = some l ↔
      ((47 : UInt8) ∈ c.path ∧ l = loc (loc [] c.dir) c.path ∧ m.exe l = true) ∨
      ((47 : UInt8) ∉ c.path ∧ c.path ≠ [] ∧ ∃ v d, LookupFirst m.environ b!"PATH" v ∧
        FirstWith m.exe (loc [] m.wd) c.path (dirs v) d ∧
        l = step (loc (loc [] c.dir) d) c.path ∧ m.exe l = true) := by
  have fin : ∀ path, (if path ≠ [] ∧ m.exe (loc (loc [] c.dir) path) = true then
      some (loc (loc [] c.dir) path) else none) = some l ↔
      path ≠ [] ∧ l = loc (loc [] c.dir) path ∧ m.exe l = true := by
    intro path
    split
    · rename_i h
      constructor
      · intro e; obtain rfl := Option.some.inj e; exact ⟨h.1, rfl, h.2⟩
      · rintro ⟨-, rfl, -⟩; rfl
    · rename_i h
      constructor
      · intro e; cases e
      · rintro ⟨h1, rfl, h2⟩; exact absurd ⟨h1, h2⟩ h
  by_cases hs : (47 : UInt8) ∈ c.path
  · have hne : c.path ≠ [] := by intro e; rw [e] at hs; cases hs
    simp only [hs, true_and, not_true_eq_false, false_and, or_false]
    rw [program, cmdPath]
    by_cases hb : Path.base c.path = c.path
    · have hr : c.path = [47] := by
        rcases Path.base_self.1 hb with h | h
        · exact absurd hs h.2
        · exact h
      rw [if_pos hb, lookPath, if_pos (containsSlash_iff.2 hs)]
      have hl : ∀ a, loc a c.path = [] := by intro a; rw [hr]; rfl
      simp only [Machine.place, hl]
      by_cases he : m.exe [] = true
      · rw [if_pos he, Option.bind_some, fin, hl]
        simp [hne]
      · simp only [he, Bool.false_eq_true, if_false]
        constructor
        · intro e; cases e
        · rintro ⟨rfl, h⟩; exact absurd h he
    · rw [if_neg hb]
      rw [Option.bind_some, fin]
      simp [hne]
  · simp only [hs, false_and, not_false_eq_true, true_and, false_or]
    rw [program, cmdPath]
    by_cases hne : c.path = []
    · have hb : Path.base c.path ≠ c.path := by rw [hne]; decide
      rw [if_neg hb]
      rw [Option.bind_some, fin]
      simp [hne]
    · rw [if_pos (Path.base_self.2 (.inl ⟨hne, hs⟩)), lookPath, if_neg (fun e => hs (containsSlash_iff.1 e)), splitList_eq]
      have key : ∀ ds, ((findIn m c.path ds).bind fun path => if path ≠ [] ∧ m.exe (loc (loc [] c.dir) path) = true then
              some (loc (loc [] c.dir) path) else none) = some l ↔
          ∃ d, FirstWith m.exe (loc [] m.wd) c.path ds d ∧ l = step (loc (loc [] c.dir) d) c.path ∧ m.exe l = true := by
        intro ds
        cases hf : findIn m c.path ds with
        | none =>
          simp only [Option.bind_none, reduceCtorEq, false_iff]
          rintro ⟨d, hd, -⟩
          rw [(findIn_iff hs).2 ⟨d, hd, rfl⟩] at hf
          cases hf
        | some path =>
          rw [Option.bind_some, fin]
          constructor
          · rintro ⟨-, h1, h2⟩
            obtain ⟨d, hd, rfl⟩ := (findIn_iff hs).1 hf
            rw [loc_entry _ d hs] at h1
            exact ⟨d, hd, h1, h2⟩
          · rintro ⟨d, hd, h1, h2⟩
            have := (findIn_iff hs).2 ⟨d, hd, rfl⟩
            rw [hf] at this
            obtain rfl := Option.some.inj this
            rw [loc_entry _ d hs]
            exact ⟨join_ne_nil d _, h1, h2⟩
      rw [key]
      simp only [hne, ne_eq, not_false_eq_true, true_and]
      rcases getenv_spec path_name m.environ with ⟨v, h1, h2⟩ | ⟨h1, h2⟩
      · rw [h2]
        constructor
        · rintro ⟨d, hd⟩; exact ⟨v, d, h1, hd⟩
        · rintro ⟨w, d, h3, hd⟩
          rw [lookupFirst_unique h1 h3]
          exact ⟨d, hd⟩
      · rw [h2]
        constructor
        · rintro ⟨d, ⟨pre, post, e, -⟩, -⟩
          simp [dirs] at e
        · rintro ⟨w, d, h3, -⟩
          exact absurd h3 (h1 w)

theorem loc_rooted {a b : List Str} {p : Str} (h : p.head? = some 47) : loc a p = loc b p := by
  rw [loc, loc, if_pos h, if_pos h]

theorem firstWith_congr {exe : List Str → Bool} {a b : List Str} {file d : Str} {ds : List Str}
    (h : ∀ d ∈ ds, d.head? = some 47) : FirstWith exe a file ds d ↔ FirstWith exe b file ds d := by
  have : ∀ {a b : List Str}, FirstWith exe a file ds d → FirstWith exe b file ds d := by
    rintro a b ⟨pre, post, rfl, h1, h2⟩
    refine ⟨pre, post, rfl, ?_, ?_⟩
    · rw [loc_rooted (h d (by simp)) (b := a)]; exact h1
    · intro x hx
      rw [loc_rooted (h x (by simp [hx])) (b := a)]; exact h2 x hx
  exact ⟨this, this⟩

/-- **C116.** The program a command starts is the one it names in its own directory and environment,
provided that the PATH its settings leave it is that of pgutil, and that the directories of PATH are
absolute.  (A command with a `/` in its name needs neither.) -/
theorem C116_names_partial (m : Machine) (c : Command) (l : List Str)
    (h : (47 : UInt8) ∉ c.path → (∀ v, LookupLast c.env b!"PATH" v ↔ LookupFirst m.environ b!"PATH" v) ∧
      ∀ v, LookupFirst m.environ b!"PATH" v → ∀ d ∈ dirs v, d.head? = some 47) :
    program m c = some l ↔ Names m.exe (loc [] c.dir) c.env c.path l := by
  rw [C116_exact]
  constructor
  · rintro (⟨h1, rfl, h2⟩ | ⟨h1, h2, v, d, h3, h4, rfl, h5⟩)
    · exact .path h1 h2
    · obtain ⟨he, ha⟩ := h h1
      exact .name h1 h2 ((he v).2 h3) ((firstWith_congr (ha v h3)).1 h4)
  · rintro (⟨h1, h2⟩ | ⟨h1, h2, h3, h4⟩)
    · exact .inl ⟨h1, rfl, h2⟩
    · obtain ⟨he, ha⟩ := h h1
      rename_i v d
      have h3' := (he v).1 h3
      refine .inr ⟨h1, h2, v, d, h3', (firstWith_congr (ha v h3')).1 h4, rfl, ?_⟩
      obtain ⟨_, _, _, h5, _⟩ := h4
      exact h5

/-- **C116, in terms of the settings.** It is enough that neither the target nor the task sets PATH or
keeps it away. -/
theorem C116_settings_partial (m : Machine) (x : Exec) (t : Target) (c : Command) (l : List Str)
    (hc : x.command (t.start m.environ) = some c) (h1 : LegalSet t.env) (h2 : LegalSet x.env)
    (hs1 : ∀ w, (b!"PATH", w) ∉ t.env.set) (hs2 : ∀ w, (b!"PATH", w) ∉ x.env.set)
    (hp1 : Passes t.env.allow t.env.deny b!"PATH") (hp2 : Passes x.env.allow x.env.deny b!"PATH")
    (hone : ∀ v, LookupLast m.environ b!"PATH" v ↔ LookupFirst m.environ b!"PATH" v)
    (habs : ∀ v, LookupFirst m.environ b!"PATH" v → ∀ d ∈ dirs v, d.head? = some 47) :
    program m c = some l ↔ Names m.exe (loc [] t.basedir) c.env c.path l := by
  obtain ⟨args, env⟩ := x
  cases args with
  | nil => cases hc
  | cons a rest =>
    obtain rfl := Option.some.inj hc
    refine C116_names_partial m _ l (fun _ => ⟨?_, habs⟩)
    intro v
    simp only
    rw [C27_apply_lookup_last env h2 _ _ _ path_name, Target.start, C27_apply_lookup_last t.env h1 _ _ _ path_name, hone]
    simp only [hs1, hs2, hp1, hp2, false_or, not_false_eq_true, implies_true, true_and]

/-! ## Refutation -/

/-- A machine with the programs `/opt/bin/tool`, `/usr/bin/tool`, `/home/tool` and `/book/tool`. -/
def toolbox (path : Str) : Machine where
  wd := b!"/home"
  environ := [b!"PATH=" ++ path]
  exe := fun l => l = [b!"opt", b!"bin", b!"tool"] ∨ l = [b!"usr", b!"bin", b!"tool"] ∨
    l = [b!"home", b!"tool"] ∨ l = [b!"book", b!"tool"]

theorem toolbox_path (v : Str) : LookupLast [b!"PATH=" ++ v] b!"PATH" v :=
  .here (env := []) ⟨path_name, rfl⟩

/-- **C116 refuted.** (1) A task that sets PATH to `/opt/bin`, where there is a `tool`, runs `/usr/bin/tool`,
because that is pgutil's own PATH; (2) if there is none in pgutil's own PATH, no program is run.  (3) With
an entry `.` in PATH, a `tool` where pgutil was started hides the one in `/usr/bin`, and is then not found in
the directory of the runbook. -/
theorem C116_refuted :
    (∃ (x : Exec) (t : Target) (c : Command), x.check = none ∧ t.basedir = b!"/book" ∧
      x.command (t.start (toolbox b!"/usr/bin").environ) = some c ∧
      Names (toolbox b!"/usr/bin").exe (loc [] t.basedir) c.env c.path [b!"opt", b!"bin", b!"tool"] ∧
      program (toolbox b!"/usr/bin") c = some [b!"usr", b!"bin", b!"tool"]) ∧
    (∃ (x : Exec) (t : Target) (c : Command), x.check = none ∧ t.basedir = b!"/book" ∧
      x.command (t.start (toolbox b!"/bin").environ) = some c ∧
      Names (toolbox b!"/bin").exe (loc [] t.basedir) c.env c.path [b!"opt", b!"bin", b!"tool"] ∧
      program (toolbox b!"/bin") c = none) ∧
    (∃ (x : Exec) (t : Target) (c : Command), x.check = none ∧ t.basedir = b!"/srv" ∧
      x.command (t.start (toolbox b!".:/usr/bin").environ) = some c ∧
      Names (toolbox b!".:/usr/bin").exe (loc [] t.basedir) c.env c.path [b!"usr", b!"bin", b!"tool"] ∧
      program (toolbox b!".:/usr/bin") c = none) := by
  refine ⟨⟨⟨[b!"tool"], { set := [(b!"PATH", b!"/opt/bin")] }⟩, { basedir := b!"/book" }, _, rfl, rfl, rfl, ?_, ?_⟩,
    ⟨⟨[b!"tool"], { set := [(b!"PATH", b!"/opt/bin")] }⟩, { basedir := b!"/book" }, _, rfl, rfl, rfl, ?_, ?_⟩,
    ⟨⟨[b!"tool"], {}⟩, { basedir := b!"/srv" }, _, rfl, rfl, rfl, ?_, ?_⟩⟩
  · exact .name (v := b!"/opt/bin") (d := b!"/opt/bin") (by decide) (by decide) (toolbox_path _)
      ⟨[], [], by decide, by decide, by simp⟩
  · decide +kernel
  · exact .name (v := b!"/opt/bin") (d := b!"/opt/bin") (by decide) (by decide) (toolbox_path _)
      ⟨[], [], by decide, by decide, by simp⟩
  · decide +kernel
  · exact .name (v := b!".:/usr/bin") (d := b!"/usr/bin") (by decide) (by decide) (toolbox_path _)
      ⟨[b!"."], [], by decide, by decide, by decide⟩
  · decide +kernel

/-- Non-vacuity: with an absolute PATH that the settings leave alone, `tool` is the one in PATH, and
`./tool` the one next to the runbook. -/
example : program (toolbox b!"/usr/bin:/opt/bin") ⟨b!"tool", [], b!"/book", [b!"PATH=/usr/bin:/opt/bin"]⟩ =
      some [b!"usr", b!"bin", b!"tool"] ∧
    Names (toolbox b!"/usr/bin:/opt/bin").exe (loc [] b!"/book") [b!"PATH=/usr/bin:/opt/bin"] b!"tool"
      [b!"usr", b!"bin", b!"tool"] ∧
    program (toolbox b!"/usr/bin") ⟨b!"./tool", [], b!"/book", []⟩ = some [b!"book", b!"tool"] := by
  have h : program (toolbox b!"/usr/bin:/opt/bin") ⟨b!"tool", [], b!"/book", [b!"PATH=/usr/bin:/opt/bin"]⟩ =
      some [b!"usr", b!"bin", b!"tool"] := by decide +kernel
  refine ⟨h, (C116_names_partial _ _ _ ?_).1 h, by decide +kernel⟩
  intro _
  have hf : LookupFirst (toolbox b!"/usr/bin:/opt/bin").environ b!"PATH" b!"/usr/bin:/opt/bin" :=
    .here ⟨path_name, rfl⟩
  constructor
  · intro v
    constructor
    · intro hv
      obtain rfl := lookupLast_unique path_name hv (toolbox_path _)
      exact hf
    · intro hv
      obtain rfl := lookupFirst_unique hv hf
      exact toolbox_path _
  · intro v hv
    obtain rfl := lookupFirst_unique hv hf
    decide

end Verif.Sh
