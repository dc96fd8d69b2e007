import Verif.TaskSet.Doc
import Verif.TaskSet.DocSpec
import Mathlib.Data.List.Basic
import Mathlib.Data.List.Nodup
import Mathlib.Data.List.Perm.Basic

/-!
# Lemmas: decoding flat bodies
-/

namespace Verif.TaskSet
open Verif Hcl Spec DocSpec

section
variable {F N α β : Type} {L : Lib F N}

/-- What a field for the attribute `n` gets. -/
def Gets (L : Lib F N) (A : Attr N β) (body : List (Item N)) (n : Str) (o : Option β) : Prop :=
  (Absent body n ∧ o = none) ∨ ∃ v x, .attr n v ∈ body ∧ (L.convert A.kind v).bind A.dec = some x ∧ o = some x

theorem filter_name {body : List (Item N)} (ha : ∀ i ∈ body, ∃ n v, i = Item.attr n v)
    (hn : (body.map Item.name).Nodup) (n : Str) :
    (Absent body n ∧ body.filter (fun i => i.name = n) = []) ∨
    ∃ v, .attr n v ∈ body ∧ (∀ w, .attr n w ∈ body → w = v) ∧ body.filter (fun i => i.name = n) = [.attr n v] := by
  induction body with
  | nil => left; simp [Absent]
  | cons i l ih =>
    obtain ⟨m, v, rfl⟩ := ha i (by simp)
    have hn' := hn
    simp only [List.map_cons, List.nodup_cons, Item.name, List.mem_map, not_exists, not_and] at hn
    have ih := ih (fun i h => ha i (by simp [h])) hn.2
    by_cases e : m = n
    · subst e
      have h0 : Absent l m := fun w hw => hn.1 _ hw rfl
      right
      refine ⟨v, by simp, ?_, ?_⟩
      · intro w hw
        rcases List.mem_cons.1 hw with h | h
        · cases h; rfl
        · exact absurd h (h0 w)
      · rcases ih with ⟨-, h⟩ | ⟨w, hw, -⟩
        · rw [List.filter_cons_of_pos (by simp [Item.name]), h]
        · exact absurd hw (h0 w)
    · have e' : ∀ w, (Item.attr n w ∈ Item.attr m v :: l) ↔ Item.attr n w ∈ l := by
        intro w
        simp only [List.mem_cons, Item.attr.injEq]
        exact ⟨fun h => h.resolve_left fun x => e x.1.symm, Or.inr⟩
      simpa [Absent, e', Item.name, e] using ih

theorem ofAttr_decode {A : Attr N β} {body : List (Item N)} (ha : ∀ i ∈ body, ∃ n v, i = Item.attr n v)
    (hn : (body.map Item.name).Nodup) {g n k : Str} {get : α → β} {set : β → α → α} {a b : α} :
    (Field.ofAttr L g n k A get set).decode (body.filter (fun i => i.name = (Field.ofAttr L g n k A get set).tag.name)) a = .ok b ↔
      ∃ o, Gets L A body n o ∧ b = o.elim a (set · a) := by
  show (Field.ofAttr L g n k A get set).decode (body.filter (fun i => i.name = n)) a = .ok b ↔ _
  rcases filter_name ha hn n with ⟨h, e⟩ | ⟨v, h, hu, e⟩
  · rw [e]
    have : (Field.ofAttr L g n k A get set).decode [] a = .ok a := rfl
    rw [this]
    constructor
    · intro e
      cases e
      exact ⟨none, .inl ⟨h, rfl⟩, rfl⟩
    · rintro ⟨o, ⟨-, rfl⟩ | ⟨v, x, hv, -⟩, rfl⟩
      · rfl
      · exact absurd hv (h v)
  · rw [e]
    have : (Field.ofAttr L g n k A get set).decode [.attr n v] a =
        match (L.convert A.kind v).bind A.dec with
        | none => .error (.badValue n)
        | some x => .ok (set x a) := rfl
    rw [this]
    constructor
    · intro e
      cases hx : (L.convert A.kind v).bind A.dec with
      | none => rw [hx] at e; cases e
      | some x =>
        rw [hx] at e
        cases e
        exact ⟨some x, .inr ⟨v, x, h, hx, rfl⟩, rfl⟩
    · rintro ⟨o, ⟨h0, -⟩ | ⟨w, x, hw, hx, rfl⟩, rfl⟩
      · exact absurd h (h0 v)
      · rw [← hu w hw, hx]
        rfl

theorem decodeFields_cons {body : List (Item N)} {f : Field N α} {fs : List (Field N α)} {a c : α} :
    decodeFields body (f :: fs) a = .ok c ↔
      ∃ b, f.decode (body.filter (fun i => i.name = f.tag.name)) a = .ok b ∧ decodeFields body fs b = .ok c := by
  rw [decodeFields]
  cases f.decode (body.filter (fun i => i.name = f.tag.name)) a with
  | error e => simp
  | ok b => simp

theorem decodeFields_nil {body : List (Item N)} {a c : α} :
    decodeFields body ([] : List (Field N α)) a = .ok c ↔ c = a := by
  rw [decodeFields]
  simp [eq_comm]

/-- Structs without blocks. -/
theorem decode_flat {C : Codec N α} (hb : ∀ f ∈ C.fields, f.tag.kind ≠ b!"block") {labels : List Str}
    {body : List (Item N)} {a : α} :
    C.decode labels body = .ok a ↔
      Only ((C.fields.filter (·.tag.isAttr)).map (·.tag.name)) body ∧
      (∀ f ∈ C.fields, f.tag.kind = b!"attr" → ∃ v, .attr f.tag.name v ∈ body) ∧
      labels.length = (labelFields C.fields).length ∧
      decodeFields body C.fields (setLabels (labelFields C.fields) labels C.zero) = .ok a := by
  have hall : body.find? (fun i => !C.fields.any fun f => f.allows i) = none ↔
      ∀ i ∈ body, ∃ n v, i = .attr n v ∧ n ∈ (C.fields.filter (·.tag.isAttr)).map (·.tag.name) := by
    rw [List.find?_eq_none]
    refine forall₂_congr fun i _ => ?_
    simp only [Bool.not_eq_true', Bool.not_eq_false, List.any_eq_true, List.mem_map, List.mem_filter]
    constructor
    · rintro ⟨f, hf, h⟩
      cases i with
      | attr n v =>
        simp only [Field.allows, Bool.and_eq_true, decide_eq_true_eq] at h
        exact ⟨n, v, rfl, f, ⟨hf, h.1⟩, h.2⟩
      | block t ls b =>
        simp only [Field.allows, Bool.and_eq_true, decide_eq_true_eq] at h
        exact absurd h.1.1 (hb f hf)
    · rintro ⟨n, v, rfl, f, ⟨hf, h⟩, e⟩
      exact ⟨f, hf, by simp [Field.allows, h, e]⟩
  unfold Codec.decode Only
  by_cases h1 : body.find? (fun i => !C.fields.any fun f => f.allows i) = none
  · have h1' := hall.1 h1
    rw [h1]
    simp only
    have hf : body.filter Item.isAttr = body := by
      rw [List.filter_eq_self]
      intro i hi
      obtain ⟨n, v, rfl, -⟩ := h1' i hi
      rfl
    rw [hf]
    by_cases h2 : (body.map Item.name).Nodup
    · rw [if_neg (not_not.2 h2)]
      have hreq : C.fields.find? (fun f => f.tag.kind = b!"attr" &&
          !body.any fun i => i.isAttr && decide (i.name = f.tag.name)) = none ↔
          ∀ f ∈ C.fields, f.tag.kind = b!"attr" → ∃ v, .attr f.tag.name v ∈ body := by
        rw [List.find?_eq_none]
        refine forall₂_congr fun f _ => ?_
        simp only [Bool.and_eq_true, decide_eq_true_eq, Bool.not_eq_true', not_and, Bool.not_eq_false]
        refine imp_congr_right fun _ => ?_
        rw [List.any_eq_true]
        constructor
        · rintro ⟨i, hi, h⟩
          cases i with
          | attr n v =>
            simp only [Item.isAttr, Item.name, Bool.true_and] at h
            exact ⟨v, of_decide_eq_true h ▸ hi⟩
          | block t ls b => simp [Item.isAttr] at h
        · rintro ⟨v, hv⟩
          exact ⟨_, hv, by simp [Item.isAttr, Item.name]⟩
      by_cases h3 : C.fields.find? (fun f => f.tag.kind = b!"attr" &&
          !body.any fun i => i.isAttr && decide (i.name = f.tag.name)) = none
      · rw [h3]
        simp only
        by_cases h4 : labels.length = (labelFields C.fields).length
        · rw [if_neg (not_not.2 h4)]
          exact ⟨fun h => ⟨⟨h1', h2⟩, hreq.1 h3, h4, h⟩, fun h => h.2.2.2⟩
        · rw [if_pos h4]
          exact ⟨fun h => (by cases h), fun h => absurd h.2.2.1 h4⟩
      · obtain ⟨f, hf⟩ := Option.ne_none_iff_exists'.1 h3
        rw [hf]
        exact ⟨fun h => (by cases h), fun h => absurd (hreq.2 h.2.1) h3⟩
    · rw [if_pos h2]
      exact ⟨fun h => (by cases h), fun h => absurd h.1.2 h2⟩
  · obtain ⟨i, hi⟩ := Option.ne_none_iff_exists'.1 h1
    rw [hi]
    exact ⟨fun h => (by cases h), fun h => absurd (hall.2 h.1.1) h1⟩

theorem only_attrs {names : List Str} {body : List (Item N)} (h : Only names body) :
    ∀ i ∈ body, ∃ n v, i = Item.attr n v := fun i hi => by
  obtain ⟨n, v, e, -⟩ := h.1 i hi
  exact ⟨n, v, e⟩

theorem only_nil {body : List (Item N)} : Only [] body ↔ body = [] := by
  constructor
  · intro h
    cases body with
    | nil => rfl
    | cons i l =>
      obtain ⟨n, v, -, h⟩ := h.1 i (by simp)
      simp at h
  · rintro rfl
    exact ⟨by simp, by simp⟩

/-! ### Attributes of the types there are -/

theorem gets_text {body : List (Item N)} {n s : Str} :
    Gets L (.string L) body n (some s) ↔ GivesText L body n s := by
  unfold Gets GivesText
  constructor
  · rintro (⟨-, h⟩ | ⟨v, x, hv, hx, h⟩)
    · cases h
    · cases h
      refine ⟨v, hv, ?_⟩
      change (L.convert .string v).bind (Attr.string L).dec = some s at hx
      rw [Option.bind_eq_some_iff] at hx
      obtain ⟨w, hw, hs⟩ := hx
      cases w with
      | str t => simp only [Attr.string, Option.some.injEq] at hs; rw [hw, hs]
      | _ => simp [Attr.string] at hs
  · rintro ⟨v, hv, h⟩
    refine .inr ⟨v, s, hv, ?_, rfl⟩
    change (L.convert .string v).bind (Attr.string L).dec = some s
    rw [h]
    rfl

theorem gets_int {body : List (Item N)} {n g : Str} {k : Int} :
    Gets L (.int L g) body n (some k) ↔ GivesInt L body n k := by
  unfold Gets GivesInt
  constructor
  · rintro (⟨-, h⟩ | ⟨v, x, hv, hx, h⟩)
    · cases h
    · cases h
      change (L.convert .number v).bind (Attr.int L g).dec = some k at hx
      rw [Option.bind_eq_some_iff] at hx
      obtain ⟨w, hw, hs⟩ := hx
      cases w with
      | num m => exact ⟨v, m, hv, hw, hs⟩
      | _ => simp [Attr.int] at hs
  · rintro ⟨v, m, hv, h, hm⟩
    refine .inr ⟨v, k, hv, ?_, rfl⟩
    change (L.convert .number v).bind (Attr.int L g).dec = some k
    rw [h]
    exact hm

theorem mapM_str {l : List (Value N)} {r : List Str} :
    (l.mapM fun v => match v with
      | .str s => some s
      | _ => none) = some r ↔ l = r.map .str := by
  induction l generalizing r with
  | nil => cases r <;> simp [List.mapM_nil]
  | cons v l ih =>
    rw [List.mapM_cons]
    cases v with
    | str s =>
      simp only [Option.pure_def, Option.bind_eq_bind, Option.bind_some, Option.bind_eq_some_iff,
        Option.some.injEq]
      constructor
      · rintro ⟨r', h, rfl⟩
        rw [ih] at h
        simp [h]
      · intro h
        cases r with
        | nil => simp at h
        | cons s' r =>
          simp only [List.map_cons, List.cons.injEq, Value.str.injEq] at h
          exact ⟨r, ih.2 h.2, by rw [h.1]⟩
    | _ =>
      simp only [Option.bind_eq_bind, Option.bind_none, reduceCtorEq, false_iff]
      cases r <;> simp

theorem gets_texts {body : List (Item N)} {n : Str} {l : List Str} :
    Gets L (.strings L) body n (some l) ↔ GivesTexts L body n l := by
  unfold Gets GivesTexts
  have key : ∀ v, (L.convert .strings v).bind (Attr.strings L).dec = some l ↔
      (L.convert .strings v = some .null ∧ l = [] ∨ L.convert .strings v = some (.list (l.map .str))) := by
    intro v
    cases h : L.convert .strings v with
    | none => simp
    | some w =>
      simp only [Option.bind_some, Option.some.injEq]
      cases w with
      | null => simp [Attr.strings, eq_comm]
      | list r =>
        have : (Attr.strings L).dec (.list r) = r.mapM fun v => match v with
          | .str s => some s
          | _ => none := rfl
        rw [this, mapM_str]
        simp
      | _ => simp [Attr.strings]
  constructor
  · rintro (⟨-, h⟩ | ⟨v, x, hv, hx, h⟩)
    · cases h
    · cases h
      exact ⟨v, hv, (key v).1 hx⟩
  · rintro ⟨v, hv, h⟩
    exact .inr ⟨v, l, hv, (key v).2 h, rfl⟩

theorem gets_none {A : Attr N β} {body : List (Item N)} {n : Str} :
    Gets L A body n none ↔ Absent body n := by
  unfold Gets
  simp

/-! ### The bodies of targets and tasks -/

theorem diag_ok {γ δ : Type} {f : γ → δ} {e : Except Diag γ} {b : δ} :
    diag f e = .ok b ↔ ∃ a, e = .ok a ∧ f a = b := by
  cases e <;> simp [diag]

theorem nothing_ok {body : List (Item N)} : (docDecoder L).nothing body = .ok () ↔ body = [] := by
  show diag id ((noFields (N := N)).decode [] body) = .ok () ↔ _
  rw [diag_ok, ← only_nil]
  constructor
  · rintro ⟨a, h, -⟩
    exact ((decode_flat (C := noFields) (by simp [noFields])).1 h).1
  · intro h
    exact ⟨(), (decode_flat (C := noFields) (by simp [noFields])).2
      ⟨h, by simp [noFields], rfl, rfl⟩, rfl⟩

theorem sql_ok {body : List (Item N)} {s : Str} :
    (docDecoder L).sql body = .ok s ↔ Only [b!"sql"] body ∧ GivesText L body b!"sql" s := by
  show diag id ((pgTask L).decode [] body) = .ok s ↔ _
  rw [diag_ok]
  simp only [id, exists_eq_right]
  rw [decode_flat (C := pgTask L) (by simp [pgTask, Field.ofAttr])]
  have hnames : ((pgTask L).fields.filter (·.tag.isAttr)).map (·.tag.name) = [b!"sql"] := rfl
  rw [hnames]
  refine and_congr_right fun ho => ?_
  rw [← gets_text]
  have hf : ∀ a : Str, decodeFields body (pgTask L).fields a = .ok s ↔
      ∃ o, Gets L (.string L) body b!"sql" o ∧ s = o.elim a id := by
    intro a
    show decodeFields body [_] a = .ok s ↔ _
    rw [decodeFields_cons]
    simp only [decodeFields_nil]
    simp only [exists_eq_right']
    rw [ofAttr_decode (only_attrs ho) ho.2]
    rfl
  rw [hf]
  constructor
  · rintro ⟨h1, -, o, h2, rfl⟩
    cases o with
    | none =>
      obtain ⟨v, hv⟩ := h1 _ (List.mem_singleton.2 rfl) rfl
      exact absurd hv (gets_none.1 h2 v)
    | some x => exact h2
  · intro h
    refine ⟨?_, rfl, some s, h, rfl⟩
    intro f hf _
    obtain ⟨v, hv, -⟩ := gets_text.1 h
    cases List.mem_singleton.1 hf
    exact ⟨v, hv⟩

theorem args_ok {body : List (Item N)} {s : List Str} :
    (docDecoder L).args body = .ok s ↔ Only [b!"args"] body ∧ GivesTexts L body b!"args" s := by
  show diag id ((shTask L).decode [] body) = .ok s ↔ _
  rw [diag_ok]
  simp only [id, exists_eq_right]
  rw [decode_flat (C := shTask L) (by simp [shTask, Field.ofAttr])]
  have hnames : ((shTask L).fields.filter (·.tag.isAttr)).map (·.tag.name) = [b!"args"] := rfl
  rw [hnames]
  refine and_congr_right fun ho => ?_
  rw [← gets_texts]
  have hf : ∀ a : List Str, decodeFields body (shTask L).fields a = .ok s ↔
      ∃ o, Gets L (.strings L) body b!"args" o ∧ s = o.elim a id := by
    intro a
    show decodeFields body [_] a = .ok s ↔ _
    rw [decodeFields_cons]
    simp only [decodeFields_nil]
    simp only [exists_eq_right']
    rw [ofAttr_decode (only_attrs ho) ho.2]
    rfl
  rw [hf]
  constructor
  · rintro ⟨h1, -, o, h2, rfl⟩
    cases o with
    | none =>
      obtain ⟨v, hv⟩ := h1 _ (List.mem_singleton.2 rfl) rfl
      exact absurd hv (gets_none.1 h2 v)
    | some x => exact h2
  · intro h
    refine ⟨?_, rfl, some s, h, rfl⟩
    intro f hf _
    obtain ⟨v, hv, -⟩ := gets_texts.1 h
    cases List.mem_singleton.1 hf
    exact ⟨v, hv⟩

theorem demoTarget_ok {body : List (Item N)} {o : Option Int} {s : Str} :
    (docDecoder L).demoTarget body = .ok (o, s) ↔
      Only [b!"max_concurrency", b!"string"] body ∧ GivesText L body b!"string" s ∧
      Gets L (.int L b!"int") body b!"max_concurrency" o := by
  show diag id ((demoTarget L).decode [] body) = .ok (o, s) ↔ _
  rw [diag_ok]
  simp only [id, exists_eq_right]
  rw [decode_flat (C := demoTarget L) (by simp [demoTarget, Field.ofAttr])]
  have hnames : ((demoTarget L).fields.filter (·.tag.isAttr)).map (·.tag.name) =
    [b!"max_concurrency", b!"string"] := rfl
  rw [hnames]
  refine and_congr_right fun ho => ?_
  rw [← gets_text]
  have hf : decodeFields body (demoTarget L).fields (none, []) = .ok (o, s) ↔
      Gets L (.int L b!"int") body b!"max_concurrency" o ∧
      ∃ t, Gets L (.string L) body b!"string" t ∧ s = t.elim [] id := by
    show decodeFields body [_, _] _ = .ok (o, s) ↔ _
    rw [decodeFields_cons]
    simp only [decodeFields_cons, decodeFields_nil]
    simp only [exists_eq_right']
    simp only [ofAttr_decode (only_attrs ho) ho.2]
    constructor
    · rintro ⟨b, ⟨o', h1, rfl⟩, t, h2, e⟩
      cases o' <;> cases t <;> simp only [Option.elim, Prod.mk.injEq] at e <;> obtain ⟨rfl, rfl⟩ := e <;>
        exact ⟨h1, _, h2, rfl⟩
    · rintro ⟨h1, t, h2, rfl⟩
      refine ⟨_, ⟨o, h1, rfl⟩, t, h2, ?_⟩
      cases o <;> cases t <;> rfl
  have hlab : setLabels (labelFields (demoTarget L).fields) [] (demoTarget L).zero = (none, []) := rfl
  rw [hlab, hf]
  constructor
  · rintro ⟨h1, -, h3, o, h2, rfl⟩
    cases o with
    | none =>
      obtain ⟨v, hv⟩ := h1 _ (List.mem_cons_of_mem _ (List.mem_singleton.2 rfl)) rfl
      exact absurd hv (gets_none.1 h2 v)
    | some x => exact ⟨h2, h3⟩
  · rintro ⟨h, h3⟩
    refine ⟨?_, rfl, h3, some s, h, rfl⟩
    intro f hf hk
    obtain ⟨v, hv, -⟩ := gets_text.1 h
    rcases List.mem_cons.1 hf with rfl | hf
    · exact absurd hk (by show ¬ b!"optional" = b!"attr"; decide)
    · cases List.mem_singleton.1 hf
      exact ⟨v, hv⟩

theorem targetBody_iff {body : List (Item N)} {f : Factory} {t : Target} :
    Configured (docDecoder L) body f t ↔ TargetBody L body f t := by
  constructor
  · rintro (h | h | h | h)
    · obtain ⟨h1, h2, h3⟩ := demoTarget_ok.1 h
      exact .demo h1 h2 (.inl (gets_int.1 h3))
    · obtain ⟨h1, h2, h3⟩ := demoTarget_ok.1 h
      exact .demo h1 h2 (.inr ⟨gets_none.1 h3, rfl⟩)
    · exact .pg (nothing_ok.1 h)
    · exact .sh (nothing_ok.1 h)
  · rintro (⟨h1, h2, h3 | ⟨h3, rfl⟩⟩ | h | h)
    · exact .demo (demoTarget_ok.2 ⟨h1, h2, gets_int.2 h3⟩)
    · exact .demoDefault (demoTarget_ok.2 ⟨h1, h2, gets_none.2 h3⟩)
    · exact .pg (nothing_ok.2 h)
    · exact .sh (nothing_ok.2 h)

/-- What the fields of every task take. -/
def known (i : Item N) : Bool :=
  match i with
  | .attr n _ => decide (n ∈ common)
  | .block _ _ _ => false

theorem allows_known (i : Item N) : ((taskHead L).fields.any fun f => f.allows i) = known i := by
  cases i with
  | block t ls b =>
    simp [taskHead, known, Field.allows, Field.ofLabel, Field.ofAttr]
  | attr n v =>
    show (false && decide (b!"type" = n) || (false && decide (b!"name" = n) || (true && decide (b!"target" = n) || (true && decide (b!"after" = n) ||
      (true && decide (b!"provides" = n) || (true && decide (b!"requires" = n) || false)))))) =
      decide (n ∈ common)
    simp only [common, List.mem_cons, List.not_mem_nil, or_false, Bool.decide_or, Bool.false_and, Bool.true_and,
      Bool.false_or, Bool.or_false, @eq_comm Str n]

theorem only_split {names : List Str} (hd : ∀ n ∈ names, n ∉ common) {body : List (Item N)} :
    Only (names ++ common) body ↔ Only common (body.filter known) ∧ Only names (body.filter fun i => !known i) := by
  constructor
  · rintro ⟨h1, h2⟩
    refine ⟨⟨?_, h2.sublist (List.filter_sublist.map _)⟩, ⟨?_, h2.sublist (List.filter_sublist.map _)⟩⟩
    · intro i hi
      obtain ⟨hi, hk⟩ := List.mem_filter.1 hi
      obtain ⟨n, v, rfl, -⟩ := h1 i hi
      exact ⟨n, v, rfl, by simpa [known] using hk⟩
    · intro i hi
      obtain ⟨hi, hk⟩ := List.mem_filter.1 hi
      obtain ⟨n, v, rfl, hn⟩ := h1 i hi
      refine ⟨n, v, rfl, (List.mem_append.1 hn).resolve_right ?_⟩
      simpa [known] using hk
  · rintro ⟨h1, h2⟩
    constructor
    · intro i hi
      cases hk : known i
      · obtain ⟨n, v, e, hn⟩ := h2.1 i (List.mem_filter.2 ⟨hi, by simp [hk]⟩)
        exact ⟨n, v, e, List.mem_append_left _ hn⟩
      · obtain ⟨n, v, e, hn⟩ := h1.1 i (List.mem_filter.2 ⟨hi, hk⟩)
        exact ⟨n, v, e, List.mem_append_right _ hn⟩
    · have hp : ((body.filter known ++ body.filter fun i => !known i).map Item.name).Perm (body.map Item.name) :=
        (List.filter_append_perm known body).map _
      rw [← hp.nodup_iff, List.map_append, List.nodup_append]
      refine ⟨h1.2, h2.2, ?_⟩
      intro a ha b hb e
      obtain ⟨i, hi, rfl⟩ := List.mem_map.1 ha
      obtain ⟨j, hj, rfl⟩ := List.mem_map.1 hb
      obtain ⟨n, v, rfl, hn⟩ := h1.1 i hi
      obtain ⟨m, w, rfl, hm⟩ := h2.1 j hj
      simp only [Item.name] at e
      exact hd m hm (e ▸ hn)

theorem mem_known {body : List (Item N)} {n : Str} (hn : n ∈ common) {v : Value N} :
    Item.attr n v ∈ body.filter known ↔ Item.attr n v ∈ body := by
  rw [List.mem_filter]
  simp [known, hn]

theorem mem_rest {body : List (Item N)} {n : Str} (hn : n ∉ common) {v : Value N} :
    Item.attr n v ∈ (body.filter fun i => !known i) ↔ Item.attr n v ∈ body := by
  rw [List.mem_filter]
  simp [known, hn]

theorem gets_known {A : Attr N β} {body : List (Item N)} {n : Str} (hn : n ∈ common) {o : Option β} :
    Gets L A (body.filter known) n o ↔ Gets L A body n o := by
  unfold Gets Absent
  simp only [mem_known hn]

theorem text_rest {body : List (Item N)} {n : Str} (hn : n ∉ common) {s : Str} :
    GivesText L (body.filter fun i => !known i) n s ↔ GivesText L body n s := by
  unfold GivesText
  simp only [mem_rest hn]

theorem texts_rest {body : List (Item N)} {n : Str} (hn : n ∉ common) {s : List Str} :
    GivesTexts L (body.filter fun i => !known i) n s ↔ GivesTexts L body n s := by
  unfold GivesTexts
  simp only [mem_rest hn]

/-- The head of a task. -/
structure Head (L : Lib F N) (labels : List Str) (body : List (Item N)) (w : TaskSrc (List (Item N))) : Prop where
  labels : labels = [w.typ, w.id]
  only : Only common (body.filter known)
  target : ∃ o, Gets L (.string L) body b!"target" o ∧ w.target = o.elim [] id
  after : ∃ o, Gets L (.strings L) body b!"after" o ∧ w.after = o.elim [] id
  provide : ∃ o, Gets L (.strings L) body b!"provides" o ∧ w.provide = o.elim [] id
  require : ∃ o, Gets L (.strings L) body b!"requires" o ∧ w.require = o.elim [] id
  config : w.config = body.filter fun i => !known i

theorem decodeTask_ok {labels : List Str} {body : List (Item N)} {w : TaskSrc (List (Item N))} :
    decodeTask L labels body = .ok w ↔ Head L labels body w := by
  have hd : decodeTask L labels body = match (taskHead L).decode labels (body.filter known) with
      | .error e => .error e
      | .ok t => .ok { t with config := body.filter fun i => !known i } := by
    unfold decodeTask
    simp only [allows_known]
    rfl
  have h1 : decodeTask L labels body = .ok w ↔
      ∃ t, (taskHead L).decode labels (body.filter known) = .ok t ∧
        w = { t with config := body.filter fun i => !known i } := by
    rw [hd]
    cases (taskHead L).decode labels (body.filter known) <;> simp [eq_comm]
  rw [h1]
  have h2 : ∀ t, (taskHead L).decode labels (body.filter known) = .ok t ↔ _ := fun t =>
    decode_flat (C := taskHead L) (by simp [taskHead, Field.ofAttr, Field.ofLabel])
  simp only [h2]
  have hnames : ((taskHead L).fields.filter (·.tag.isAttr)).map (·.tag.name) = common := rfl
  rw [hnames]
  have hlen : (labelFields (taskHead L).fields).length = 2 := rfl
  rw [hlen]
  have hreq : ∀ f ∈ (taskHead L).fields, f.tag.kind = b!"attr" → ∃ v, .attr f.tag.name v ∈ body.filter known := by
    intro f hf hk
    exfalso
    revert f
    simp [taskHead, Field.ofAttr, Field.ofLabel]
  have hset : ∀ typ id, setLabels (labelFields (taskHead L).fields) [typ, id] (taskHead L).zero =
      { typ := typ, id := id, config := [] } := fun _ _ => rfl
  have hfields : Only common (body.filter known) → ∀ typ id t,
      decodeFields (body.filter known) (taskHead L).fields { typ := typ, id := id, config := [] } = .ok t ↔
      ∃ o1 o2 o3 o4, Gets L (.string L) body b!"target" o1 ∧ Gets L (.strings L) body b!"after" o2 ∧
        Gets L (.strings L) body b!"provides" o3 ∧ Gets L (.strings L) body b!"requires" o4 ∧
        t = { typ := typ, id := id, target := o1.elim [] _root_.id, after := o2.elim [] _root_.id,
              provide := o3.elim [] _root_.id, require := o4.elim [] _root_.id, config := [] } := by
    intro ho typ id t
    have hl : ∀ g n get set (fs : List (Field N (TaskSrc (List (Item N))))) a,
        decodeFields (body.filter known) (.ofLabel L g n get set :: fs) a = decodeFields (body.filter known) fs a :=
      fun _ _ _ _ _ _ => rfl
    show decodeFields (body.filter known) [_, _, _, _, _, _] _ = .ok t ↔ _
    rw [hl, hl]
    simp only [decodeFields_cons, decodeFields_nil]
    simp only [exists_eq_right']
    simp only [ofAttr_decode (only_attrs ho) ho.2]
    simp only [gets_known (n := b!"target") (show _ ∈ common by decide), gets_known (n := b!"after") (show _ ∈ common by decide),
      gets_known (n := b!"provides") (show _ ∈ common by decide), gets_known (n := b!"requires") (show _ ∈ common by decide)]
    constructor
    · rintro ⟨_, ⟨o1, h1, rfl⟩, _, ⟨o2, h2, rfl⟩, _, ⟨o3, h3, rfl⟩, o4, h4, rfl⟩
      refine ⟨o1, o2, o3, o4, h1, h2, h3, h4, ?_⟩
      cases o1 <;> cases o2 <;> cases o3 <;> cases o4 <;> rfl
    · rintro ⟨o1, o2, o3, o4, h1, h2, h3, h4, rfl⟩
      refine ⟨_, ⟨o1, h1, rfl⟩, _, ⟨o2, h2, rfl⟩, _, ⟨o3, h3, rfl⟩, o4, h4, ?_⟩
      cases o1 <;> cases o2 <;> cases o3 <;> cases o4 <;> rfl
  constructor
  · rintro ⟨t, ⟨ho, -, hlab, ht⟩, rfl⟩
    obtain ⟨typ, id, rfl⟩ := List.length_eq_two.1 hlab
    rw [hset, hfields ho] at ht
    obtain ⟨o1, o2, o3, o4, g1, g2, g3, g4, rfl⟩ := ht
    exact ⟨rfl, ho, ⟨o1, g1, rfl⟩, ⟨o2, g2, rfl⟩, ⟨o3, g3, rfl⟩, ⟨o4, g4, rfl⟩, rfl⟩
  · rintro ⟨hlab, ho, ⟨o1, h1, e1⟩, ⟨o2, h2, e2⟩, ⟨o3, h3, e3⟩, ⟨o4, h4, e4⟩, e5⟩
    refine ⟨{ w with config := [] }, ⟨ho, hreq, by rw [hlab]; rfl, ?_⟩, ?_⟩
    · rw [hlab, hset, hfields ho]
      exact ⟨o1, o2, o3, o4, h1, h2, h3, h4, by rw [← e1, ← e2, ← e3, ← e4]⟩
    · rw [← e5]

/-- The head does not fail, and the target is this. -/
theorem head_iff {typ id target : Str} {body : List (Item N)} :
    (∃ w, decodeTask L [typ, id] body = .ok w ∧ w.target = target) ↔
      Only common (body.filter known) ∧ Common L body target := by
  have hl : ∀ n, (∃ o, Gets L (.strings L) body n o) ↔ (Absent body n ∨ ∃ l, GivesTexts L body n l) := by
    intro n
    constructor
    · rintro ⟨o, h⟩
      cases o with
      | none => exact .inl (gets_none.1 h)
      | some l => exact .inr ⟨l, gets_texts.1 h⟩
    · rintro (h | ⟨l, h⟩)
      · exact ⟨none, gets_none.2 h⟩
      · exact ⟨some l, gets_texts.2 h⟩
  have ht : (∃ o, Gets L (.string L) body b!"target" o ∧ target = o.elim [] _root_.id) ↔
      (GivesText L body b!"target" target ∨ Absent body b!"target" ∧ target = []) := by
    constructor
    · rintro ⟨o, h, rfl⟩
      cases o with
      | none => exact .inr ⟨gets_none.1 h, rfl⟩
      | some l => exact .inl (gets_text.1 h)
    · rintro (h | ⟨h, rfl⟩)
      · exact ⟨some target, gets_text.2 h, rfl⟩
      · exact ⟨none, gets_none.2 h, rfl⟩
  constructor
  · rintro ⟨w, h, rfl⟩
    rw [decodeTask_ok] at h
    obtain ⟨-, ho, h1, ⟨o2, h2, -⟩, ⟨o3, h3, -⟩, ⟨o4, h4, -⟩, -⟩ := h
    refine ⟨ho, ht.1 h1, ?_⟩
    intro n hn
    simp only [List.mem_cons, List.not_mem_nil, or_false] at hn
    rcases hn with rfl | rfl | rfl
    · exact (hl _).1 ⟨o2, h2⟩
    · exact (hl _).1 ⟨o3, h3⟩
    · exact (hl _).1 ⟨o4, h4⟩
  · rintro ⟨ho, h1, h2⟩
    obtain ⟨o2, g2⟩ := (hl _).2 (h2 b!"after" (by simp))
    obtain ⟨o3, g3⟩ := (hl _).2 (h2 b!"provides" (by simp))
    obtain ⟨o4, g4⟩ := (hl _).2 (h2 b!"requires" (by simp))
    refine ⟨{ typ := typ, id := id, target := target, after := o2.elim [] _root_.id,
              provide := o3.elim [] _root_.id, require := o4.elim [] _root_.id,
              config := body.filter fun i => !known i }, ?_, rfl⟩
    rw [decodeTask_ok]
    exact ⟨rfl, ho, ht.2 h1, ⟨o2, g2, rfl⟩, ⟨o3, g3, rfl⟩, ⟨o4, g4, rfl⟩, rfl⟩

/-- What a target makes of what is left of a body. -/
theorem taskBody_iff {body : List (Item N)} {t : Target} {typ : Str} {k : Kind} :
    Only common (body.filter known) ∧ Makes (docDecoder L) (body.filter fun i => !known i) t typ k ↔
      TaskBody L body t typ k := by
  have h0 : Only common (body.filter known) ∧ (body.filter fun i => !known i) = [] ↔ Only common body := by
    rw [← only_nil, ← only_split (by simp)]
    rfl
  have hs : ∀ s, Only common (body.filter known) ∧ (Only [b!"sql"] (body.filter fun i => !known i) ∧
      GivesText L (body.filter fun i => !known i) b!"sql" s) ↔
      Only (b!"sql" :: common) body ∧ GivesText L body b!"sql" s := by
    intro s
    rw [← and_assoc, ← only_split (by decide), text_rest (by decide)]
    rfl
  have ha : ∀ s, Only common (body.filter known) ∧ (Only [b!"args"] (body.filter fun i => !known i) ∧
      GivesTexts L (body.filter fun i => !known i) b!"args" s) ↔
      Only (b!"args" :: common) body ∧ GivesTexts L body b!"args" s := by
    intro s
    rw [← and_assoc, ← only_split (by decide), texts_rest (by decide)]
    rfl
  constructor
  · rintro ⟨ho, h | h | h | h | h | h | h⟩
    · exact .echo (h0.1 ⟨ho, nothing_ok.1 h⟩)
    · exact .fail (h0.1 ⟨ho, nothing_ok.1 h⟩)
    · exact .rev (h0.1 ⟨ho, nothing_ok.1 h⟩)
    · exact .rot13 (h0.1 ⟨ho, nothing_ok.1 h⟩)
    · exact .sleep (h0.1 ⟨ho, nothing_ok.1 h⟩)
    · have := (hs _).1 ⟨ho, sql_ok.1 h⟩
      exact .pg this.1 this.2
    · have := (ha _).1 ⟨ho, args_ok.1 h⟩
      exact .sh this.1 this.2
  · rintro (h | h | h | h | h | ⟨h, g⟩ | ⟨h, g⟩)
    · exact ⟨(h0.2 h).1, .echo (nothing_ok.2 (h0.2 h).2)⟩
    · exact ⟨(h0.2 h).1, .fail (nothing_ok.2 (h0.2 h).2)⟩
    · exact ⟨(h0.2 h).1, .rev (nothing_ok.2 (h0.2 h).2)⟩
    · exact ⟨(h0.2 h).1, .rot13 (nothing_ok.2 (h0.2 h).2)⟩
    · exact ⟨(h0.2 h).1, .sleep (nothing_ok.2 (h0.2 h).2)⟩
    · have := (hs _).2 ⟨h, g⟩
      exact ⟨this.1, .pg (sql_ok.2 this.2)⟩
    · have := (ha _).2 ⟨h, g⟩
      exact ⟨this.1, .sh (args_ok.2 this.2)⟩

/-! ### The file -/

/-- A task block that can be decoded. -/
def taskBlock (L : Lib F N) : Item N → Option (TaskSrc (List (Item N)))
  | .block t ls body =>
    if t = b!"task" then
      match decodeTask L ls body with
      | .error _ => none
      | .ok x => some x
    else none
  | .attr _ _ => none

theorem taskBlock_some {i : Item N} {w : TaskSrc (List (Item N))} :
    taskBlock L i = some w ↔ ∃ body, i = .block b!"task" [w.typ, w.id] body ∧
      decodeTask L [w.typ, w.id] body = .ok w := by
  constructor
  · intro h
    cases i with
    | attr n v => cases h
    | block t ls body =>
      rw [taskBlock] at h
      split at h
      · rename_i e
        split at h
        · cases h
        · rename_i x hx
          cases h
          have := (decodeTask_ok.1 hx).labels
          rw [this] at hx ⊢
          exact ⟨body, by rw [e], hx⟩
      · cases h
  · rintro ⟨body, rfl, h⟩
    rw [taskBlock]
    rw [if_pos rfl, h]

theorem targetBlock_some {i : Item N} {w : TargetSrc (List (Item N))} :
    targetBlock i = some w ↔ i = .block b!"target" [w.typ, w.id] w.config := by
  constructor
  · intro h
    unfold targetBlock at h
    split at h
    · split at h
      · rename_i e
        cases h
        rw [e]
      · cases h
    · cases h
  · rintro rfl
    rfl

theorem decodeTasks_ok {doc : List (Item N)} {ts : List (TaskSrc (List (Item N)))} :
    decodeTasks L doc = .ok ts ↔
      (∀ ls b, .block b!"task" ls b ∈ doc → ∃ w, decodeTask L ls b = .ok w) ∧ ts = doc.filterMap (taskBlock L) := by
  induction doc generalizing ts with
  | nil => simp [decodeTasks, eq_comm]
  | cons i l ih =>
    cases i with
    | attr n v =>
      have hn : taskBlock L (.attr n v) = none := rfl
      rw [decodeTasks, ih, List.filterMap_cons_none hn]
      simp
    | block t ls b =>
      rw [decodeTasks]
      by_cases ht : t = b!"task"
      · rw [if_pos ht]
        subst ht
        cases hd : decodeTask L ls b with
        | error e =>
          refine ⟨fun h => (by cases h), fun h => ?_⟩
          obtain ⟨w, hw⟩ := h.1 ls b (by simp)
          rw [hd] at hw
          cases hw
        | ok w =>
          have hw : taskBlock L (.block b!"task" ls b) = some w := by
            rw [taskBlock]
            rw [if_pos rfl, hd]
          rw [List.filterMap_cons_some hw]
          simp only
          constructor
          · intro h
            cases hr : decodeTasks L l with
            | error e => rw [hr] at h; cases h
            | ok xs =>
              rw [hr] at h
              cases h
              obtain ⟨h1, rfl⟩ := ih.1 hr
              refine ⟨fun ls' b' hm => ?_, rfl⟩
              rcases List.mem_cons.1 hm with e | hm
              · cases e
                exact ⟨w, hd⟩
              · exact h1 _ _ hm
          · rintro ⟨h1, rfl⟩
            rw [ih.2 ⟨fun ls' b' hm => h1 _ _ (List.mem_cons_of_mem _ hm), rfl⟩]
      · rw [if_neg ht, ih]
        have hn : taskBlock L (.block t ls b) = none := by
          rw [taskBlock]
          rw [if_neg ht]
        rw [List.filterMap_cons_none hn]
        refine and_congr_left fun _ => ?_
        refine forall₂_congr fun ls' b' => ?_
        have : (Item.block b!"task" ls' b' ∈ Item.block t ls b :: l) ↔ Item.block b!"task" ls' b' ∈ l := by
          rw [List.mem_cons]
          exact ⟨fun h => h.resolve_left fun e => by cases e; exact ht rfl, .inr⟩
        rw [this]

theorem known_iff {i : Item N} : Known i = true ↔ ∃ typ id body,
    i = .block b!"target" [typ, id] body ∨ i = .block b!"task" [typ, id] body := by
  constructor
  · intro h
    unfold Known at h
    split at h
    · rename_i t a b body
      simp only [Bool.or_eq_true, decide_eq_true_eq] at h
      rcases h with rfl | rfl
      · exact ⟨a, b, body, .inl rfl⟩
      · exact ⟨a, b, body, .inr rfl⟩
    · cases h
  · rintro ⟨a, b, body, rfl | rfl⟩ <;> rfl

theorem decodeFile_ok {doc : List (Item N)} {src : Src (List (Item N))} :
    decodeFile L doc = .ok src ↔
      (∀ i ∈ doc, ∃ typ id body, i = .block b!"target" [typ, id] body ∨
        (i = .block b!"task" [typ, id] body ∧ ∃ w, decodeTask L [typ, id] body = .ok w)) ∧
      src = { targets := doc.filterMap targetBlock, tasks := doc.filterMap (taskBlock L) } := by
  unfold decodeFile
  cases hf : doc.find? (fun i => !Known i) with
  | some i =>
    refine ⟨fun h => (by cases h), fun h => ?_⟩
    have h1 := List.find?_some hf
    obtain ⟨typ, id, body, h2⟩ := h.1 i (List.mem_of_find?_eq_some hf)
    have : Known i = true := known_iff.2 ⟨typ, id, body, h2.imp_right (·.1)⟩
    rw [this] at h1
    cases h1
  | none =>
    have hk : ∀ i ∈ doc, Known i = true := by
      intro i hi
      simpa using List.find?_eq_none.1 hf i hi
    simp only
    constructor
    · intro h
      cases ht : decodeTasks L doc with
      | error e => rw [ht] at h; cases h
      | ok ts =>
        rw [ht] at h
        cases h
        obtain ⟨h1, rfl⟩ := decodeTasks_ok.1 ht
        refine ⟨fun i hi => ?_, rfl⟩
        obtain ⟨typ, id, body, e⟩ := known_iff.1 (hk i hi)
        refine ⟨typ, id, body, e.imp_right fun e => ⟨e, h1 _ body (e ▸ hi)⟩⟩
    · rintro ⟨h1, rfl⟩
      rw [decodeTasks_ok.2 ⟨?_, rfl⟩]
      intro ls b hm
      obtain ⟨typ, id, body, e | ⟨e, h⟩⟩ := h1 _ hm
      · cases e
      · cases e
        exact h

theorem lastWith_filterMap {γ δ : Type} {g : γ → Option δ} {p : δ → Prop} {l : List γ} {x : δ} :
    LastWith (l.filterMap g) p x ↔ ∃ i, LastWith l (fun i => ∃ x, g i = some x ∧ p x) i ∧ g i = some x := by
  constructor
  · rintro ⟨u, v, e, hp, hv⟩
    obtain ⟨l1, l2, rfl, e1, e2⟩ := List.filterMap_eq_append_iff.1 e
    obtain ⟨l3, i, l4, rfl, h3, hi, h4⟩ := List.filterMap_eq_cons_iff.1 e2
    refine ⟨i, ⟨l1 ++ l3, l4, by simp, ⟨x, hi, hp⟩, ?_⟩, hi⟩
    rintro j hj ⟨y, hy, hpy⟩
    exact hv y (h4 ▸ List.mem_filterMap.2 ⟨j, hj, hy⟩) hpy
  · rintro ⟨i, ⟨u, v, rfl, ⟨y, hy, hp⟩, hv⟩, hi⟩
    rw [hi] at hy
    cases hy
    refine ⟨u.filterMap g, v.filterMap g, ?_, hp, ?_⟩
    · rw [List.filterMap_append, List.filterMap_cons_some hi]
    · intro y hy hpy
      obtain ⟨j, hj, hgj⟩ := List.mem_filterMap.1 hy
      exact hv j hj ⟨y, hgj, hpy⟩

end

end Verif.TaskSet
