import Mathlib.Logic.Equiv.Basic
import Verif.Sql.Same

/-!
# A server may exchange rows that ORDER BY does not tell apart

Lemmas for `C119_exact`.
-/

namespace Verif.Sql
open Verif Verif.Pg

theorem before_congr {items : List Item} {db : Db} {ps : List Str} :
    ∀ {ks : List Key} {a a' b b' : Env},
      (∀ k ∈ ks, k.eval items db ps a = k.eval items db ps a') →
      (∀ k ∈ ks, k.eval items db ps b = k.eval items db ps b') →
      before items db ps ks a b = before items db ps ks a' b'
  | [], _, _, _, _, _, _ => rfl
  | k :: ks, a, a', b, b', h, h' => by
    simp only [before]
    rw [h k (by simp), h' k (by simp),
      before_congr (fun k hk => h k (by simp [hk])) (fun k hk => h' k (by simp [hk]))]

/-- Rows that all become something can be sent. -/
theorem sent_of_shown {ρ α : Type} {s : Select} {db : Db} {ps : List Str} {read : List Val → Option ρ}
    {rowf : ρ → Except Err α} : ∀ (envs : List Env),
    (∀ e ∈ envs, ∃ x, s.shown db ps read rowf e = some (.ok x)) →
    ∃ res rows xs, envs.mapM (fun env => s.items.mapM (Item.eval db ps env)) = some res ∧
      res.mapM read = some rows ∧ List.Forall₂ (fun r y => rowf r = .ok y) rows xs ∧
      envs.map (s.shown db ps read rowf) = xs.map (fun x => some (.ok x))
  | [], _ => ⟨[], [], [], rfl, rfl, .nil, rfl⟩
  | e :: envs, h => by
    obtain ⟨res, rows, xs, h1, h2, h3, h4⟩ := sent_of_shown envs fun e' he' => h e' (by simp [he'])
    obtain ⟨x, hx⟩ := h e (by simp)
    have hx' := hx
    simp only [Select.shown] at hx
    cases hi : s.items.mapM (Item.eval db ps e) with
    | none => rw [hi] at hx; cases hx
    | some vs =>
      rw [hi] at hx
      simp only [Option.bind_some] at hx
      cases hr : read vs with
      | none => rw [hr] at hx; cases hx
      | some r =>
        rw [hr] at hx
        refine ⟨vs :: res, r :: rows, x :: xs, ?_, ?_, .cons (Option.some.inj hx) h3, ?_⟩
        · rw [List.mapM_cons, hi, h1]; rfl
        · rw [List.mapM_cons, hr, h2]; rfl
        · simp [hx', h4]

open Classical in
/-- A server that exchanges two rows which ORDER BY does not tell apart. -/
theorem swapped {X ρ α : Type} {s : Select} {db : Db} {ps : List Str} {f : X → Env} {Q : X → Prop}
    (hsol : Solved (s.solutions db ps) f Q) {read : List Val → Option ρ} {rowf : ρ → Except Err α}
    {q : Query ρ} (hg : Gives db s ps read q) (hu : Unbroken q) {xs : List α}
    (h : listRows q rowf = .ok xs) {a b : X} (ha : Q a) (hb : Q b)
    (hk : ∀ k ∈ s.order, k.eval s.items db ps (f a) = k.eval s.items db ps (f b)) :
    ∃ (q' : Query ρ) (xs' : List α), Gives db s ps read q' ∧ Unbroken q' ∧ listRows q' rowf = .ok xs' ∧
      (∃ x, s.shown db ps read rowf (f a) = some (.ok x)) ∧
      (xs' = xs → s.shown db ps read rowf (f a) = s.shown db ps read rowf (f b)) := by
  obtain ⟨envs, h1, h2, h3⟩ := listed_shown hg hu h
  obtain ⟨L, hnd, hL, e⟩ := hsol
  rw [e] at h1
  obtain ⟨L1, hp, rfl⟩ := perm_map_inv h1
  have hm : ∀ x, x ∈ L1 ↔ Q x := fun x => (hp.mem_iff).trans (hL x)
  have hnd1 : L1.Nodup := hp.nodup_iff.2 hnd
  have hin : ∀ x, Q x → Q (Equiv.swap a b x) := by
    intro x hx
    by_cases h1 : x = a
    · rw [h1, Equiv.swap_apply_left]; exact hb
    · by_cases h2 : x = b
      · rw [h2, Equiv.swap_apply_right]; exact ha
      · rw [Equiv.swap_apply_of_ne_of_ne h1 h2]; exact hx
  have hkey : ∀ x, ∀ k ∈ s.order, k.eval s.items db ps (f (Equiv.swap a b x)) =
      k.eval s.items db ps (f x) := by
    intro x k hk'
    by_cases h1 : x = a
    · rw [h1, Equiv.swap_apply_left, hk k hk']
    · by_cases h2 : x = b
      · rw [h2, Equiv.swap_apply_right, hk k hk']
      · rw [Equiv.swap_apply_of_ne_of_ne h1 h2]
  have hperm : (L1.map (Equiv.swap a b)).Perm L1 := by
    refine (List.perm_ext_iff_of_nodup (hnd1.map (Equiv.injective _)) hnd1).2 fun x => ?_
    rw [List.mem_map]
    constructor
    · rintro ⟨y, hy, rfl⟩
      exact (hm _).2 (hin y ((hm y).1 hy))
    · intro hx
      exact ⟨Equiv.swap a b x, (hm _).2 (hin x ((hm x).1 hx)), Equiv.swap_apply_self a b x⟩
  have hshown : ∀ e ∈ (L1.map (Equiv.swap a b)).map f, ∃ x, s.shown db ps read rowf e = some (.ok x) := by
    intro e he
    have he' := ((hperm.map f).mem_iff).1 he
    have := List.mem_map_of_mem (f := s.shown db ps read rowf) he'
    rw [h3] at this
    obtain ⟨x, -, hx⟩ := List.mem_map.1 this
    exact ⟨x, hx.symm⟩
  obtain ⟨res, rows, xs', g1, g2, g3, g4⟩ := sent_of_shown _ hshown
  refine ⟨.ok { rows := rows }, xs', ⟨res, rows, ⟨_, ?_, ?_, g1⟩, g2, List.prefix_refl _, fun _ => rfl⟩,
    by rintro st h; cases h; rfl, (scanLoop_ok _ _ _ _).2 ⟨xs', rfl, g3⟩,
    hshown _ (List.mem_map_of_mem ((hperm.mem_iff).2 ((hm a).2 ha))), ?_⟩
  · rw [e]; exact (hperm.trans hp).map f
  · rw [List.pairwise_map, List.pairwise_map]
    rw [List.pairwise_map] at h2
    refine h2.imp fun {x y} hxy => ?_
    rw [before_congr (hkey x) (hkey y)]
    exact hxy
  · rintro rfl
    rw [← h3, List.map_map, List.map_map, List.map_map] at g4
    have := List.map_inj_left.1 g4 a ((hm a).2 ha)
    simp only [Function.comp, Equiv.swap_apply_left] at this
    exact this.symm

end Verif.Sql
