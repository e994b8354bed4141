import Mathlib.Combinatorics.Hall.Basic
import Mathlib.Data.Finset.Sort
import Mathlib.LinearAlgebra.FiniteDimensional.Lemmas
import Mathlib.LinearAlgebra.Dimension.Constructions
import Verif.Props.FitUnique

/-!
# Necessity of the Schoenberg–Whitney condition

A matching between basis functions and data exists by Hall's theorem if only the zero spline vanishes on the
data; sorted, it satisfies the condition.
-/

set_option linter.unusedSectionVars false

namespace PySpline

open Spec Finset

variable {K : Type} [Field K] [LinearOrder K] [IsStrictOrderedRing K]

/-- A basis function vanishes at the left end of its support, unless that end has full multiplicity. -/
theorem N_left_zero {V : ℕ → K} (hV : Monotone V) (p : ℕ) : ∀ j u, u ≤ V j → u < V (j + p) → N V p j u = 0 := by
  induction p with
  | zero => exact fun j u _ h => N_zero_of_not_support hV (Or.inl h)
  | succ p ih =>
    intro j u h1 h2
    unfold N
    rw [ih (j + 1) u (h1.trans (hV (by omega))) (by rwa [show j + 1 + p = j + (p + 1) by omega]), mul_zero, add_zero]
    rcases h1.eq_or_lt with h | h
    · rw [h, sub_self, zero_div, zero_mul]
    · rw [N_zero_of_not_support hV (Or.inl h), mul_zero]

/-- Intervals with ascending ends that can be matched with distinct points are matched by the points in order. -/
theorem sorted_matching {q : ℕ} {a b : Fin q → K} (ha : Monotone a) (hb : Monotone b) {f : Fin q → K}
    (hf : Function.Injective f) (h : ∀ i, a i < f i ∧ f i < b i) :
    ∃ g : Fin q → K, StrictMono g ∧ (∀ i, a i < g i ∧ g i < b i) ∧ ∀ i, ∃ j, g i = f j := by
  classical
  set T := univ.image f with hT
  have hcard : T.card = q := by rw [hT, card_image_of_injective _ hf, card_univ, Fintype.card_fin]
  set g := T.orderEmbOfFin hcard with hg
  have hr : ∀ i, ∃ j, g i = f j := by
    intro i
    obtain ⟨j, -, hj⟩ := mem_image.1 (orderEmbOfFin_mem T hcard i)
    exact ⟨j, hj.symm⟩
  have hs : ∀ i, ∃ j, g j = f i := by
    intro i
    have : f i ∈ Set.range g := by
      rw [hg, range_orderEmbOfFin]
      exact mem_coe.2 (mem_image_of_mem f (mem_univ i))
    exact this
  choose s hs using hs
  have sinj : Function.Injective s := fun x y hxy => hf (by rw [← hs x, ← hs y, hxy])
  refine ⟨g, g.strictMono, fun k => ⟨?_, ?_⟩, hr⟩
  · by_contra hc
    push Not at hc
    have : ((univ.filter fun i : Fin q => k ≤ i).image s) ⊆ univ.filter fun i : Fin q => k < i := by
      intro x hx
      obtain ⟨i, hi, rfl⟩ := mem_image.1 hx
      have hi := (mem_filter.1 hi).2
      refine mem_filter.2 ⟨mem_univ _, g.strictMono.lt_iff_lt.1 ?_⟩
      rw [hs i]
      exact hc.trans_lt ((ha hi).trans_lt (h i).1)
    have h1 := card_le_card this
    rw [card_image_of_injective _ sinj] at h1
    have h2 : (univ.filter fun i : Fin q => k < i) ⊂ univ.filter fun i : Fin q => k ≤ i := by
      refine ⟨fun x hx => ?_, fun hx => ?_⟩
      · exact mem_filter.2 ⟨mem_univ _, (mem_filter.1 hx).2.le⟩
      · have := hx (mem_filter.2 ⟨mem_univ k, le_rfl⟩)
        exact lt_irrefl _ (mem_filter.1 this).2
    exact absurd h1 (card_lt_card h2).not_ge
  · by_contra hc
    push Not at hc
    have : ((univ.filter fun i : Fin q => i ≤ k).image s) ⊆ univ.filter fun i : Fin q => i < k := by
      intro x hx
      obtain ⟨i, hi, rfl⟩ := mem_image.1 hx
      have hi := (mem_filter.1 hi).2
      refine mem_filter.2 ⟨mem_univ _, g.strictMono.lt_iff_lt.1 ?_⟩
      rw [hs i]
      exact ((h i).2.trans_le (hb hi)).trans_le hc
    have h1 := card_le_card this
    rw [card_image_of_injective _ sinj] at h1
    have h2 : (univ.filter fun i : Fin q => i < k) ⊂ univ.filter fun i : Fin q => i ≤ k := by
      refine ⟨fun x hx => ?_, fun hx => ?_⟩
      · exact mem_filter.2 ⟨mem_univ _, (mem_filter.1 hx).2.le⟩
      · have := hx (mem_filter.2 ⟨mem_univ k, le_rfl⟩)
        exact lt_irrefl _ (mem_filter.1 this).2
    exact absurd h1 (card_lt_card h2).not_ge

/-- A family of functions that is linearly independent on a finite set can be matched with points of the set at
which the functions do not vanish. -/
theorem exists_matching {q : ℕ} (B : Fin q → K → K) (T : Finset K)
    (h : ∀ e : Fin q → K, (∀ x ∈ T, ∑ j, e j * B j x = 0) → e = 0) :
    ∃ f : Fin q → K, Function.Injective f ∧ ∀ j, f j ∈ T ∧ B j (f j) ≠ 0 := by
  classical
  obtain ⟨f, hf, hm⟩ := (Finset.all_card_le_biUnion_card_iff_exists_injective
    (fun j : Fin q => T.filter fun x => B j x ≠ 0)).1 (by
      intro s
      by_contra hlt
      push Not at hlt
      set R := s.biUnion fun j => T.filter fun x => B j x ≠ 0 with hR
      let L : (s → K) →ₗ[K] (R → K) :=
        { toFun := fun e x => ∑ j : s, e j * B j x
          map_add' := fun e e' => by funext x; simp [add_mul, sum_add_distrib]
          map_smul' := fun c e => by funext x; simp [mul_sum, mul_assoc] }
      have hk : LinearMap.ker L ≠ ⊥ := by
        refine LinearMap.ker_ne_bot_of_finrank_lt ?_
        rw [Module.finrank_fintype_fun_eq_card, Module.finrank_fintype_fun_eq_card, Fintype.card_coe, Fintype.card_coe]
        exact hlt
      obtain ⟨e, he, hne⟩ := (Submodule.ne_bot_iff _).1 hk
      have hL : ∀ x : R, ∑ j : s, e j * B j x = 0 := fun x => congrFun (LinearMap.mem_ker.1 he) x
      have key := h (fun j => if hj : j ∈ s then e ⟨j, hj⟩ else 0) (by
        intro x hx
        have hsum : ∑ j : Fin q, (if hj : j ∈ s then e ⟨j, hj⟩ else 0) * B j x = ∑ j : s, e j * B j x := by
          rw [← Finset.sum_subset (s₁ := s) (subset_univ s) (fun j _ hj => by rw [dif_neg hj, zero_mul]),
            ← Finset.sum_coe_sort s]
          exact Finset.sum_congr rfl fun j _ => by rw [dif_pos j.2]
        rw [hsum]
        by_cases hxR : x ∈ R
        · exact hL ⟨x, hxR⟩
        · refine Finset.sum_eq_zero fun j _ => ?_
          have : B j x = 0 := by
            by_contra hb
            exact hxR (mem_biUnion.2 ⟨j, j.2, mem_filter.2 ⟨hx, hb⟩⟩)
          rw [this, mul_zero])
      refine hne (funext fun j => ?_)
      have := congrFun key j
      rw [dif_pos j.2] at this
      exact this)
  exact ⟨f, hf, fun j => mem_filter.1 (hm j)⟩

/-- If only the zero spline with vanishing ends vanishes at all data parameters, they satisfy the
Schoenberg–Whitney condition. -/
theorem determined_of_injective {p n m : ℕ} {U : List K} (hU : Clamped p n U)
    (hmult : ∀ j, 1 ≤ j → j + 1 < n → knotFn U j < knotFn U (j + p)) {t : ℕ → K}
    (h : ∀ e : ℕ → K, e 0 = 0 → e (n - 1) = 0 → (∀ r < m, curve (knotFn U) p n e (t r) = 0) → ∀ i < n, e i = 0) :
    Determined p n (knotFn U) m t := by
  classical
  have hV := monotone_knotFn hU.mono
  have hsz := hU.size
  by_cases hn : n < 3
  · exact ⟨fun _ => 0, fun j h1 h2 => by omega, fun j h1 h2 => by omega⟩
  obtain ⟨q, rfl⟩ : ∃ q, n = q + 2 := ⟨n - 2, by omega⟩
  obtain ⟨f, hf, hm⟩ := exists_matching (fun (j : Fin q) x => Nclosed (knotFn U) p (q + 2) (j + 1) x)
    ((range m).image t) (by
      intro e he
      have := h (fun i => if hi : 1 ≤ i ∧ i < q + 1 then e ⟨i - 1, by omega⟩ else 0) (dif_neg (by omega))
        (dif_neg (by omega)) (by
          intro r hr
          have := he (t r) (mem_image_of_mem t (mem_range.2 hr))
          unfold curve
          rw [Finset.sum_range_succ, Finset.sum_range_succ']
          beta_reduce
          rw [dif_neg (by omega), dif_neg (by omega), zero_mul,
            zero_mul, add_zero, add_zero, ← this, Finset.sum_range]
          refine Finset.sum_congr rfl fun j _ => ?_
          rw [dif_pos ⟨by omega, by omega⟩]
          rfl)
      funext j
      have := this (j + 1) (by omega)
      rw [dif_pos ⟨by omega, by omega⟩] at this
      exact this)
  have hsupp : ∀ j : Fin q, knotFn U (j + 1) < f j ∧ f j < knotFn U (j + 1 + p + 1) := by
    intro j
    have hb := (hm j).2
    unfold Nclosed at hb
    split at hb
    · rw [if_neg (by omega)] at hb
      exact absurd rfl hb
    · obtain ⟨h1, h2⟩ := N_support hV hb
      refine ⟨lt_of_le_of_ne h1 fun heq => hb (N_left_zero hV p _ _ heq.ge ?_), h2⟩
      rw [← heq]
      exact hmult (j + 1) (by omega) (by omega)
  obtain ⟨g, hg, hgs, hgf⟩ := sorted_matching (a := fun j : Fin q => knotFn U (j + 1))
    (b := fun j : Fin q => knotFn U (j + 1 + p + 1))
    (fun i j hij => hV (by have : (i : ℕ) ≤ j := hij; omega)) (fun i j hij => hV (by have : (i : ℕ) ≤ j := hij; omega))
    hf hsupp
  have hr : ∀ j : Fin q, ∃ r < m, t r = g j := by
    intro j
    obtain ⟨i, hi⟩ := hgf j
    obtain ⟨r, hr, hrt⟩ := mem_image.1 (hm i).1
    exact ⟨r, mem_range.1 hr, hrt.trans hi.symm⟩
  choose r hrm hrt using hr
  refine ⟨fun j => if hj : 1 ≤ j ∧ j < q + 1 then r ⟨j - 1, by omega⟩ else 0, fun j h1 h2 => ?_, fun j h1 h2 => ?_⟩
  · beta_reduce
    rw [dif_pos ⟨h1, by omega⟩]
    refine ⟨hrm _, ?_⟩
    rw [hrt]
    have := hgs ⟨j - 1, by omega⟩
    dsimp only at this
    rwa [show j - 1 + 1 = j by omega] at this
  · beta_reduce
    rw [dif_pos ⟨h1, by omega⟩, dif_pos ⟨by omega, by omega⟩, hrt, hrt]
    exact hg (Fin.mk_lt_mk.2 (by omega))

end PySpline
