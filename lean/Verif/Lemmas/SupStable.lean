import Verif.Lemmas.Decay
import Mathlib.LinearAlgebra.FiniteDimensional.Basic
import Mathlib.Algebra.Order.Field.GeomSum
import Mathlib.Algebra.Order.Ring.Pow

/-!
Helper lemmas for C178: banded least-squares problems are stable in the maximum norm, with a constant that does not depend on
their size.
-/

set_option linter.unusedSectionVars false

namespace PySpline

open Spec Finset

variable {K : Type} [Field K] [LinearOrder K] [IsStrictOrderedRing K]

section Abstract
variable {ι : Type} {S : Finset ι} {B : ℕ → ι → K} {m : ℕ} {lam : K} {fixed : ι → Prop}

/-- The energy of the solution is at most that of the data. -/
theorem energy_bound (hlow : ∀ e : ι → K, (∀ i ∈ S, fixed i → e i = 0) →
      lam * ∑ i ∈ S, e i ^ 2 ≤ ∑ r ∈ range m, lin S B e r ^ 2) {x : ι → K} {d : ℕ → K}
    (hx : ∀ i ∈ S, fixed i → x i = 0)
    (hn : ∀ e : ι → K, (∀ i ∈ S, fixed i → e i = 0) → ∑ r ∈ range m, (lin S B x r - d r) * lin S B e r = 0) :
    lam * ∑ i ∈ S, x i ^ 2 ≤ ∑ r ∈ range m, d r ^ 2 := by
  refine (hlow x hx).trans ?_
  have := hn x hx
  have e3 : ∑ r ∈ range m, (lin S B x r - d r) ^ 2
      = ∑ r ∈ range m, d r ^ 2 - ∑ r ∈ range m, lin S B x r ^ 2
        + 2 * ∑ r ∈ range m, (lin S B x r - d r) * lin S B x r := by
    rw [mul_sum, ← sum_sub_distrib, ← sum_add_distrib]
    exact sum_congr rfl fun r _ => by ring
  have e4 : 0 ≤ ∑ r ∈ range m, (lin S B x r - d r) ^ 2 := sum_nonneg fun r _ => sq_nonneg _
  rw [this] at e3
  linarith

theorem lin_add_mul (x y : ι → K) (a : K) (r : ℕ) :
    lin S B (fun i => x i + a * y i) r = lin S B x r + a * lin S B y r := by
  unfold lin
  rw [mul_sum, ← sum_add_distrib]
  exact sum_congr rfl fun i _ => by ring

theorem lin_sum {κ : Type} (G : Finset κ) (x : κ → ι → K) (r : ℕ) :
    lin S B (fun i => ∑ g ∈ G, x g i) r = ∑ g ∈ G, lin S B (x g) r := by
  unfold lin
  rw [sum_comm]
  exact sum_congr rfl fun i _ => by rw [sum_mul]

/-- Stable least-squares problems have solutions. -/
theorem exists_normal_lin (hlam : 0 < lam) (hlow : ∀ e : ι → K, (∀ i ∈ S, fixed i → e i = 0) →
      lam * ∑ i ∈ S, e i ^ 2 ≤ ∑ r ∈ range m, lin S B e r ^ 2) (d : ℕ → K) :
    ∃ x : ι → K, (∀ i, fixed i → x i = 0) ∧
      ∀ e : ι → K, (∀ i ∈ S, fixed i → e i = 0) → ∑ r ∈ range m, (lin S B x r - d r) * lin S B e r = 0 := by
  classical
  set T := S.filter fun i => ¬ fixed i with hT
  let ext : (T → K) → ι → K := fun x i => if h : i ∈ T then x ⟨i, h⟩ else 0
  have hext : ∀ x i, fixed i → ext x i = 0 := fun x i h => dif_neg (by rw [hT, mem_filter]; tauto)
  have hsub : ∀ (x : T → K) (f : ι → K), ∑ i ∈ S, ext x i * f i = ∑ i : T, x i * f i := fun x f => by
    have h1 : ∑ i : T, x i * f i = ∑ i : T, (fun i => ext x i * f i) i := sum_congr rfl fun i _ => by
      simp only [ext]
      rw [dif_pos i.2]
    rw [h1, sum_coe_sort T (fun i => ext x i * f i), hT, sum_filter]
    refine sum_congr rfl fun i hi => ?_
    by_cases h : fixed i
    · rw [hext x i h, if_neg (not_not.2 h), zero_mul]
    · rw [if_pos h]
  let L : (T → K) →ₗ[K] (T → K) :=
    { toFun := fun x i => ∑ r ∈ range m, (∑ j : T, x j * B r j) * B r i
      map_add' := fun x y => by
        funext i
        simp only [Pi.add_apply, add_mul, sum_add_distrib]
      map_smul' := fun s x => by
        funext i
        simp only [Pi.smul_apply, smul_eq_mul, RingHom.id_apply, mul_sum, sum_mul, mul_assoc] }
  have hL : ∀ x i, L x i = ∑ r ∈ range m, lin S B (ext x) r * B r i := fun x i => by
    show ∑ r ∈ range m, (∑ j : T, x j * B r j) * B r i = _
    refine sum_congr rfl fun r _ => ?_
    unfold lin
    rw [hsub]
  have hinj : Function.Injective L := by
    rw [← LinearMap.ker_eq_bot, LinearMap.ker_eq_bot']
    intro x hx
    have h0 : ∑ r ∈ range m, lin S B (ext x) r ^ 2 = 0 := by
      have : ∑ i : T, x i * L x i = 0 := by rw [hx]; simp
      rw [← this]
      simp only [hL, mul_sum]
      rw [sum_comm]
      refine sum_congr rfl fun r _ => ?_
      rw [sq]
      nth_rewrite 2 [show lin S B (ext x) r = ∑ i : T, x i * B r i from hsub x _]
      rw [mul_sum]
      exact sum_congr rfl fun i _ => by ring
    have h1 := hlow (ext x) fun i _ h => hext x i h
    rw [h0] at h1
    have h2 : ∑ i ∈ S, ext x i ^ 2 ≤ 0 := by
      by_contra hc
      have := mul_pos hlam (not_le.1 hc)
      linarith
    have h3 := (sum_eq_zero_iff_of_nonneg fun i (_ : i ∈ S) => sq_nonneg (ext x i)).1
      (le_antisymm h2 (sum_nonneg fun i _ => sq_nonneg _))
    funext i
    have := h3 i (mem_filter.1 i.2).1
    have h4 : ext x i = x i := dif_pos i.2
    rw [h4] at this
    exact pow_eq_zero_iff two_ne_zero |>.1 this
  obtain ⟨x, hx⟩ := (LinearMap.injective_iff_surjective.1 hinj) fun i => ∑ r ∈ range m, d r * B r i
  refine ⟨ext x, hext x, fun e he => ?_⟩
  have hz : ∀ i ∈ S, e i * ∑ r ∈ range m, (lin S B (ext x) r - d r) * B r i = 0 := fun i hi => by
    by_cases h : fixed i
    · rw [he i hi h, zero_mul]
    · have := congrFun hx ⟨i, mem_filter.2 ⟨hi, h⟩⟩
      rw [hL] at this
      simp only [sub_mul, sum_sub_distrib]
      rw [this, sub_self, mul_zero]
  rw [← sum_eq_zero hz]
  unfold lin
  simp only [mul_sum]
  rw [sum_comm]
  exact sum_congr rfl fun i _ => sum_congr rfl fun r _ => by ring

/-- If the influence of every group of data is known, that of all data is at most the sum. -/
theorem sup_of_groups (hlam : 0 < lam) (h1 : ∀ r < m, ∑ i ∈ S, B r i = 1)
    (hlow : ∀ e : ι → K, (∀ i ∈ S, fixed i → e i = 0) →
      lam * ∑ i ∈ S, e i ^ 2 ≤ ∑ r ∈ range m, lin S B e r ^ 2)
    {q : ℕ} (hq : ∀ i ∈ S, ((range m).filter fun r => B r i ≠ 0).card ≤ q) {Θ ω : ι → ι → K}
    (hΘ0 : ∀ g ∈ S, ∀ i ∈ S, 0 ≤ Θ g i)
    (hΘ : ∀ g ∈ S, ∀ (d : ℕ → K) (x : ι → K), (∀ i ∈ S, fixed i → x i = 0) →
      (∀ e : ι → K, (∀ i ∈ S, fixed i → e i = 0) → ∑ r ∈ range m, (lin S B x r - d r) * lin S B e r = 0) →
      (∀ r < m, d r ≠ 0 → B r g ≠ 0) → ∀ i ∈ S, lam * x i ^ 2 ≤ Θ g i * ∑ r ∈ range m, d r ^ 2)
    (hω0 : ∀ g ∈ S, ∀ i ∈ S, 0 ≤ ω g i) (hω : ∀ g ∈ S, ∀ i ∈ S, q * Θ g i ≤ lam * ω g i ^ 2)
    {x : ι → K} {d : ℕ → K} (hx : ∀ i ∈ S, fixed i → x i = 0)
    (hn : ∀ e : ι → K, (∀ i ∈ S, fixed i → e i = 0) → ∑ r ∈ range m, (lin S B x r - d r) * lin S B e r = 0)
    {δ : K} (hδ : 0 ≤ δ) (hd : ∀ r < m, |d r| ≤ δ) {i : ι} (hi : i ∈ S) : |x i| ≤ δ * ∑ g ∈ S, ω g i := by
  classical
  have hact : ∀ r, ∃ g, r < m → g ∈ S ∧ B r g ≠ 0 := fun r => by
    by_cases hr : r < m
    · by_contra hc
      push Not at hc
      have : ∑ i ∈ S, B r i = 0 := sum_eq_zero fun i hi => by
        by_contra h
        exact h ((hc i).2 hi)
      rw [h1 r hr] at this
      exact one_ne_zero this
    · exact ⟨i, fun h => absurd h hr⟩
  choose σ hσ using hact
  have hsol := fun g => exists_normal_lin (S := S) (B := B) (m := m) hlam hlow fun r => if σ r = g then d r else 0
  choose X hXf hXn using hsol
  -- the parts add up to the solution
  have hsum : ∀ i ∈ S, x i = ∑ g ∈ S, X g i := by
    have hfree : ∀ i ∈ S, fixed i → (fun i => x i + (-1) * ∑ g ∈ S, X g i) i = 0 := fun i hi hf => by
      dsimp only
      rw [hx i hi hf, sum_eq_zero fun g _ => hXf g i hf]
      ring
    have := energy_bound hlow (d := fun _ => 0) hfree (fun e he => by
      have h2 : ∑ g ∈ S, ∑ r ∈ range m, (lin S B (X g) r - if σ r = g then d r else 0) * lin S B e r = 0 :=
        sum_eq_zero fun g _ => hXn g e he
      rw [sum_comm] at h2
      have h3 := congrArg₂ (· - ·) (hn e he) h2
      rw [sub_zero, ← sum_sub_distrib] at h3
      refine Eq.trans (sum_congr rfl fun r hr => ?_) h3
      have hr := mem_range.1 hr
      rw [lin_add_mul, lin_sum, ← sum_mul, sum_sub_distrib, sum_ite_eq, if_pos (hσ r hr).1]
      ring)
    have h2 : ∑ i ∈ S, (x i + (-1) * ∑ g ∈ S, X g i) ^ 2 ≤ 0 := by
      by_contra hc
      have h5 := mul_pos hlam (not_le.1 hc)
      simp only [ne_eq, OfNat.ofNat_ne_zero, not_false_eq_true, zero_pow, sum_const_zero] at this
      linarith
    have h3 := (sum_eq_zero_iff_of_nonneg fun i (_ : i ∈ S) => sq_nonneg (x i + (-1) * ∑ g ∈ S, X g i)).1
      (le_antisymm h2 (sum_nonneg fun i _ => sq_nonneg _))
    intro i hi
    have := pow_eq_zero_iff two_ne_zero |>.1 (h3 i hi)
    linarith
  have hpart : ∀ g ∈ S, |X g i| ≤ δ * ω g i := fun g hg => by
    have h2 := hΘ g hg _ (X g) (fun i _ hf => hXf g i hf) (hXn g) (fun r hr h => by
      by_cases hs : σ r = g
      · rw [← hs]; exact (hσ r hr).2
      · rw [if_neg hs] at h; exact absurd rfl h) i hi
    have h3 : ∑ r ∈ range m, (if σ r = g then d r else 0) ^ 2 ≤ q * δ ^ 2 := by
      calc ∑ r ∈ range m, (if σ r = g then d r else 0) ^ 2
          ≤ ∑ r ∈ range m, if B r g ≠ 0 then δ ^ 2 else 0 := by
            refine sum_le_sum fun r hr => ?_
            have hr := mem_range.1 hr
            by_cases hs : σ r = g
            · rw [if_pos hs, if_pos (by rw [← hs]; exact (hσ r hr).2)]
              exact sq_le_sq' (by have := abs_le.1 (hd r hr); linarith) (abs_le.1 (hd r hr)).2
            · rw [if_neg hs]
              split_ifs <;> [skip; norm_num]
              rw [zero_pow two_ne_zero]
              exact sq_nonneg δ
        _ = ((range m).filter fun r => B r g ≠ 0).card * δ ^ 2 := by
            rw [← sum_filter, sum_const, nsmul_eq_mul]
        _ ≤ q * δ ^ 2 := mul_le_mul_of_nonneg_right (by exact_mod_cast hq g hg) (sq_nonneg _)
    have h4 := mul_le_mul_of_nonneg_left h3 (hΘ0 g hg i hi)
    have h5 := mul_le_mul_of_nonneg_right (hω g hg i hi) (sq_nonneg δ)
    refine abs_le_of_sq_le_sq (le_of_mul_le_mul_left (a := lam) ?_ hlam) (mul_nonneg hδ (hω0 g hg i hi))
    rw [mul_pow]
    linarith
  rw [hsum i hi, mul_sum]
  exact (abs_sum_le_sum_abs _ _).trans (sum_le_sum hpart)

/-- Decay with the distance to the data. -/
theorem decay_dist {p q : ℕ} {pos : ι → ℕ} (hlam : 0 < lam) (h0 : ∀ r < m, ∀ i ∈ S, 0 ≤ B r i)
    (h1 : ∀ r < m, ∑ i ∈ S, B r i = 1) (hlow : ∀ e : ι → K, (∀ i ∈ S, fixed i → e i = 0) →
      lam * ∑ i ∈ S, e i ^ 2 ≤ ∑ r ∈ range m, lin S B e r ^ 2)
    (hq : ∀ i ∈ S, ((range m).filter fun r => B r i ≠ 0).card ≤ q)
    (hband : ∀ r < m, ∀ i ∈ S, ∀ j ∈ S, B r i ≠ 0 → B r j ≠ 0 → pos i ≤ pos j + p) {g : ι} (hg : g ∈ S)
    {d : ℕ → K} {x : ι → K} (hx : ∀ i ∈ S, fixed i → x i = 0)
    (hn : ∀ e : ι → K, (∀ i ∈ S, fixed i → e i = 0) → ∑ r ∈ range m, (lin S B x r - d r) * lin S B e r = 0)
    (hd : ∀ r < m, d r ≠ 0 → B r g ≠ 0) {i : ι} (hi : i ∈ S) :
    lam * x i ^ 2 ≤ ((q : K) / (q + 2 * lam)) ^ ((pos i - pos g + (pos g - pos i) - (p + 1)) / (2 * p))
      * ∑ r ∈ range m, d r ^ 2 := by
  have hD : ∀ i ∈ S, ¬ fixed i → ∑ r ∈ range m, B r i ≤ (q : K) := fun i hi _ => by
    refine le_trans ?_ (Nat.cast_le.2 (hq i hi))
    rw [card_eq_sum_ones, Nat.cast_sum, sum_filter]
    refine sum_le_sum fun r hr => ?_
    have hr := mem_range.1 hr
    by_cases h : B r i = 0
    · rw [h, if_neg (by simp)]
    · rw [if_pos h, Nat.cast_one, ← h1 r hr]
      exact single_le_sum (f := fun i => B r i) (fun i hi => h0 r hr i hi) hi
  have hmul := fun {r : ℕ} {j : ι} (hr : r < m) (h : B r j ≠ 0 → B r g ≠ 0 → False) =>
    show d r * B r j = 0 from by
      by_cases h3 : B r j = 0
      · rw [h3, mul_zero]
      · by_cases h4 : d r = 0
        · rw [h4, zero_mul]
        · exact (h h3 (hd r hr h4)).elim
  set s := (pos i - pos g + (pos g - pos i) - (p + 1)) / (2 * p) with hs
  have hs' : 2 * p * s ≤ pos i - pos g + (pos g - pos i) - (p + 1) := by rw [hs]; exact Nat.mul_div_le _ _
  by_cases c1 : pos g + (p + 1) ≤ pos i
  · refine decay_coeff (k := pos g + (p + 1)) (p := p) (pos := pos) hlam (Nat.cast_nonneg q) h0 (fun r hr => (h1 r hr).le) hD
      hlow hband hx hn (fun r hr j hj hk => hmul hr fun a b => ?_) hi (by omega)
    have := hband r hr j hj g hg a b
    omega
  by_cases c2 : pos i + (p + 1) ≤ pos g
  · refine decay_coeff (k := p + 1) (p := p) (pos := fun j => pos g - pos j) hlam (Nat.cast_nonneg q) h0
      (fun r hr => (h1 r hr).le) hD hlow (fun r hr i hi j hj a b => ?_) hx hn
      (fun r hr j hj hk => hmul hr fun a b => ?_) hi (by omega)
    · have := hband r hr j hj i hi b a
      omega
    · have := hband r hr g hg j hj b a
      omega
  have : s = 0 := by rw [hs, show pos i - pos g + (pos g - pos i) - (p + 1) = 0 by omega, Nat.zero_div]
  rw [this, pow_zero, one_mul]
  refine le_trans (mul_le_mul_of_nonneg_left ?_ hlam.le) (energy_bound hlow hx hn)
  exact single_le_sum (f := fun i => x i ^ 2) (fun i _ => sq_nonneg _) hi

/-- The same for solutions whose fixed coefficients are not zero. -/
theorem sup_of_free {C : K} (hC : 1 ≤ C) (h0 : ∀ r < m, ∀ i ∈ S, 0 ≤ B r i) (h1 : ∀ r < m, ∑ i ∈ S, B r i = 1)
    (hsup : ∀ (x : ι → K) (d : ℕ → K) (δ : K), (∀ i ∈ S, fixed i → x i = 0) →
      (∀ e : ι → K, (∀ i ∈ S, fixed i → e i = 0) → ∑ r ∈ range m, (lin S B x r - d r) * lin S B e r = 0) →
      0 ≤ δ → (∀ r < m, |d r| ≤ δ) → ∀ i ∈ S, |x i| ≤ C * δ)
    {y : ι → K} {d : ℕ → K} {δ δ' : K} (hδ : 0 ≤ δ) (hδ' : 0 ≤ δ')
    (hn : ∀ e : ι → K, (∀ i ∈ S, fixed i → e i = 0) → ∑ r ∈ range m, (lin S B y r - d r) * lin S B e r = 0)
    (hd : ∀ r < m, |d r| ≤ δ) (hy : ∀ i ∈ S, fixed i → |y i| ≤ δ') {i : ι} (hi : i ∈ S) : |y i| ≤ C * (δ + δ') := by
  classical
  have hsplit : ∀ r, lin S B y r = lin S B (fun i => if fixed i then 0 else y i) r
      + lin S B (fun i => if fixed i then y i else 0) r := fun r => by
    unfold lin
    rw [← sum_add_distrib]
    refine sum_congr rfl fun i _ => ?_
    dsimp only
    split_ifs <;> ring
  have hb : ∀ r < m, |lin S B (fun i => if fixed i then y i else 0) r| ≤ δ' := fun r hr => by
    unfold lin
    refine (abs_sum_le_sum_abs _ _).trans ?_
    calc ∑ i ∈ S, |(if fixed i then y i else 0) * B r i| ≤ ∑ i ∈ S, δ' * B r i := by
          refine sum_le_sum fun i hi => ?_
          rw [abs_mul, abs_of_nonneg (h0 r hr i hi)]
          refine mul_le_mul_of_nonneg_right ?_ (h0 r hr i hi)
          split_ifs with hf
          · exact hy i hi hf
          · rw [abs_zero]; exact hδ'
      _ = δ' := by rw [← mul_sum, h1 r hr, mul_one]
  by_cases hf : fixed i
  · have := hy i hi hf
    nlinarith
  · have := hsup (fun i => if fixed i then 0 else y i)
      (fun r => d r - lin S B (fun i => if fixed i then y i else 0) r) (δ + δ') (fun i _ hf => if_pos hf)
      (fun e he => Eq.trans (sum_congr rfl fun r _ => by rw [hsplit r]; ring) (hn e he)) (by linarith)
      (fun r hr => (abs_sub _ _).trans (add_le_add (hd r hr) (hb r hr))) i hi
    rwa [if_neg hf] at this

end Abstract

/-! ### Geometric sums -/

theorem sum_pow_div_le {ρ : K} (hρ0 : 0 ≤ ρ) (hρ1 : ρ < 1) {P : ℕ} (hP : 1 ≤ P) (N : ℕ) :
    ∑ j ∈ range N, ρ ^ (j / P) ≤ P / (1 - ρ) := by
  have hpos : 0 < 1 - ρ := by linarith
  calc ∑ j ∈ range N, ρ ^ (j / P) ≤ ∑ j ∈ range (N * P), ρ ^ (j / P) :=
        sum_le_sum_of_subset_of_nonneg (range_subset_range.2 (Nat.le_mul_of_pos_right N hP)) fun j _ _ => pow_nonneg hρ0 _
    _ = ∑ a ∈ range N, ∑ b ∈ range P, ρ ^ a := by
        rw [sum_grid]
        refine sum_congr rfl fun a _ => sum_congr rfl fun b hb => ?_
        rw [mul_comm a, Nat.mul_add_div hP, Nat.div_eq_of_lt (mem_range.1 hb), add_zero]
    _ = P * ∑ a ∈ range N, ρ ^ a := by
        rw [mul_sum]
        exact sum_congr rfl fun a _ => by rw [sum_const, card_range, nsmul_eq_mul]
    _ ≤ P / (1 - ρ) := by
        rw [div_eq_mul_one_div]
        refine mul_le_mul_of_nonneg_left ?_ (Nat.cast_nonneg P)
        rw [le_div_iff₀ hpos]
        have : (∑ a ∈ range N, ρ ^ a) * (1 - ρ) = 1 - ρ ^ N := by
          have := geom_sum_mul_neg ρ N
          exact this
        rw [this]
        have := pow_nonneg hρ0 N
        linarith

theorem sum_pow_shift_le {ρ : K} (hρ0 : 0 ≤ ρ) (hρ1 : ρ < 1) {P : ℕ} (hP : 1 ≤ P) (c N : ℕ) :
    ∑ j ∈ range N, ρ ^ ((j - c) / P) ≤ c + P / (1 - ρ) := by
  calc ∑ j ∈ range N, ρ ^ ((j - c) / P) ≤ ∑ j ∈ range (c + N), ρ ^ ((j - c) / P) :=
        sum_le_sum_of_subset_of_nonneg (range_subset_range.2 (by omega)) fun j _ _ => pow_nonneg hρ0 _
    _ = ∑ j ∈ range c, ρ ^ ((j - c) / P) + ∑ j ∈ range N, ρ ^ (j / P) := by
        rw [sum_range_add]
        congr 1
        exact sum_congr rfl fun j _ => by rw [Nat.add_sub_cancel_left]
    _ ≤ c + P / (1 - ρ) := by
        refine add_le_add ((sum_le_sum fun j _ => pow_le_one₀ hρ0 hρ1.le).trans (le_of_eq (by simp)))
          (sum_pow_div_le hρ0 hρ1 hP N)

/-- Powers of the distance to `i` add up to a number that does not depend on how many there are. -/
theorem sum_pow_dist_le {ρ : K} (hρ0 : 0 ≤ ρ) (hρ1 : ρ < 1) {p : ℕ} (hp : 1 ≤ p) {n i : ℕ} (hi : i < n) :
    ∑ g ∈ range n, ρ ^ ((i - g + (g - i) - (p + 1)) / (2 * p)) ≤ (6 * p + 2) / (1 - ρ) := by
  have hpos : 0 < 1 - ρ := by linarith
  set f : ℕ → K := fun j => ρ ^ ((j - (p + 1)) / (2 * p)) with hf
  have f0 : ∀ j, 0 ≤ f j := fun j => pow_nonneg hρ0 _
  have hF : ∀ N, ∑ j ∈ range N, f j ≤ (p + 1 : ℕ) + (2 * p : ℕ) / (1 - ρ) := fun N =>
    sum_pow_shift_le hρ0 hρ1 (by omega) _ N
  have e1 : ∑ g ∈ range n, f (i - g + (g - i)) ≤ ∑ j ∈ range (i + 1), f j + ∑ j ∈ range (n - i), f j := by
    rw [show n = i + (n - i) by omega, sum_range_add, Nat.add_sub_cancel_left]
    refine add_le_add ?_ (le_of_eq (sum_congr rfl fun j _ => by congr 1; omega))
    rw [← sum_range_reflect, sum_range_succ']
    refine le_trans (le_of_eq (sum_congr rfl fun j hj => ?_)) (le_add_of_nonneg_right (f0 _))
    have := mem_range.1 hj
    congr 1
    omega
  refine e1.trans ((add_le_add (hF _) (hF _)).trans ?_)
  rw [le_div_iff₀ hpos]
  have : (2 * p : ℕ) / (1 - ρ) * (1 - ρ) = ((2 * p : ℕ) : K) := div_mul_cancel₀ _ hpos.ne'
  have hp0 : (0 : K) ≤ p := Nat.cast_nonneg p
  push_cast at this ⊢
  nlinarith

/-! ### Curves and surfaces -/

/-- The constant for curves of degree `p`, with at most `q` data in a support. -/
def supC (p q : ℕ) (lam : K) : K := (3 * p + 1) * (q + lam) * (q + 2 * lam) / lam ^ 2

/-- The constant for surfaces. -/
def supC2 (p p' q : ℕ) (lam : K) : K := 8 * (3 * p + 1) * (3 * p' + 1) * (q + lam) * (q + 2 * lam) ^ 2 / lam ^ 3

theorem one_le_supC (p q : ℕ) {lam : K} (h : 0 < lam) : 1 ≤ supC p q lam := by
  unfold supC
  rw [le_div_iff₀ (by positivity)]
  have hp : (0 : K) ≤ p := Nat.cast_nonneg p
  have hq : (0 : K) ≤ q := Nat.cast_nonneg q
  have h1 : lam * lam ≤ (q + lam) * (q + 2 * lam) := mul_le_mul (by linarith) (by linarith) h.le (by linarith)
  have h2 : (1 : K) ≤ 3 * p + 1 := by linarith
  have h3 := mul_le_mul h2 h1 (by positivity) (by positivity)
  rw [mul_assoc, sq]
  exact h3

theorem one_le_supC2 (p p' q : ℕ) {lam : K} (h : 0 < lam) : 1 ≤ supC2 p p' q lam := by
  unfold supC2
  rw [le_div_iff₀ (by positivity)]
  have hp : (0 : K) ≤ p := Nat.cast_nonneg p
  have hp' : (0 : K) ≤ p' := Nat.cast_nonneg p'
  have hq : (0 : K) ≤ q := Nat.cast_nonneg q
  have h1 : lam * lam ^ 2 ≤ (q + lam) * (q + 2 * lam) ^ 2 :=
    mul_le_mul (by linarith) (pow_le_pow_left₀ h.le (by linarith) 2) (by positivity) (by linarith)
  have h2 : (1 : K) * 1 ≤ (3 * p + 1) * (3 * p' + 1) := mul_le_mul (by linarith) (by linarith) (by norm_num) (by positivity)
  have h4 : (1 : K) ≤ 8 * ((3 * p + 1) * (3 * p' + 1)) := by linarith
  have h3 := mul_le_mul h4 h1 (by positivity) (by positivity)
  calc 1 * lam ^ 3 = 1 * (lam * lam ^ 2) := by ring
    _ ≤ _ := h3
    _ = _ := by ring

/-- `(q + lam) / (2 lam)` is at least the square root of `q / lam`. -/
theorem supC0_sq (q : ℕ) {lam : K} (h : 0 < lam) : (q : K) ≤ lam * ((q + lam) / (2 * lam)) ^ 2 := by
  have e : lam * ((q + lam) / (2 * lam)) ^ 2 = (q + lam) ^ 2 / (4 * lam) := by field_simp; ring
  rw [e, le_div_iff₀ (by positivity)]
  nlinarith [sq_nonneg ((q : K) - lam)]

section Curve
variable {p n m q : ℕ} {U : List K} {t y g : ℕ → K} {lam δ δ' : K}

/-- Least-squares problems of curves are stable in the maximum norm. -/
theorem curve_sup (hU : Clamped p n U) (hp : 1 ≤ p) (hdom : ∀ r < m, knotFn U p ≤ t r ∧ t r ≤ knotFn U n) (hlam : 0 < lam)
    (hq : ∀ i < n, ((range m).filter fun r => Nclosed (knotFn U) p n i (t r) ≠ 0).card ≤ q)
    (hlow : ∀ e : ℕ → K, e 0 = 0 → e (n - 1) = 0 →
      lam * ∑ i ∈ range n, e i ^ 2 ≤ ∑ r ∈ range m, curve (knotFn U) p n e (t r) ^ 2)
    (hn : ∀ e : ℕ → K, e 0 = 0 → e (n - 1) = 0 →
      ∑ r ∈ range m, (curve (knotFn U) p n y (t r) - g r) * curve (knotFn U) p n e (t r) = 0)
    (hδ : 0 ≤ δ) (hg : ∀ r < m, |g r| ≤ δ) (y0 : |y 0| ≤ δ') (y1 : |y (n - 1)| ≤ δ') {i : ℕ} (hi : i < n) :
    |y i| ≤ supC p q lam * (δ + δ') := by
  have hV := monotone_knotFn hU.mono
  have hsz := hU.size
  set B : ℕ → ℕ → K := fun r i => Nclosed (knotFn U) p n i (t r) with hB
  have h0 : ∀ r < m, ∀ i ∈ range n, 0 ≤ B r i := fun r _ i _ => Nclosed_nonneg hV _ _ _ _
  have h1 : ∀ r < m, ∑ i ∈ range n, B r i = 1 := fun r hr => sum_Nclosed hU (hdom r hr).1 (hdom r hr).2
  have hlow' : ∀ e : ℕ → K, (∀ i ∈ range n, (i = 0 ∨ i = n - 1) → e i = 0) →
      lam * ∑ i ∈ range n, e i ^ 2 ≤ ∑ r ∈ range m, lin (range n) B e r ^ 2 := fun e he =>
    hlow e (he 0 (mem_range.2 (by omega)) (.inl rfl)) (he (n - 1) (mem_range.2 (by omega)) (.inr rfl))
  have hq' : ∀ i ∈ range n, ((range m).filter fun r => B r i ≠ 0).card ≤ q := fun i hi => hq i (mem_range.1 hi)
  have hq0 : (0 : K) ≤ q := Nat.cast_nonneg q
  have hpos : 0 < q + 2 * lam := by linarith
  set θ : K := q / (q + 2 * lam) with hθ
  set ρ : K := (q + lam) / (q + 2 * lam) with hρ
  have hθ0 : 0 ≤ θ := div_nonneg hq0 hpos.le
  have hρ0 : 0 ≤ ρ := div_nonneg (by linarith) hpos.le
  have hρ1 : ρ < 1 := by rw [hρ, div_lt_one hpos]; linarith
  have hρ' : 1 - ρ = lam / (q + 2 * lam) := by rw [hρ]; field_simp; ring
  have hθρ : θ ≤ ρ ^ 2 := by
    rw [hθ, hρ, div_pow, div_le_div_iff₀ hpos (by positivity)]
    nlinarith [mul_nonneg hpos.le (sq_nonneg lam)]
  have hC0 : 0 ≤ (q + lam) / (2 * lam) := div_nonneg (by linarith) (by linarith)
  refine sup_of_free (S := range n) (B := B) (m := m) (fixed := fun i => i = 0 ∨ i = n - 1) (one_le_supC p q hlam) h0 h1 ?_
    hδ ((abs_nonneg _).trans y0) (fun e he => hn e (he 0 (mem_range.2 (by omega)) (.inl rfl))
      (he _ (mem_range.2 (by omega)) (.inr rfl))) hg ?_ (mem_range.2 hi)
  · intro x d δ hx hn hδ hd i hi
    have := sup_of_groups (S := range n) (B := B) (m := m) (fixed := fun i => i = 0 ∨ i = n - 1) hlam h1 hlow' hq'
      (Θ := fun g i => θ ^ ((i - g + (g - i) - (p + 1)) / (2 * p)))
      (ω := fun g i => (q + lam) / (2 * lam) * ρ ^ ((i - g + (g - i) - (p + 1)) / (2 * p)))
      (fun g _ i _ => pow_nonneg hθ0 _)
      (fun g hg d x hx hn hd i hi => decay_dist (pos := fun i => i) hlam h0 h1 hlow' hq'
        (fun r _ i _ j _ a b => Nclosed_band hV a b) hg hx hn hd hi)
      (fun g _ i _ => mul_nonneg hC0 (pow_nonneg hρ0 _))
      (fun g _ i _ => by
        generalize (i - g + (g - i) - (p + 1)) / (2 * p) = s
        have h2 : θ ^ s ≤ (ρ ^ s) ^ 2 := by
          rw [← pow_mul, mul_comm, pow_mul]
          exact pow_le_pow_left₀ hθ0 hθρ s
        rw [mul_pow, ← mul_assoc]
        exact mul_le_mul (supC0_sq q hlam) h2 (pow_nonneg hθ0 _) (by positivity)) hx hn hδ hd hi
    refine this.trans ?_
    rw [mul_comm]
    refine mul_le_mul_of_nonneg_right ?_ hδ
    rw [← mul_sum]
    refine (mul_le_mul_of_nonneg_left (sum_pow_dist_le hρ0 hρ1 hp (mem_range.1 hi)) hC0).trans (le_of_eq ?_)
    rw [hρ']
    unfold supC
    field_simp
    ring
  · rintro i - (rfl | rfl)
    · exact y0
    · exact y1

end Curve

section Surface
variable {p n p' n' m q : ℕ} {U V : List K} {u v y g : ℕ → K} {lam δ δ' : K}

/-- Least-squares problems of surfaces are stable in the maximum norm. -/
theorem surface_sup (hU : Clamped p n U) (hV : Clamped p' n' V) (hp : 1 ≤ p) (hp' : 1 ≤ p')
    (hu : ∀ r < m, knotFn U p ≤ u r ∧ u r ≤ knotFn U n) (hv : ∀ r < m, knotFn V p' ≤ v r ∧ v r ≤ knotFn V n') (hlam : 0 < lam)
    (hq : ∀ i < n, ∀ j < n', ((range m).filter fun r =>
      Nclosed (knotFn U) p n i (u r) * Nclosed (knotFn V) p' n' j (v r) ≠ 0).card ≤ q) {bd : ℕ → ℕ → Prop}
    (hlow : ∀ e : ℕ → K, (∀ i < n, ∀ j < n', bd i j → e (i * n' + j) = 0) →
      lam * ∑ i ∈ range n, ∑ j ∈ range n', e (i * n' + j) ^ 2
        ≤ ∑ r ∈ range m, surface (knotFn U) p n (knotFn V) p' n' e (u r) (v r) ^ 2)
    (hn : ∀ e : ℕ → K, (∀ i < n, ∀ j < n', bd i j → e (i * n' + j) = 0) →
      ∑ r ∈ range m, (surface (knotFn U) p n (knotFn V) p' n' y (u r) (v r) - g r)
        * surface (knotFn U) p n (knotFn V) p' n' e (u r) (v r) = 0)
    (hδ : 0 ≤ δ) (hg : ∀ r < m, |g r| ≤ δ) (hδ' : 0 ≤ δ') (hy : ∀ i < n, ∀ j < n', bd i j → |y (i * n' + j)| ≤ δ')
    {i j : ℕ} (hi : i < n) (hj : j < n') : |y (i * n' + j)| ≤ supC2 p p' q lam * (δ + δ') := by
  have mU := monotone_knotFn hU.mono
  have mV := monotone_knotFn hV.mono
  have hdm : ∀ i j, j < n' → (i * n' + j) / n' = i ∧ (i * n' + j) % n' = j := fun i j hj => by
    constructor
    · rw [mul_comm, Nat.mul_add_div (by omega), Nat.div_eq_of_lt hj, add_zero]
    · rw [mul_comm, Nat.mul_add_mod, Nat.mod_eq_of_lt hj]
  set S := range n ×ˢ range n' with hS
  set B : ℕ → ℕ × ℕ → K := fun r i => Nclosed (knotFn U) p n i.1 (u r) * Nclosed (knotFn V) p' n' i.2 (v r) with hB
  have hmem : ∀ i : ℕ × ℕ, i ∈ S → i.1 < n ∧ i.2 < n' := fun i hi => by
    rw [hS, mem_product, mem_range, mem_range] at hi
    exact hi
  have hflat : ∀ (e : ℕ × ℕ → K) r, lin S B e r
      = surface (knotFn U) p n (knotFn V) p' n' (fun l => e (l / n', l % n')) (u r) (v r) := fun e r => by
    rw [← lin_surface]
    unfold lin
    refine sum_congr rfl fun i hi => ?_
    obtain ⟨d1, d2⟩ := hdm i.1 i.2 (hmem i hi).2
    dsimp only
    rw [d1, d2]
  have hfree : ∀ e : ℕ × ℕ → K, (∀ i ∈ S, bd i.1 i.2 → e i = 0) → ∀ i < n, ∀ j < n', bd i j →
      (fun l => e (l / n', l % n')) (i * n' + j) = 0 := fun e he i hi j hj hbd => by
    obtain ⟨d1, d2⟩ := hdm i j hj
    dsimp only
    rw [d1, d2]
    exact he (i, j) (mem_product.2 ⟨mem_range.2 hi, mem_range.2 hj⟩) hbd
  have h0 : ∀ r < m, ∀ i ∈ S, 0 ≤ B r i := fun r _ i _ => mul_nonneg (Nclosed_nonneg mU _ _ _ _) (Nclosed_nonneg mV _ _ _ _)
  have h1 : ∀ r < m, ∑ i ∈ S, B r i = 1 := fun r hr => by
    rw [hS, sum_product]
    simp only [hB]
    rw [← sum_mul_sum, sum_Nclosed hU (hu r hr).1 (hu r hr).2, sum_Nclosed hV (hv r hr).1 (hv r hr).2, one_mul]
  have hlow' : ∀ e : ℕ × ℕ → K, (∀ i ∈ S, bd i.1 i.2 → e i = 0) →
      lam * ∑ i ∈ S, e i ^ 2 ≤ ∑ r ∈ range m, lin S B e r ^ 2 := fun e he => by
    have := hlow (fun l => e (l / n', l % n')) (hfree e he)
    rw [hS, sum_product]
    refine le_trans (le_of_eq ?_) (this.trans (le_of_eq (sum_congr rfl fun r _ => by rw [hflat])))
    congr 1
    refine sum_congr rfl fun i _ => sum_congr rfl fun j hj => ?_
    obtain ⟨d1, d2⟩ := hdm i j (mem_range.1 hj)
    rw [d1, d2]
  have hq' : ∀ i ∈ S, ((range m).filter fun r => B r i ≠ 0).card ≤ q := fun i hi => hq i.1 (hmem i hi).1 i.2 (hmem i hi).2
  have hne : ∀ r (i : ℕ × ℕ), B r i ≠ 0 → Nclosed (knotFn U) p n i.1 (u r) ≠ 0 ∧
      Nclosed (knotFn V) p' n' i.2 (v r) ≠ 0 := fun r i h => ⟨left_ne_zero_of_mul h, right_ne_zero_of_mul h⟩
  have hq0 : (0 : K) ≤ q := Nat.cast_nonneg q
  have hpos : 0 < q + 2 * lam := by linarith
  set θ : K := q / (q + 2 * lam) with hθ
  set ξ : K := lam / (2 * (q + 2 * lam)) with hξ
  set ρ : K := 1 - ξ with hρ
  have hξ0 : 0 < ξ := div_pos hlam (by linarith)
  have hξ1 : ξ ≤ 1 := by rw [hξ, div_le_one (by linarith)]; linarith
  have hθ0 : 0 ≤ θ := div_nonneg hq0 hpos.le
  have hρ0 : 0 ≤ ρ := by linarith
  have hρ1 : ρ < 1 := by linarith
  have hθρ : θ ≤ ρ ^ 4 := by
    have := one_add_mul_le_pow (a := -ξ) (by linarith) 4
    have e : θ = 1 + (4 : ℕ) * -ξ := by rw [hθ, hξ]; field_simp; push_cast; ring
    rw [e, hρ, sub_eq_add_neg]
    exact this
  have hC0 : 0 ≤ (q + lam) / (2 * lam) := div_nonneg (by linarith) (by linarith)
  have := sup_of_free (S := S) (B := B) (m := m) (fixed := fun i => bd i.1 i.2) (y := fun i => y (i.1 * n' + i.2))
    (one_le_supC2 p p' q hlam) h0 h1 ?_ hδ hδ' (fun e he => ?_) hg (fun i hi hb => hy _ (hmem i hi).1 _ (hmem i hi).2 hb)
    (i := (i, j)) (mem_product.2 ⟨mem_range.2 hi, mem_range.2 hj⟩)
  · exact this
  · intro x d δ hx hn hδ hd i hi
    set a : ℕ × ℕ → ℕ × ℕ → ℕ := fun g i => (i.1 - g.1 + (g.1 - i.1) - (p + 1)) / (2 * p) with ha
    set b : ℕ × ℕ → ℕ × ℕ → ℕ := fun g i => (i.2 - g.2 + (g.2 - i.2) - (p' + 1)) / (2 * p') with hb
    have := sup_of_groups (S := S) (B := B) (m := m) (fixed := fun i => bd i.1 i.2) hlam h1 hlow' hq'
      (Θ := fun g i => θ ^ max (a g i) (b g i))
      (ω := fun g i => (q + lam) / (2 * lam) * (ρ ^ a g i * ρ ^ b g i))
      (fun g _ i _ => pow_nonneg hθ0 _)
      (fun g hg d x hx hn hd i hi => by
        rcases max_choice (a g i) (b g i) with h | h <;> rw [h]
        · exact decay_dist (pos := fun i => i.1) hlam h0 h1 hlow' hq'
            (fun r _ i _ j _ a b => Nclosed_band mU (hne r i a).1 (hne r j b).1) hg hx hn hd hi
        · exact decay_dist (pos := fun i => i.2) hlam h0 h1 hlow' hq'
            (fun r _ i _ j _ a b => Nclosed_band mV (hne r i a).2 (hne r j b).2) hg hx hn hd hi)
      (fun g _ i _ => mul_nonneg hC0 (mul_nonneg (pow_nonneg hρ0 _) (pow_nonneg hρ0 _)))
      (fun g _ i _ => by
        generalize a g i = s, b g i = s'
        have h2 : θ ^ max s s' ≤ (ρ ^ s * ρ ^ s') ^ 2 := by
          rw [← pow_add, ← pow_mul]
          refine (pow_le_pow_left₀ hθ0 hθρ _).trans ?_
          rw [← pow_mul]
          exact pow_le_pow_of_le_one hρ0 hρ1.le (by omega)
        rw [mul_pow, ← mul_assoc]
        exact mul_le_mul (supC0_sq q hlam) h2 (pow_nonneg hθ0 _) (by positivity)) hx hn hδ hd hi
    refine this.trans ?_
    rw [mul_comm]
    refine mul_le_mul_of_nonneg_right ?_ hδ
    rw [← mul_sum, hS, sum_product]
    simp only [ha, hb]
    rw [← sum_mul_sum]
    refine (mul_le_mul_of_nonneg_left (mul_le_mul (sum_pow_dist_le hρ0 hρ1 hp (hmem i hi).1)
      (sum_pow_dist_le hρ0 hρ1 hp' (hmem i hi).2) (sum_nonneg fun g _ => pow_nonneg hρ0 _)
      (div_nonneg (by positivity) (by linarith))) hC0).trans (le_of_eq ?_)
    rw [show 1 - ρ = lam / (2 * (q + 2 * lam)) by rw [hρ, hξ]; ring]
    unfold supC2
    field_simp
    ring
  · refine Eq.trans (sum_congr rfl fun r _ => ?_) (hn (fun l => e (l / n', l % n')) (hfree e he))
    rw [hflat e r, show lin S B (fun i => y (i.1 * n' + i.2)) r = _ from lin_surface _ _ _ _ _ _ _ _ _ _]

end Surface

end PySpline
