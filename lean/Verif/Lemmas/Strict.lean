import Verif.Lemmas.CurveMore

/-!
# Slopes and strict monotonicity of splines
-/

set_option linter.unusedSectionVars false

namespace PySpline

open Spec Finset

section
variable {K : Type} [Field K] [LinearOrder K] [IsStrictOrderedRing K] {p n : ℕ} {U : List K}

/-- Monotone from step to step. -/
theorem mono_of_step {c : ℕ → K} (h : ∀ i, i + 1 < n → c i ≤ c (i + 1)) : ∀ i j, i ≤ j → j < n → c i ≤ c j := by
  intro i j hij
  induction j, hij using Nat.le_induction with
  | base => intro _; exact le_rfl
  | succ j _ ih => exact fun hj => (ih (by omega)).trans (h j hj)

/-- A lower bound of the slopes of the control polygon is one for the spline. -/
theorem curve_slope_ge (hU : Clamped p n U) (hp : 1 ≤ p) {c : ℕ → K} {m : K}
    (hc : ∀ i, i + 1 < n → m * (knotFn U (i + p + 1) - knotFn U (i + 1)) ≤ (c (i + 1) - c i) * p) {s t : K}
    (h0 : knotFn U p ≤ s) (hst : s ≤ t) (h1 : t ≤ knotFn U n) :
    m * (t - s) ≤ curve (knotFn U) p n c t - curve (knotFn U) p n c s := by
  have hp0 : (0 : K) < p := by exact_mod_cast hp
  have key := curve_monotone hU hp (c := fun i => c i - m * greville (knotFn U) p i) (mono_of_step fun i hi => by
    have h := hc i hi
    have e : m * (knotFn U (i + p + 1) - knotFn U (i + 1)) / p ≤ c (i + 1) - c i := by
      rw [div_le_iff₀ hp0]; exact h
    rw [mul_div_assoc, ← greville_succ_sub _ hp] at e
    linarith) (by rw [← hU.left p le_rfl]; exact h0) hst (by rw [← hU.right n le_rfl (by omega)]; exact h1)
  rw [curve_sub, curve_sub, curve_greville hU hp h0 (hst.trans h1), curve_greville hU hp (h0.trans hst) h1] at key
  linarith

theorem curve_neg' (c : ℕ → K) (u : K) : curve (knotFn U) p n (fun i => - c i) u = - curve (knotFn U) p n c u := by
  unfold curve
  rw [← sum_neg_distrib]
  exact sum_congr rfl fun i _ => by ring

/-- An upper bound. -/
theorem curve_slope_le (hU : Clamped p n U) (hp : 1 ≤ p) {c : ℕ → K} {M : K}
    (hc : ∀ i, i + 1 < n → (c (i + 1) - c i) * p ≤ M * (knotFn U (i + p + 1) - knotFn U (i + 1))) {s t : K}
    (h0 : knotFn U p ≤ s) (hst : s ≤ t) (h1 : t ≤ knotFn U n) :
    curve (knotFn U) p n c t - curve (knotFn U) p n c s ≤ M * (t - s) := by
  have := curve_slope_ge hU hp (c := fun i => - c i) (m := -M) (fun i hi => by have := hc i hi; linarith) h0 hst h1
  rw [curve_neg', curve_neg'] at this
  linarith

theorem curve_const (hU : Clamped p n U) {b u : K} (h0 : knotFn U p ≤ u) (h1 : u ≤ knotFn U n) :
    curve (knotFn U) p n (fun _ => b) u = b := by
  unfold curve
  rw [← mul_sum, sum_Nclosed hU h0 h1, mul_one]

/-- If the coefficients do not decrease, and on no span all coefficients that act there are equal, the spline is
strictly increasing. -/
theorem curve_strict (hU : Clamped p n U) (hp : 1 ≤ p) {c : ℕ → K} (hc : ∀ i, i + 1 < n → c i ≤ c (i + 1))
    (hk : ∀ k, p ≤ k → k < n → knotFn U k < knotFn U (k + 1) → c (k - p) < c k) {s t : K} (h0 : knotFn U p ≤ s)
    (hst : s < t) (h1 : t ≤ knotFn U n) : curve (knotFn U) p n c s < curve (knotFn U) p n c t := by
  have hmono : ∀ {x y : K}, knotFn U p ≤ x → x ≤ y → y ≤ knotFn U n →
      curve (knotFn U) p n c x ≤ curve (knotFn U) p n c y := fun h2 h3 h4 =>
    curve_monotone hU hp (mono_of_step hc) (by rw [← hU.left p le_rfl]; exact h2) h3
      (by rw [← hU.right n le_rfl (by omega)]; exact h4)
  refine lt_of_le_of_ne (hmono h0 hst.le h1) fun he => ?_
  obtain ⟨k, k1, k2, k3, k4⟩ := exists_span h0 (hst.trans_le h1) hU.size.le
  have hlt := hk k k1 k2 (k3.trans_lt k4)
  obtain ⟨x, x1, x2, x3⟩ := exists_ne_zero hU (fun i => c i - curve (knotFn U) p n c s * 1) k1 k2
    (lt_min hst k4) k3 (min_le_right _ _) (by
      by_contra hcon
      push Not at hcon
      have a1 := hcon (k - p) (by omega) (by omega)
      have a2 := hcon k (by omega) le_rfl
      linarith)
  have hxt : x < t := x2.trans_le (min_le_left _ _)
  refine x3 ?_
  rw [curve_sub c (fun _ => 1), curve_const hU (h0.trans x1.le) (hxt.le.trans h1), mul_one, sub_eq_zero]
  refine le_antisymm ?_ (hmono h0 x1.le (hxt.le.trans h1))
  rw [he]
  exact hmono (h0.trans x1.le) hxt.le h1

/-- Where all coefficients that act are equal, the spline is constant. -/
theorem curve_flat (hU : Clamped p n U) {c : ℕ → K} {k : ℕ} (hpk : p ≤ k)
    (hc : ∀ i, k - p ≤ i → i ≤ k → c i = c k) {s : K} (h0 : knotFn U k < s) (h1 : s < knotFn U (k + 1))
    (h2 : s ≤ knotFn U n) : curve (knotFn U) p n c s = c k := by
  have hV := monotone_knotFn hU.mono
  have hp' : knotFn U p ≤ s := (hV hpk).trans h0.le
  have hn' : s ≤ knotFn U (n + p) := by rw [← hU.right n le_rfl (by omega)]; exact h2
  have hact : ∀ i, knotFn U i ≤ s → s ≤ knotFn U (i + p + 1) → c i = c k := by
    intro i a b
    refine hc i ?_ ?_
    · by_contra hcon
      exact absurd (b.trans (hV (show i + p + 1 ≤ k by omega))) (not_le.2 h0)
    · by_contra hcon
      exact absurd ((hV (show k + 1 ≤ i by omega)).trans a) (not_le.2 h1)
  refine le_antisymm (curve_le hU hp' hn' fun i _ a b => (hact i a b).le) ?_
  have := curve_le hU hp' hn' (c := fun i => - c i) (b := - c k) fun i _ a b => (neg_le_neg (hact i a b).ge)
  rw [curve_neg'] at this
  linarith

/-- The condition is necessary. -/
theorem curve_strict_iff (hU : Clamped p n U) (hp : 1 ≤ p) {c : ℕ → K} (hc : ∀ i, i + 1 < n → c i ≤ c (i + 1)) :
    (∀ s t, knotFn U p ≤ s → s < t → t ≤ knotFn U n → curve (knotFn U) p n c s < curve (knotFn U) p n c t) ↔
      ∀ k, p ≤ k → k < n → knotFn U k < knotFn U (k + 1) → c (k - p) < c k := by
  have hV := monotone_knotFn hU.mono
  refine ⟨fun h k k1 k2 k3 => ?_, fun h s t h0 hst h1 => curve_strict hU hp hc h h0 hst h1⟩
  have hm := mono_of_step hc
  refine lt_of_le_of_ne (hm _ _ (by omega) k2) fun he => ?_
  obtain ⟨x, x1, x2⟩ := exists_between k3
  obtain ⟨y, y1, y2⟩ := exists_between x2
  have hc' : ∀ i, k - p ≤ i → i ≤ k → c i = c k := fun i a b =>
    le_antisymm (hm i k b k2) (he ▸ hm _ i a (by omega))
  have hn : knotFn U (k + 1) ≤ knotFn U n := hV (by omega)
  have := h x y ((hV k1).trans x1.le) y1 (y2.le.trans hn)
  rw [curve_flat hU k1 hc' x1 x2 (x2.le.trans hn), curve_flat hU k1 hc' (x1.trans y1) y2 (y2.le.trans hn)] at this
  exact this.false

/-- If each coefficient is smaller than the other, so is the value. -/
theorem curve_lt_curve (hU : Clamped p n U) {c d : ℕ → K} (h : ∀ i < n, c i < d i) {u : K} (h0 : knotFn U p ≤ u)
    (h1 : u ≤ knotFn U n) : curve (knotFn U) p n c u < curve (knotFn U) p n d u := by
  have hV := monotone_knotFn hU.mono
  have hsum := sum_Nclosed hU h0 h1
  unfold curve
  refine sum_lt_sum (fun i hi => mul_le_mul_of_nonneg_right (h i (mem_range.1 hi)).le (Nclosed_nonneg hV _ _ _ _)) ?_
  by_contra hcon
  push Not at hcon
  have : ∑ i ∈ range n, Nclosed (knotFn U) p n i u = 0 := by
    refine sum_eq_zero fun i hi => ?_
    have a := hcon i hi
    have b := h i (mem_range.1 hi)
    have b' := Nclosed_nonneg hV p n i u
    by_contra hne
    have := mul_lt_mul_of_pos_right b (lt_of_le_of_ne b' (Ne.symm hne))
    linarith
  rw [this] at hsum
  exact zero_ne_one hsum

end

end PySpline
