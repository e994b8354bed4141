import Verif.Model.Cutoff
import Mathlib.LinearAlgebra.Matrix.NonsingularInverse
import Mathlib.Tactic.FieldSimp
import Mathlib.Tactic.Linarith

/-!
# Least squares with a cutoff
-/

set_option linter.unusedSectionVars false

namespace PySpline

open Finset

variable {K : Type} [Field K] [LinearOrder K] [IsStrictOrderedRing K] {A : ℕ → ℕ → K} {m n : ℕ} {v : ℕ → ℕ → K}

/-- The squared residual. -/
def resid (A : ℕ → ℕ → K) (m n : ℕ) (b x : ℕ → K) : K := ∑ r ∈ range m, (matVec A n x r - b r) ^ 2

/-- The component along the `i`-th singular vector. -/
def comp (n : ℕ) (v : ℕ → ℕ → K) (x : ℕ → K) (i : ℕ) : K := ∑ k ∈ range n, x k * v i k

theorem SingularBasis.inner (h : SingularBasis A m n v) {i j : ℕ} (hi : i < n) (hj : j < n) :
    ∑ k ∈ range n, v i k * v j k = if i = j then 1 else 0 := by
  split_ifs with e
  · subst e; exact h.unit i hi
  · exact h.orth i hi j hj e

/-- Orthonormal rows: the columns are orthonormal as well. -/
theorem SingularBasis.inner' (h : SingularBasis A m n v) {k l : ℕ} (hk : k < n) (hl : l < n) :
    ∑ i ∈ range n, v i k * v i l = if k = l then 1 else 0 := by
  let V : Matrix (Fin n) (Fin n) K := fun i k => v i k
  have h1 : V * V.transpose = 1 := by
    ext i j
    rw [Matrix.mul_apply, Matrix.one_apply]
    have := h.inner i.2 j.2
    rw [← Fin.sum_univ_eq_sum_range (fun k => v i k * v j k)] at this
    simp only [Fin.ext_iff]
    exact this
  have h2 : V.transpose * V = 1 := mul_eq_one_comm.1 h1
  have := congrFun (congrFun h2 ⟨k, hk⟩) ⟨l, hl⟩
  rw [Matrix.mul_apply, Matrix.one_apply] at this
  rw [← Fin.sum_univ_eq_sum_range (fun i => v i k * v i l)]
  simp only [Fin.ext_iff] at this
  exact this

theorem SingularBasis.expand (h : SingularBasis A m n v) (x : ℕ → K) {k : ℕ} (hk : k < n) :
    ∑ i ∈ range n, comp n v x i * v i k = x k := by
  unfold comp
  simp only [sum_mul]
  rw [sum_comm]
  have : ∀ l ∈ range n, ∑ i ∈ range n, x l * v i l * v i k = if l = k then x l else 0 := by
    intro l hl
    simp only [mul_assoc]
    rw [← mul_sum, h.inner' (mem_range.1 hl) hk]
    split_ifs <;> simp
  rw [sum_congr rfl this, sum_ite_eq', if_pos (mem_range.2 hk)]

theorem SingularBasis.comp_comb (h : SingularBasis A m n v) (c : ℕ → K) {i : ℕ} (hi : i < n) :
    comp n v (fun k => ∑ j ∈ range n, c j * v j k) i = c i := by
  unfold comp
  simp only [sum_mul]
  rw [sum_comm]
  have : ∀ j ∈ range n, ∑ k ∈ range n, c j * v j k * v i k = if j = i then c j else 0 := by
    intro j hj
    simp only [mul_assoc]
    rw [← mul_sum, h.inner (mem_range.1 hj) hi]
    split_ifs <;> simp
  rw [sum_congr rfl this, sum_ite_eq', if_pos (mem_range.2 hi)]

theorem SingularBasis.normSq (h : SingularBasis A m n v) (x : ℕ → K) :
    ∑ k ∈ range n, x k ^ 2 = ∑ i ∈ range n, comp n v x i ^ 2 := by
  have : ∀ i ∈ range n, comp n v x i ^ 2 = ∑ k ∈ range n, x k * (comp n v x i * v i k) := by
    intro i _
    rw [sq]
    conv_lhs => rw [comp]
    rw [sum_mul]
    exact sum_congr rfl fun k _ => by rw [← comp]; ring
  rw [sum_congr rfl this, sum_comm]
  refine sum_congr rfl fun k hk => ?_
  rw [← mul_sum, h.expand x (mem_range.1 hk), sq]

theorem SingularBasis.matVec_eq (h : SingularBasis A m n v) (x : ℕ → K) (r : ℕ) :
    matVec A n x r = ∑ i ∈ range n, comp n v x i * matVec A n (v i) r := by
  unfold matVec
  simp only [mul_sum]
  rw [sum_comm]
  refine sum_congr rfl fun k hk => ?_
  conv_lhs => rw [← h.expand x (mem_range.1 hk), mul_sum]
  exact sum_congr rfl fun i _ => by ring

theorem SingularBasis.energy_eq (h : SingularBasis A m n v) (x : ℕ → K) :
    energy A m n x = ∑ i ∈ range n, comp n v x i ^ 2 * energy A m n (v i) := by
  have e1 : energy A m n x = ∑ i ∈ range n, ∑ j ∈ range n, comp n v x i * comp n v x j
      * ∑ r ∈ range m, matVec A n (v i) r * matVec A n (v j) r := by
    have : ∀ r, matVec A n x r ^ 2 = ∑ i ∈ range n, ∑ j ∈ range n, comp n v x i * comp n v x j
        * (matVec A n (v i) r * matVec A n (v j) r) := by
      intro r
      rw [h.matVec_eq x r, sq, sum_mul_sum]
      exact sum_congr rfl fun i _ => sum_congr rfl fun j _ => by ring
    unfold energy
    simp only [this, mul_sum]
    rw [sum_comm]
    refine sum_congr rfl fun i _ => ?_
    rw [sum_comm]
  rw [e1]
  refine sum_congr rfl fun i hi => ?_
  rw [sum_eq_single i]
  · rw [sq, energy]
    congr 1
    exact sum_congr rfl fun r _ => (sq _).symm
  · intro j hj hne
    rw [h.image i (mem_range.1 hi) j (mem_range.1 hj) (Ne.symm hne), mul_zero]
  · exact fun hc => absurd hi hc

/-- The right-hand side of the normal equations along the `i`-th singular vector. -/
def load (A : ℕ → ℕ → K) (m n : ℕ) (v : ℕ → ℕ → K) (b : ℕ → K) (i : ℕ) : K := ∑ r ∈ range m, matVec A n (v i) r * b r

theorem SingularBasis.resid_eq (h : SingularBasis A m n v) (b x : ℕ → K) :
    resid A m n b x = ∑ r ∈ range m, b r ^ 2 + ∑ i ∈ range n,
      (comp n v x i ^ 2 * energy A m n (v i) - 2 * comp n v x i * load A m n v b i) := by
  have e : ∑ r ∈ range m, matVec A n x r * b r = ∑ i ∈ range n, comp n v x i * load A m n v b i := by
    unfold load
    simp only [mul_sum]
    rw [sum_comm]
    refine sum_congr rfl fun r _ => ?_
    rw [h.matVec_eq x r, sum_mul]
    exact sum_congr rfl fun i _ => by ring
  rw [sum_sub_distrib, ← h.energy_eq x]
  have : ∑ i ∈ range n, 2 * comp n v x i * load A m n v b i = 2 * ∑ r ∈ range m, matVec A n x r * b r := by
    rw [e, mul_sum]
    exact sum_congr rfl fun i _ => by ring
  rw [this]
  unfold resid energy
  rw [mul_sum, ← sum_sub_distrib, ← sum_add_distrib]
  exact sum_congr rfl fun r _ => by ring

theorem energy_nonneg (A : ℕ → ℕ → K) (m n : ℕ) (x : ℕ → K) : 0 ≤ energy A m n x :=
  sum_nonneg fun _ _ => sq_nonneg _

theorem load_eq_zero {b : ℕ → K} {i : ℕ} (h : energy A m n (v i) = 0) : load A m n v b i = 0 := by
  have := (sum_eq_zero_iff_of_nonneg fun r _ => sq_nonneg (matVec A n (v i) r)).1 h
  exact sum_eq_zero fun r hr => by rw [pow_eq_zero_iff (two_ne_zero)|>.1 (this r hr), zero_mul]

/-- Bessel's inequality. -/
theorem SingularBasis.bessel (h : SingularBasis A m n v) (b : ℕ → K) :
    ∑ i ∈ range n, load A m n v b i ^ 2 / energy A m n (v i) ≤ ∑ r ∈ range m, b r ^ 2 := by
  have h1 := h.resid_eq b fun k => ∑ j ∈ range n, load A m n v b j / energy A m n (v j) * v j k
  have h2 : 0 ≤ resid A m n b fun k => ∑ j ∈ range n, load A m n v b j / energy A m n (v j) * v j k :=
    sum_nonneg fun _ _ => sq_nonneg _
  rw [h1] at h2
  have h3 : ∀ i ∈ range n, comp n v (fun k => ∑ j ∈ range n, load A m n v b j / energy A m n (v j) * v j k) i ^ 2
        * energy A m n (v i)
      - 2 * comp n v (fun k => ∑ j ∈ range n, load A m n v b j / energy A m n (v j) * v j k) i * load A m n v b i
      = -(load A m n v b i ^ 2 / energy A m n (v i)) := by
    intro i hi
    rw [h.comp_comb _ (mem_range.1 hi)]
    by_cases hz : energy A m n (v i) = 0
    · rw [hz, load_eq_zero hz]; simp
    · field_simp
      ring
  rw [sum_congr rfl h3, sum_neg_distrib] at h2
  linarith

/-- Whether a component is kept. -/
def Kept (δ : K) (A : ℕ → ℕ → K) (m n : ℕ) (v : ℕ → ℕ → K) (i : ℕ) : Prop :=
  ∀ j ∈ range n, δ ^ 2 * energy A m n (v j) < energy A m n (v i)

instance (δ : K) (i : ℕ) : Decidable (Kept δ A m n v i) := by unfold Kept; infer_instance

theorem SingularBasis.comp_cutoff (h : SingularBasis A m n v) (δ : K) (b : ℕ → K) {i : ℕ} (hi : i < n) :
    comp n v (cutoffSolution δ A m n v b) i
      = if Kept δ A m n v i then load A m n v b i / energy A m n (v i) else 0 := by
  have : cutoffSolution δ A m n v b = fun k => ∑ j ∈ range n,
      (if Kept δ A m n v j then load A m n v b j / energy A m n (v j) else 0) * v j k := by
    funext k
    unfold cutoffSolution load
    refine sum_congr rfl fun j _ => ?_
    by_cases hk : Kept δ A m n v j
    · rw [if_pos hk]
      exact if_pos hk
    · rw [if_neg hk, zero_mul]
      exact if_neg hk
  rw [this, h.comp_comb _ hi]

theorem Kept.pos {δ : K} {i : ℕ} (hi : i < n) (h : Kept δ A m n v i) : 0 < energy A m n (v i) :=
  lt_of_le_of_lt (mul_nonneg (sq_nonneg _) (energy_nonneg _ _ _ _)) (h i (mem_range.2 hi))

/-- The residual of the solution with cutoff. -/
theorem SingularBasis.resid_cutoff (h : SingularBasis A m n v) (δ : K) (b : ℕ → K) :
    resid A m n b (cutoffSolution δ A m n v b) = ∑ r ∈ range m, b r ^ 2
      - ∑ i ∈ range n, if Kept δ A m n v i then load A m n v b i ^ 2 / energy A m n (v i) else 0 := by
  rw [h.resid_eq, sub_eq_add_neg, ← sum_neg_distrib]
  congr 1
  refine sum_congr rfl fun i hi => ?_
  rw [h.comp_cutoff δ b (mem_range.1 hi)]
  split_ifs with hk
  · have := (hk.pos (mem_range.1 hi)).ne'
    field_simp
    ring
  · ring

/-- A residual in coordinates, with the best possible value split off. -/
theorem SingularBasis.resid_split (h : SingularBasis A m n v) (b x : ℕ → K) :
    resid A m n b x = (∑ r ∈ range m, b r ^ 2 - ∑ i ∈ range n, load A m n v b i ^ 2 / energy A m n (v i))
      + ∑ i ∈ range n, (comp n v x i * energy A m n (v i) - load A m n v b i) ^ 2 / energy A m n (v i) := by
  rw [h.resid_eq, sub_add_eq_add_sub, add_sub_assoc, ← sum_sub_distrib]
  congr 1
  refine sum_congr rfl fun i _ => ?_
  by_cases hz : energy A m n (v i) = 0
  · rw [hz, load_eq_zero hz]; simp
  · field_simp
    ring

/-- The solution with cutoff is optimal when no nonzero singular value is cut off. -/
theorem SingularBasis.cutoff_optimal (h : SingularBasis A m n v) {δ : K} (b : ℕ → K)
    (hk : ∀ i < n, energy A m n (v i) = 0 ∨ Kept δ A m n v i) (y : ℕ → K) :
    resid A m n b (cutoffSolution δ A m n v b) ≤ resid A m n b y := by
  rw [h.resid_cutoff, h.resid_split b y]
  have : ∑ i ∈ range n, (if Kept δ A m n v i then load A m n v b i ^ 2 / energy A m n (v i) else 0)
      = ∑ i ∈ range n, load A m n v b i ^ 2 / energy A m n (v i) := by
    refine sum_congr rfl fun i hi => ?_
    split_ifs with hh
    · rfl
    · rcases hk i (mem_range.1 hi) with hz | hz
      · rw [hz, div_zero]
      · exact absurd hz hh
  rw [this]
  have : 0 ≤ ∑ i ∈ range n, (comp n v y i * energy A m n (v i) - load A m n v b i) ^ 2 / energy A m n (v i) :=
    sum_nonneg fun i _ => div_nonneg (sq_nonneg _) (energy_nonneg _ _ _ _)
  linarith

/-- The solution with cutoff is nearly optimal in any case. -/
theorem SingularBasis.cutoff_near (h : SingularBasis A m n v) {δ G θ : K} (hθ : 0 < θ) (b : ℕ → K)
    (hG : ∀ x, energy A m n x ≤ G * ∑ k ∈ range n, x k ^ 2) (y : ℕ → K) :
    resid A m n b (cutoffSolution δ A m n v b)
      ≤ (1 + θ) * resid A m n b y + (1 + 1 / θ) * (δ ^ 2 * G * ∑ k ∈ range n, y k ^ 2) := by
  have hB := h.bessel b
  have key : ∀ i ∈ range n, load A m n v b i ^ 2 / energy A m n (v i)
        - (if Kept δ A m n v i then load A m n v b i ^ 2 / energy A m n (v i) else 0)
      ≤ (1 + θ) * ((comp n v y i * energy A m n (v i) - load A m n v b i) ^ 2 / energy A m n (v i))
        + (1 + 1 / θ) * (δ ^ 2 * G * comp n v y i ^ 2) := by
    intro i hi
    have hi' := mem_range.1 hi
    have g0 : 0 ≤ G := by
      have := hG (v i)
      have e : ∑ k ∈ range n, v i k ^ 2 = 1 := by rw [← h.unit i hi']; exact sum_congr rfl fun k _ => sq _
      rw [e, mul_one] at this
      exact (energy_nonneg _ _ _ _).trans this
    have p1 : 0 ≤ (1 + θ) * ((comp n v y i * energy A m n (v i) - load A m n v b i) ^ 2 / energy A m n (v i)) :=
      mul_nonneg (by linarith) (div_nonneg (sq_nonneg _) (energy_nonneg _ _ _ _))
    have p2 : 0 ≤ (1 + 1 / θ) * (δ ^ 2 * G * comp n v y i ^ 2) := by positivity
    split_ifs with hk
    · rw [sub_self]; linarith
    · rw [sub_zero]
      by_cases hz : energy A m n (v i) = 0
      · rw [hz, div_zero]
        rw [hz] at p1
        linarith
      · have hs : 0 < energy A m n (v i) := lt_of_le_of_ne (energy_nonneg _ _ _ _) (Ne.symm hz)
        have hle : energy A m n (v i) ≤ δ ^ 2 * G := by
          unfold Kept at hk
          push Not at hk
          obtain ⟨j, hj, hle⟩ := hk
          refine hle.trans (mul_le_mul_of_nonneg_left ?_ (sq_nonneg _))
          have := hG (v j)
          have e : ∑ k ∈ range n, v j k ^ 2 = 1 := by
            rw [← h.unit j (mem_range.1 hj)]; exact sum_congr rfl fun k _ => sq _
          rwa [e, mul_one] at this
        have q1 : (1 + 1 / θ) * (comp n v y i ^ 2 * energy A m n (v i)) ≤ (1 + 1 / θ) * (δ ^ 2 * G * comp n v y i ^ 2) := by
          refine mul_le_mul_of_nonneg_left ?_ (by positivity)
          rw [mul_comm]
          exact mul_le_mul_of_nonneg_right hle (sq_nonneg _)
        have q2 : load A m n v b i ^ 2 / energy A m n (v i)
            ≤ (1 + θ) * ((comp n v y i * energy A m n (v i) - load A m n v b i) ^ 2 / energy A m n (v i))
              + (1 + 1 / θ) * (comp n v y i ^ 2 * energy A m n (v i)) := by
          generalize energy A m n (v i) = s at hs
          generalize load A m n v b i = β
          generalize comp n v y i = c
          have e : (1 + θ) * ((c * s - β) ^ 2 / s) + (1 + 1 / θ) * (c ^ 2 * s) - β ^ 2 / s
              = (θ * (c * s - β) + c * s) ^ 2 / (θ * s) := by
            field_simp
            ring
          have : 0 ≤ (θ * (c * s - β) + c * s) ^ 2 / (θ * s) := by positivity
          linarith
        linarith
  have hsum := sum_le_sum key
  rw [sum_sub_distrib, sum_add_distrib, ← mul_sum, ← mul_sum, ← mul_sum, ← h.normSq y] at hsum
  rw [h.resid_cutoff, h.resid_split b y]
  have : 0 ≤ θ * (∑ r ∈ range m, b r ^ 2 - ∑ i ∈ range n, load A m n v b i ^ 2 / energy A m n (v i)) :=
    mul_nonneg hθ.le (by linarith)
  linarith

/-- The solution with cutoff is not large. -/
theorem SingularBasis.cutoff_bound (h : SingularBasis A m n v) {δ : K} (b y : ℕ → K) :
    δ ^ 2 * energy A m n y * ∑ k ∈ range n, cutoffSolution δ A m n v b k ^ 2
      ≤ (∑ r ∈ range m, b r ^ 2) * ∑ k ∈ range n, y k ^ 2 := by
  rw [h.energy_eq y, h.normSq y, h.normSq (cutoffSolution δ A m n v b)]
  have key : ∀ j ∈ range n, δ ^ 2 * energy A m n (v j) * ∑ i ∈ range n, comp n v (cutoffSolution δ A m n v b) i ^ 2
      ≤ ∑ r ∈ range m, b r ^ 2 := by
    intro j hj
    refine le_trans ?_ (h.bessel b)
    rw [mul_sum]
    refine sum_le_sum fun i hi => ?_
    rw [h.comp_cutoff δ b (mem_range.1 hi)]
    split_ifs with hk
    · have hp := hk.pos (mem_range.1 hi)
      have := hk j hj
      have e : load A m n v b i ^ 2 / energy A m n (v i)
          = energy A m n (v i) * (load A m n v b i / energy A m n (v i)) ^ 2 := by
        field_simp
      rw [e]
      exact mul_le_mul_of_nonneg_right this.le (sq_nonneg _)
    · rw [zero_pow two_ne_zero, mul_zero]
      exact div_nonneg (sq_nonneg _) (energy_nonneg _ _ _ _)
  generalize ∑ i ∈ range n, comp n v (cutoffSolution δ A m n v b) i ^ 2 = X at key ⊢
  rw [mul_sum, sum_mul, mul_sum]
  refine sum_le_sum fun j hj => ?_
  calc δ ^ 2 * (comp n v y j ^ 2 * energy A m n (v j)) * X
      = (δ ^ 2 * energy A m n (v j) * X) * comp n v y j ^ 2 := by ring
    _ ≤ _ := mul_le_mul_of_nonneg_right (key j hj) (sq_nonneg _)

/-- No solution is smaller than the one with cutoff. -/
theorem SingularBasis.cutoff_small (h : SingularBasis A m n v) {δ : K} (b y : ℕ → K)
    (hy : ∀ z, resid A m n b y ≤ resid A m n b z) :
    ∑ k ∈ range n, cutoffSolution δ A m n v b k ^ 2 ≤ ∑ k ∈ range n, y k ^ 2 := by
  have h0 := hy fun k => ∑ j ∈ range n, load A m n v b j / energy A m n (v j) * v j k
  rw [h.resid_split, h.resid_split b (fun k => _)] at h0
  have z : ∑ i ∈ range n, (comp n v (fun k => ∑ j ∈ range n, load A m n v b j / energy A m n (v j) * v j k) i
      * energy A m n (v i) - load A m n v b i) ^ 2 / energy A m n (v i) = 0 := by
    refine sum_eq_zero fun i hi => ?_
    rw [h.comp_comb _ (mem_range.1 hi)]
    by_cases hz : energy A m n (v i) = 0
    · rw [hz, div_zero]
    · rw [div_mul_cancel₀ _ hz, sub_self, zero_pow two_ne_zero, zero_div]
  rw [z, add_zero] at h0
  have nn : ∀ i ∈ range n, 0 ≤ (comp n v y i * energy A m n (v i) - load A m n v b i) ^ 2 / energy A m n (v i) :=
    fun i _ => div_nonneg (sq_nonneg _) (energy_nonneg _ _ _ _)
  have h1 : ∑ i ∈ range n, (comp n v y i * energy A m n (v i) - load A m n v b i) ^ 2 / energy A m n (v i) = 0 :=
    le_antisymm (by linarith) (sum_nonneg nn)
  rw [h.normSq y, h.normSq]
  refine sum_le_sum fun i hi => ?_
  rw [h.comp_cutoff δ b (mem_range.1 hi)]
  split_ifs with hk
  · have hp := hk.pos (mem_range.1 hi)
    have := (sum_eq_zero_iff_of_nonneg nn).1 h1 i hi
    rcases div_eq_zero_iff.1 this with h2 | h2
    · have h3 := pow_eq_zero_iff (two_ne_zero) |>.1 h2
      rw [show load A m n v b i = comp n v y i * energy A m n (v i) by linarith, mul_div_cancel_right₀ _ hp.ne']
    · exact absurd h2 hp.ne'
  · rw [zero_pow two_ne_zero]
    exact sq_nonneg _

end PySpline
