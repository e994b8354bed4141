import Verif.Lemmas.KnotsDoubleAux
import Verif.Props.Double

/-!
# C101, C102: generated parameters in double precision
-/

set_option linter.unusedSectionVars false

namespace PySpline

open Spec

/-! ## Clamped knot vectors from an ascending sequence -/

section
variable {K : Type} [Field K] [LinearOrder K] [IsStrictOrderedRing K]

end

/-! ## Equidistant doubles -/

/-- **C101.** `generate_uniform` in double precision, with more control points than the degree (and at
most `2^50`): the knots are doubles, clamped, `0` at the start and `1` at the end, strictly ascending
inside, within a relative error of `2^-51` of the exact uniform knots, and accepted by
`check_knot_vector`. -/
theorem generate_uniform_double {p n : ℕ} (h : p < n) (hn : n ≤ 2 ^ 50) :
    ∃ U, generateUniformFl fl64 p n = .ok U ∧ (∀ x ∈ U, fl64 x = x) ∧ Clamped p n U ∧
      DistinctInterior p n U ∧ knotFn U 0 = 0 ∧ knotFn U (n + p) = 1 ∧
      (∃ V, generateUniform p n = .ok V ∧ ∀ i ≤ n + p,
        |knotFn U i - knotFn V i| ≤ 1 / 2 ^ 51 * knotFn V i) ∧
      checkKnotVectorFl fl64 p U n = .ok true := by
  set m := n - p with hm
  set f : ℕ → ℚ := fun i => if i = m then 1 else vtkParam m i with hf
  have e : generateUniformFl fl64 p n = .ok (zeros p ++ (List.range (n - p + 1)).map f ++ ones p) :=
    generateUniformFl_eq h
  have f0 : f 0 = 0 := by
    have : (0 : ℕ) ≠ m := by omega
    simp [hf, this, vtkParam, fl64_zero]
  have f1 : f (n - p) = 1 := by simp [hf, hm]
  have fs : ∀ i < n - p, f i < f (i + 1) := by
    intro i hi
    have := vtkParam_lt (m := m) (i := i) (by omega) (by omega)
    have h1 : i ≠ m := by omega
    simp only [hf, h1, if_false]
    split
    · exact this.1
    · exact this.2.1
  obtain ⟨c1, c2, c3, c4⟩ := clampedFrom h f f0 f1 fs
  have hd : ∀ x ∈ zeros p ++ (List.range (n - p + 1)).map f ++ ones p, fl64 x = x := by
    intro x hx
    rw [List.mem_append, List.mem_append] at hx
    rcases hx with (hx | hx) | hx
    · rw [List.eq_of_mem_replicate hx]; exact fl64_zero
    · obtain ⟨i, -, rfl⟩ := List.mem_map.1 hx
      simp only [hf]
      split
      · exact rounding_fl64.one
      · exact rounding_fl64.idem _
    · rw [List.eq_of_mem_replicate hx]; exact rounding_fl64.one
  refine ⟨_, e, hd, c1, c2, c3, c4, ⟨_, generateUniform_eq h, fun i hi => ?_⟩,
    check_knot_vector_double hd c1 (by rw [c3, c4]; exact zero_ne_one)⟩
  have hV := (generateUniform_knot (K := ℚ) h (generateUniform_eq h) hi).2
  rw [hV, clampedFrom_knot h f f0 f1 hi]
  by_cases h1 : i ≤ p
  · simp [h1]
  by_cases h2 : i < n
  · rw [if_neg h1, if_pos h2, if_neg h1, if_pos h2]
    have := (vtkParam_lt (m := m) (i := i - p) (by omega) (by omega)).2.2
    rw [Nat.cast_sub (by omega), hm, Nat.cast_sub h.le] at this
    have h3 : i - p ≠ m := by omega
    simp only [hf, h3, if_false]
    exact this
  · simp [h1, h2]

/-- The knots for 50 spans: the value `49 * (1/49)` is not reached, the last knot is set to 1. -/
example : ∃ U, generateUniformFl fl64 1 50 = .ok U ∧ knotFn U 50 = 1 ∧ gridFl fl64 50 ≠ grid 50 :=
  let ⟨U, h1, _, _, _, _, h2, _⟩ := generate_uniform_double (p := 1) (n := 50) (by norm_num) (by norm_num)
  ⟨U, h1, by
    have := (generate_uniform_double (p := 1) (n := 50) (by norm_num) (by norm_num))
    obtain ⟨U', e, -, c, -, -, h3, -⟩ := this
    rw [h1] at e
    cases e
    rw [c.right 50 le_rfl (by norm_num), h3], by decide +kernel⟩

/-! ## The grid of the initial guess -/

/-- **C102.** The grid of `initial_guess_curve` and `initial_guess_surface` in double precision, for
`2 ≤ N ≤ 2^50` grid points: it starts at `0`, ascends strictly, is in `[0, 1]`, and its last parameter is
`1` or `1 - 2^-53`; so no grid parameter is rejected by `single_point`. -/
theorem grid_double {N : ℕ} (hN : 2 ≤ N) (hN' : N ≤ 2 ^ 50) :
    (gridFl fl64 N).length = N ∧ (gridFl fl64 N).getD 0 1 = 0 ∧ (gridFl fl64 N).Pairwise (· < ·) ∧
      (∀ u ∈ gridFl fl64 N, 0 ≤ u ∧ u ≤ 1) ∧
      ((gridFl fl64 N).getD (N - 1) 0 = 1 ∨ (gridFl fl64 N).getD (N - 1) 0 = 1 - 1 / 2 ^ 53) := by
  set m := N - 1 with hm
  have hm1 : 1 ≤ m := by omega
  have e : gridFl fl64 N = (List.range N).map (vtkParam m) := by
    unfold gridFl vtkParam vtkStep
    refine List.map_congr_left fun i _ => ?_
    have e2 : (N : ℚ) - 1 = (m : ℚ) := by rw [hm, Nat.cast_sub (by omega)]; push_cast; ring
    rw [e2, mul_comm]
  have hp := vtk_param (n := m) hm1 (by omega)
  have hget : ∀ i < N, ∀ d, (gridFl fl64 N).getD i d = vtkParam m i := by
    intro i hi d
    rw [e]
    simp [List.getD_eq_getElem?_getD, hi]
  refine ⟨by rw [e]; simp, by rw [hget 0 (by omega)]; exact hp.1, ?_, ?_, ?_⟩
  · rw [e, List.pairwise_map]
    refine List.Pairwise.imp_of_mem ?_ List.pairwise_lt_range
    intro a b ha hb hab
    have h1 := List.mem_range.1 hb
    exact lt_of_lt_of_le (vtkParam_lt (m := m) (i := a) (by omega) (by omega)).2.1 (hp.2.2.1 (a + 1) b hab)
  · intro u hu
    rw [e] at hu
    obtain ⟨i, hi, rfl⟩ := List.mem_map.1 hu
    exact hp.2.1 i (by have := List.mem_range.1 hi; omega)
  · rw [hget (N - 1) (by omega), ← hm]
    obtain ⟨s0, s1, s2⟩ := vtkStep_bounds hm1
    have h3 : fl64 (1 - 1 / 2 ^ 53) = 1 - 1 / 2 ^ 53 := by decide +kernel
    have lo : 1 - 1 / 2 ^ 53 ≤ vtkParam m m := by
      rw [← h3]; exact rounding_fl64.mono (by rw [mul_comm]; exact s1)
    have hi := (hp.2.1 m le_rfl).2
    exact double_near_one lo hi (rounding_fl64.idem _)

/-- Both cases occur: the last grid parameter is `1` for 11 grid points and the double before `1` for 50. -/
theorem grid_double_last : (gridFl fl64 11).getD 10 0 = 1 ∧ (gridFl fl64 50).getD 49 0 = 1 - 1 / 2 ^ 53 := by
  decide +kernel

/-! ## The inserted knots -/

/-- **C102.** The knot which `fit_curve_knot_insertion` inserts into a span of doubles lies in the span,
and strictly inside it if the span is wider than `2^-51` times its right end. -/
theorem mid_knot_double {l r : ℚ} (hl : fl64 l = l) (hr : fl64 r = r) (h0 : 0 ≤ l) (h : l ≤ r) :
    l ≤ midFl fl64 l r ∧ midFl fl64 l r ≤ r ∧
      (1 / 2 ^ 51 * r < r - l → l < midFl fl64 l r ∧ midFl fl64 l r < r) := by
  have hd : 0 ≤ r - l := by linarith
  have d0 := fl64_nonneg hd
  have d1 := fl64_lower hd
  have d2 := fl64_upper hd
  have e0 := fl64_nonneg (x := fl64 (r - l) / 2) (by positivity)
  have e1 := fl64_lower (x := fl64 (r - l) / 2) (by positivity)
  have e2 := fl64_upper (x := fl64 (r - l) / 2) (by positivity)
  unfold midFl
  set a := fl64 (r - l)
  set b := fl64 (a / 2)
  have b2 : b ≤ 1001 / 2000 * (r - l) := by
    have c : (1 + 1 / 2 ^ 53 : ℚ) * ((1 + 1 / 2 ^ 53) * (r - l) / 2) ≤ 1001 / 2000 * (r - l) := by
      have : (1 + 1 / 2 ^ 53 : ℚ) * (1 + 1 / 2 ^ 53) / 2 ≤ 1001 / 2000 := by norm_num
      have := mul_le_mul_of_nonneg_right this hd
      linarith
    refine le_trans (e2.trans ?_) c
    exact mul_le_mul_of_nonneg_left (by linarith) (by norm_num)
  have b1 : 999 / 2000 * (r - l) ≤ b := by
    have c : 999 / 2000 * (r - l) ≤ (1 - 1 / 2 ^ 53 : ℚ) * ((1 - 1 / 2 ^ 53) * (r - l) / 2) := by
      have : (999 / 2000 : ℚ) ≤ (1 - 1 / 2 ^ 53 : ℚ) * (1 - 1 / 2 ^ 53) / 2 := by norm_num
      have := mul_le_mul_of_nonneg_right this hd
      linarith
    refine le_trans (c.trans ?_) e1
    exact mul_le_mul_of_nonneg_left (by linarith) (by norm_num)
  refine ⟨?_, ?_, fun hw => ?_⟩
  · conv_lhs => rw [← hl]
    exact rounding_fl64.mono (by linarith)
  · conv_rhs => rw [← hr]
    exact rounding_fl64.mono (by linarith)
  · have f1 := fl64_lower (x := l + b) (by linarith)
    have f2 := fl64_upper (x := l + b) (by linarith)
    constructor
    · refine lt_of_lt_of_le ?_ f1
      norm_num at hw ⊢
      linarith
    · refine lt_of_le_of_lt f2 ?_
      norm_num at hw ⊢
      linarith

/-- The midpoint of `[1/3, 1]`, and a span of two neighbouring doubles in which no knot fits. -/
example : fl64 (1 / 3) < midFl fl64 (fl64 (1 / 3)) 1 ∧ midFl fl64 (fl64 (1 / 3)) 1 < 1 ∧
    midFl fl64 (1 - 1 / 2 ^ 53) 1 = 1 := by decide +kernel

end PySpline
