import Verif.Props.IeeeSurf
import Verif.Lemmas.IeeeProblems
import Verif.Lemmas.StartRounded

/-!
# Lemmas for the evaluation of fitted curves and surfaces in IEEE arithmetic
-/

set_option linter.unusedSectionVars false
set_option exponentiation.threshold 1100

namespace PySpline

open Spec Ext Finset

section
variable {K : Type} [Field K] [LinearOrder K] [IsStrictOrderedRing K]

/-- The corners of a surface. -/
theorem value_corners {s : Surface K} (hu : UnitKnots s.degreeU s.numU s.kvU) (hv : UnitKnots s.degreeV s.numV s.kvV) (c : ℕ) :
    s.value c 0 0 = coord s.ctrlpts c 0 ∧ s.value c 1 0 = coord s.ctrlpts c ((s.numU - 1) * s.numV) ∧
    s.value c 0 1 = coord s.ctrlpts c (s.numV - 1) ∧
    s.value c 1 1 = coord s.ctrlpts c ((s.numU - 1) * s.numV + (s.numV - 1)) := by
  have u0 : ∀ f, curve (knotFn s.kvU) s.degreeU s.numU f 0 = f 0 := fun f => by
    have := curve_first hu.toClamped hu.first f
    rwa [hu.zero] at this
  have v0 : ∀ f, curve (knotFn s.kvV) s.degreeV s.numV f 0 = f 0 := fun f => by
    have := curve_first hv.toClamped hv.first f
    rwa [hv.zero] at this
  have u1 : ∀ f, curve (knotFn s.kvU) s.degreeU s.numU f 1 = f (s.numU - 1) := fun f => by
    have := curve_last hu.toClamped f
    rwa [hu.one] at this
  have v1 : ∀ f, curve (knotFn s.kvV) s.degreeV s.numV f 1 = f (s.numV - 1) := fun f => by
    have := curve_last hv.toClamped f
    rwa [hv.one] at this
  simp only [value_eq_curve_u, u0, v0, u1, v1, zero_mul, zero_add, add_zero, and_self]

end

/-- The last interior knot of a uniform knot vector in double precision is away from `1`. -/
theorem uniform_double_last {q m : ℕ} (hq : q < m) (hm : m ≤ 2 ^ 19) {V : List ℚ} (hV : generateUniformFl fl64 q m = .ok V) :
    knotFn V (m - 1) ≤ 1 - 102 / 10 ^ 8 := by
  obtain ⟨V', hV', -, vc, -, v0, v1, ⟨U, hU, hUV⟩, -⟩ := generate_uniform_double hq (le_trans hm (by norm_num))
  rw [hV] at hV'
  cases hV'
  have hmK : (m : ℚ) ≤ 2 ^ 19 := by exact_mod_cast hm
  have hqK : (q : ℚ) + 1 ≤ m := by exact_mod_cast hq
  have hq0 : (0 : ℚ) ≤ q := Nat.cast_nonneg q
  have hd : (0 : ℚ) < (m : ℚ) - q := by linarith
  have hinv : (1 : ℚ) / 2 ^ 19 ≤ 1 / ((m : ℚ) - q) := one_div_le_one_div_of_le hd (by linarith)
  have hk : knotFn U (m - 1) = 1 - 1 / ((m : ℚ) - q) := by
    rw [(generateUniform_knot hq hU (by omega)).2]
    have hc : ((m - 1 : ℕ) : ℚ) = m - 1 := by
      rw [Nat.cast_sub (by omega), Nat.cast_one]
    split_ifs with h1 h2
    · have : q = m - 1 := by omega
      rw [this, hc]
      norm_num
    · rw [hc]
      field_simp
      ring
    · omega
  have hn := abs_le.1 (hUV (m - 1) (by omega))
  have h1 : knotFn U (m - 1) ≤ 1 := by
    rw [hk]
    have : 0 < 1 / ((m : ℚ) - q) := one_div_pos.2 hd
    linarith
  have h2 : (1 : ℚ) / 2 ^ 51 * knotFn U (m - 1) ≤ 1 / 2 ^ 51 := mul_le_of_le_one_right (by positivity) h1
  have h3 : (1 : ℚ) / 2 ^ 51 + 102 / 10 ^ 8 ≤ 1 / 2 ^ 19 := by norm_num
  linarith [hn.2]

/-- A uniform knot vector in double precision. -/
theorem uniform_double_unit {q m : ℕ} (hq : q < m) (hm : m ≤ 2 ^ 40) {V : List ℚ} (hV : generateUniformFl fl64 q m = .ok V) :
    UnitKnots q m V := by
  obtain ⟨V', hV', -, vc, vd, v0, v1, -⟩ := generate_uniform_double hq (le_trans hm (by norm_num))
  rw [hV] at hV'
  cases hV'
  have := vd (m - 1) (by omega) (by omega)
  rw [show m - 1 + 1 = m from by omega] at this
  exact ⟨vc, v0, v1, vd q le_rfl hq, this⟩

/-- The errors of C160 against the size of the control points. -/
theorem eval_share {B : ℚ} (hB : 1 / 2 ^ 1000 ≤ B) :
    1 / 10 ^ 14 * (2 * B) + (2 * B + 1) * (1 / 2 ^ 1045) + B / 2 ^ 47 ≤ B / 2 ^ 44 := by
  have h0 : 0 < B := lt_of_lt_of_le (by positivity) hB
  have e : (1 : ℚ) / 2 ^ 1045 = 1 / 2 ^ 1000 * (1 / 2 ^ 45) := by
    rw [show (1045 : ℕ) = 1000 + 45 from rfl, pow_add]
    ring
  have h1 : (1 : ℚ) / 2 ^ 1045 ≤ 1 / 2 ^ 60 :=
    one_div_le_one_div_of_le (by positivity) (pow_le_pow_right₀ (by norm_num) (by norm_num))
  have h2 : 2 * B * (1 / 2 ^ 1045) ≤ 2 * B * (1 / 2 ^ 60) := mul_le_mul_of_nonneg_left h1 (by linarith)
  have h3 : (1 : ℚ) / 2 ^ 1045 ≤ B * (1 / 2 ^ 45) := by
    rw [e]
    exact mul_le_mul_of_nonneg_right hB (by positivity)
  generalize (1 : ℚ) / 2 ^ 1045 = z at h2 h3 ⊢
  have h4 : B * (1 / 10 ^ 14 * 2 + 2 * (1 / 2 ^ 60) + 1 / 2 ^ 45 + 1 / 2 ^ 47) ≤ B * (1 / 2 ^ 44) :=
    mul_le_mul_of_nonneg_left (by norm_num) h0.le
  linarith

end PySpline
