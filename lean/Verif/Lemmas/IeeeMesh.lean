import Verif.SpecIeeeMesh
import Verif.Lemmas.IeeeInitial
import Verif.Props.NanInputs
import Verif.Props.VtkDouble

/-!
# Lemmas for C196: the parameters of a mesh
-/

set_option exponentiation.threshold 1100

namespace PySpline

open Spec Ext

variable {n : ℕ}

/-- The parameters of a mesh are doubles. -/
theorem vtkParam_stored (hn : 1 ≤ n) (hn' : n ≤ 2 ^ 50) {i : ℕ} (hi : i ≤ n) : bin64 (vtkParam n i) = fin (vtkParam n i) := by
  have h1 := ((vtk_param hn hn').2.1 i hi).2
  have hn0 : (0 : ℚ) < n := by exact_mod_cast hn
  have hn1 : (n : ℚ) ≤ 2 ^ 50 := by exact_mod_cast hn'
  obtain ⟨s0, s1, -⟩ := vtkStep_bounds hn
  have key : bin64 (vtkParam n i) = fin (fl64 (vtkParam n i)) := by
    refine bin64_normal ?_ (h1.trans (by norm_num))
    rcases Nat.eq_zero_or_pos i with rfl | hi0
    · exact Or.inl (vtk_param hn hn').1
    · right
      have hs : (1 / 2 ^ 52 : ℚ) ≤ vtkStep n := by
        by_contra hc
        have : vtkStep n * n ≤ 1 / 2 ^ 52 * 2 ^ 50 := mul_le_mul (not_le.1 hc).le hn1 hn0.le (by norm_num)
        have : (1 - 1 / 2 ^ 53 : ℚ) ≤ 1 / 2 ^ 52 * 2 ^ 50 := s1.trans this
        norm_num at this
      have hx : (1 / 2 ^ 52 : ℚ) ≤ (i : ℚ) * vtkStep n := by
        have : (1 : ℚ) ≤ i := by exact_mod_cast hi0
        nlinarith
      have h2 := fl64_lower (x := (i : ℚ) * vtkStep n) (by positivity)
      have h3 : (1 / 2 ^ 53 : ℚ) ≤ vtkParam n i := by
        refine le_trans ?_ h2
        nlinarith
      refine le_trans ?_ h3
      rw [show (1 / 2 ^ 53 : ℚ) = 2 ^ (-53 : ℤ) by norm_num [zpow_neg]]
      exact zpow_le_zpow_right₀ (by norm_num) (by norm_num)
  rw [key]
  congr 1
  exact rounding_fl64.idem _

/-- The parameters of a mesh are equally spaced up to rounding. -/
theorem vtkParam_near (hn : 1 ≤ n) {i : ℕ} (hi : i ≤ n) : |vtkParam n i - (i : ℚ) / n| ≤ 1 / 2 ^ 51 := by
  have hn0 : (0 : ℚ) < n := by exact_mod_cast hn
  have hi1 : (i : ℚ) / n ≤ 1 := by rw [div_le_one hn0]; exact_mod_cast hi
  have hi0 : (0 : ℚ) ≤ (i : ℚ) / n := by positivity
  have a1 := fl64_lower (x := 1 / (n : ℚ)) (by positivity)
  have a2 := fl64_upper (x := 1 / (n : ℚ)) (by positivity)
  have s0 := (vtkStep_bounds hn).1
  have b1 : (1 - 1 / 2 ^ 53) * ((i : ℚ) / n) ≤ (i : ℚ) * vtkStep n := by
    calc (1 - 1 / 2 ^ 53) * ((i : ℚ) / n) = (i : ℚ) * ((1 - 1 / 2 ^ 53) * (1 / n)) := by ring
      _ ≤ _ := mul_le_mul_of_nonneg_left a1 (by positivity)
  have b2 : (i : ℚ) * vtkStep n ≤ (1 + 1 / 2 ^ 53) * ((i : ℚ) / n) := by
    calc (i : ℚ) * vtkStep n ≤ (i : ℚ) * ((1 + 1 / 2 ^ 53) * (1 / n)) := mul_le_mul_of_nonneg_left a2 (by positivity)
      _ = _ := by ring
  have c1 := fl64_lower (x := (i : ℚ) * vtkStep n) (by positivity)
  have c2 := fl64_upper (x := (i : ℚ) * vtkStep n) (by positivity)
  unfold vtkParam
  rw [abs_le]
  constructor <;> nlinarith

/-- `single_point` rejects parameters above one. -/
theorem computes_beyond {s : Surface (Ext ℚ)} {single : ℚ → ℚ → Py (List ℚ)} (hc : Computes bin64 s single) (u v : ℚ)
    (hv : 1 < v) : Raises (single u v) := by
  cases h : single u v with
  | error e => exact ⟨e, rfl⟩
  | ok q =>
    obtain ⟨_, _, _, _, _, h2, _⟩ := hc.sound u v q h
    obtain ⟨x, e, _, h1⟩ := (validate_knot_extended _).1 h2
    cases e
    exact absurd hv (not_lt.2 h1)

end PySpline
