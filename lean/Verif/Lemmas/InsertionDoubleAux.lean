import Verif.Lemmas.RoundedInsertion
import Verif.Props.CurveMore
import Verif.Props.Double

/-!
# Auxiliary lemmas for `Props/InsertionDouble.lean`
-/

set_option linter.unusedSectionVars false

namespace PySpline

open Spec

section
variable {K : Type} [Field K] [LinearOrder K] [IsStrictOrderedRing K]

theorem findMultiplicityFl_id (u : K) (U : List K) : findMultiplicityFl id u U = findMultiplicity u U := rfl

theorem rowCombFl_id (a : K) (x y : List K) : rowCombFl id a x y = rowComb a x (1 - a) y := rfl

theorem curveKnotInsertionFl_id (p : ℕ) (U : List K) (P : List (List K)) (u : K) (r : ℕ) :
    curveKnotInsertionFl id p U P u r = curveKnotInsertion p U P u r := by
  unfold curveKnotInsertionFl curveKnotInsertion
  simp only [pyDivFl_id, rowCombFl_id, findMultiplicityFl_id, id]
  rfl

/-- Rows of three entries are equal if their entries are. -/
theorem row3_ext {a b : List K} (ha : a.length = 3) (hb : b.length = 3) (h : ∀ y < 3, a.getD y 0 = b.getD y 0) :
    a = b := by
  obtain ⟨x, y, z, rfl⟩ := List.length_eq_three.1 ha
  obtain ⟨x', y', z', rfl⟩ := List.length_eq_three.1 hb
  have h0 := h 0 (by omega)
  have h1 := h 1 (by omega)
  have h2 := h 2 (by omega)
  simp at h0 h1 h2
  rw [h0, h1, h2]

end

theorem foldl_count_zero {α : Type} {q : α → Bool} {l : List α} (h : ∀ x ∈ l, q x = false) :
    l.foldl (fun m x => if q x then m + 1 else m) 0 = 0 := by
  induction l with
  | nil => rfl
  | cons a l ih =>
    rw [List.foldl_cons, h a (by simp)]
    exact ih fun x hx => h x (by simp [hx])

/-- Numbers of `[0,1]` that differ by `2e-5` are not close. -/
theorem iscloseFl_far {u x : ℚ} (hx : |x| ≤ 1) (h : 2 / 10 ^ 5 ≤ |u - x|) :
    iscloseFl fl64 u x rtolDefault atolDefault = false := by
  unfold iscloseFl
  rw [decide_eq_false_iff_not, not_le]
  have m := rounding_fl64.mono
  have e : fl64 (fl64 atolDefault + fl64 (fl64 rtolDefault * |x|)) ≤ 1002 / 10 ^ 8 := by
    have h1 : fl64 (fl64 rtolDefault * |x|) ≤ fl64 (fl64 rtolDefault * 1) :=
      m (mul_le_mul_of_nonneg_left hx (fl64_nonneg (by unfold rtolDefault; positivity)))
    have h2 : fl64 (fl64 atolDefault + fl64 (fl64 rtolDefault * |x|))
        ≤ fl64 (fl64 atolDefault + fl64 (fl64 rtolDefault * 1)) := m (by linarith)
    exact h2.trans (by decide +kernel)
  have a : |fl64 (u - x)| = fl64 |u - x| := by
    rcases le_total 0 (u - x) with h | h
    · rw [abs_of_nonneg h, abs_of_nonneg (fl64_nonneg h)]
    · rw [abs_of_nonpos h, fl64_neg, abs_of_nonpos]
      rw [← fl64_zero]
      exact m h
  have b := fl64_lower (abs_nonneg (u - x))
  rw [a]
  have : (1 - 1 / 2 ^ 53 : ℚ) * (2 / 10 ^ 5) ≤ (1 - 1 / 2 ^ 53) * |u - x| :=
    mul_le_mul_of_nonneg_left h (by norm_num)
  have : (1002 / 10 ^ 8 : ℚ) < (1 - 1 / 2 ^ 53) * (2 / 10 ^ 5) := by norm_num
  linarith

end PySpline
