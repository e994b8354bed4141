import Verif.Lemmas.Surface
import Verif.Props.Curve

/-!
# Auxiliary lemmas for `Props/Surface.lean`
-/

set_option linter.unusedSectionVars false

namespace PySpline

open Spec Polynomial

variable {K : Type} [Field K] [LinearOrder K] [IsStrictOrderedRing K]

theorem index_lt {i j n m : ℕ} (hi : i < n) (hj : j < m) : i * m + j < n * m := by
  have := Nat.mul_le_mul_right m (Nat.succ_le_of_lt hi)
  rw [Nat.succ_mul] at this
  omega

theorem curve_congr {V : ℕ → K} {p n : ℕ} {c e : ℕ → K} (h : ∀ i < n, c i = e i) (u : K) :
    curve V p n c u = curve V p n e u :=
  Finset.sum_congr rfl fun i hi => by rw [h i (Finset.mem_range.1 hi)]

/-- The end of a knot vector on `[0, 1]` is a regular parameter. -/
theorem regular_zero {p n : ℕ} {U : List K} (hU : Clamped p n U) (h0 : knotFn U 0 = 0)
    (h1 : knotFn U (n + p) = 1) (hfirst : knotFn U p < knotFn U (p + 1)) : Regular p n U 0 := by
  have hV := monotone_knotFn hU.mono
  have hn : knotFn U n = 1 := by rw [hU.right n le_rfl (by omega), h1]
  have hp0 : knotFn U p = 0 := by rw [hU.left p le_rfl, h0]
  refine ⟨hp0.le, by rw [hn]; exact zero_le_one, ?_, ?_⟩
  · intro i h1 h2 h3
    have : i = p := by
      by_contra hne
      have h4 : knotFn U (p + 1) ≤ knotFn U i := hV (by omega)
      rw [← h3, ← hp0] at h4
      exact absurd (hfirst.trans_le h4) (lt_irrefl _)
    rw [this]; exact hfirst
  · intro h
    exfalso
    rw [hn, zero_sub, abs_neg, abs_one] at h
    norm_num at h

theorem regular_one {p n : ℕ} {U : List K} (hU : Clamped p n U) (h1 : knotFn U (n + p) = 1)
    (hlast : knotFn U (n - 1) < knotFn U n) : Regular p n U 1 := by
  have hV := monotone_knotFn hU.mono
  have hsz := hU.size
  have hn : knotFn U n = 1 := by rw [hU.right n le_rfl (by omega), h1]
  refine ⟨by rw [← hn]; exact hV (by omega), hn.symm.le, ?_, ?_⟩
  · intro i h2 h3 h4
    exfalso
    have : knotFn U i ≤ knotFn U (n - 1) := hV (by omega)
    rw [← h4, ← hn] at this
    exact absurd (hlast.trans_le this) (lt_irrefl _)
  · intro _
    rw [← hn]; exact hlast.le

theorem deriv_zero' (m : ℕ) : deriv m (0 : K[X]) = 0 := by
  unfold deriv
  simp

end PySpline
