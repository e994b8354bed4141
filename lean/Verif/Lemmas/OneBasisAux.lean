import Verif.Lemmas.OneBasis
import Verif.Lemmas.KnotValues
import Verif.Props.Ders

/-!
# Auxiliary lemmas for `Props/OneBasis.lean`
-/

set_option linter.unusedSectionVars false

namespace PySpline

open Spec Polynomial

variable {K : Type} [Field K] [LinearOrder K] [IsStrictOrderedRing K]

/-- The first function of a clamped knot vector is `1` at the first knot. -/
theorem N_first {p n : ℕ} {U : List K} (hU : Clamped p n U)
    (hfirst : knotFn U p < knotFn U (p + 1)) (i : ℕ) :
    N (knotFn U) p i (knotFn U 0) = if i = 0 then 1 else 0 := by
  have hV := monotone_knotFn hU.mono
  have h0 : knotFn U p = knotFn U 0 := hU.left p le_rfl
  rw [N_eq_piece hV (k := p) h0.le (by rw [← h0]; exact hfirst),
    piece_at_left_end (m := p + 1) ?_ (by rw [← h0]; exact hfirst) p (by omega) le_rfl]
  · by_cases h : i = 0
    · rw [if_pos h, if_pos (by omega)]
    · rw [if_neg h, if_neg (by omega)]
  · intro j hj
    exact hU.left (p - j) (by omega)

theorem sum_Nclosed {p n : ℕ} {U : List K} (hU : Clamped p n U) {u : K} (h1 : knotFn U p ≤ u)
    (h2 : u ≤ knotFn U n) : ∑ i ∈ Finset.range n, Nclosed (knotFn U) p n i u = 1 := by
  have hsz := hU.size
  unfold Nclosed
  by_cases h : u = knotFn U (n + p)
  · simp only [if_pos h]
    have : ∀ i, (if i + 1 = n then (1 : K) else 0) = if n - 1 = i then 1 else 0 := by
      intro i
      by_cases hi : i + 1 = n
      · rw [if_pos hi, if_pos (by omega)]
      · rw [if_neg hi, if_neg (by omega)]
    simp only [this]
    rw [Finset.sum_ite_eq, if_pos (by simp; omega)]
  · simp only [if_neg h]
    have hn : knotFn U n = knotFn U (n + p) := hU.right n le_rfl (by omega)
    exact sum_N (monotone_knotFn hU.mono) h1 (lt_of_le_of_ne h2 (by rw [hn]; exact h)) hsz.le

end PySpline
