import Verif.Lemmas.Ders
import Verif.Props.Basis

/-!
# Auxiliary lemmas for `Props/Ders.lean`
-/

set_option linter.unusedSectionVars false

namespace PySpline

open Spec Polynomial

variable {K : Type} [Field K] [LinearOrder K] [IsStrictOrderedRing K]

theorem eq_map_range2 {l : List (List K)} {n c : ℕ} {f : ℕ → ℕ → K} (hl : Shape l n c)
    (h : ∀ r m, r < n → m < c → at2 l r m 0 = f r m) :
    l = (List.range n).map fun r => (List.range c).map (f r) := by
  refine List.ext_getElem (by simp [hl.1]) fun r h1 h2 => ?_
  have hr : r < n := by rw [← hl.1]; exact h1
  have e : l.getD r [] = l[r] := by
    rw [List.getD_eq_getElem?_getD, List.getElem?_eq_getElem h1]; rfl
  rw [List.getElem_map, List.getElem_range, ← e]
  exact eq_map_range (hl.row hr) fun m hm => h r m hr hm

theorem deriv_one (m : ℕ) (hm : 1 ≤ m) : deriv m (1 : K[X]) = 0 := by
  obtain ⟨t, rfl⟩ : ∃ t, m = t + 1 := ⟨m - 1, by omega⟩
  unfold deriv
  rw [Function.iterate_succ_apply, derivative_one]
  simp

theorem deriv_sum (m n : ℕ) (f : ℕ → K[X]) :
    deriv m (∑ i ∈ Finset.range n, f i) = ∑ i ∈ Finset.range n, deriv m (f i) := by
  unfold deriv
  exact iterate_derivative_sum m _ f

end PySpline
