import Verif.Lemmas.KnotUtil
import Verif.Props.OneBasis

/-!
# Auxiliary lemmas for `Props/Knots.lean`
-/

set_option linter.unusedSectionVars false

namespace PySpline

open Spec

variable {K : Type} [Field K] [LinearOrder K] [IsStrictOrderedRing K]

/-- The uniform clamped knot vector. -/
theorem generateUniform_eq {p n : ℕ} (h : p < n) :
    generateUniform (K := K) p n = .ok (zeros p
      ++ (List.range (n - p + 1)).map (fun (i : ℕ) => (i : K) * (1 / ((n : K) - p))) ++ ones p) := by
  unfold generateUniform linspace
  dsimp only
  rw [if_neg (by omega), if_neg (by omega), ok_bind]
  have e : ((n : ℤ) + p + 1 - 2 * p).toNat = n - p + 1 := by omega
  rw [e]
  congr 3
  refine List.map_congr_left fun i _ => ?_
  push_cast
  rw [zero_add, sub_zero]
  congr 2
  ring

theorem generateUniform_knot {p n i : ℕ} (h : p < n) {U : List K}
    (hU : generateUniform p n = .ok U) (hi : i ≤ n + p) :
    U.length = n + p + 1 ∧
    knotFn U i = if i ≤ p then 0 else if i < n then ((i : K) - p) / ((n : K) - p) else 1 := by
  rw [generateUniform_eq h] at hU
  have hU := (Except.ok.inj hU).symm
  subst hU
  have hpn : ((n : K) - p) ≠ 0 := by
    have : (p : K) < n := by exact_mod_cast h
    intro h; linarith
  have hlen : ((zeros p ++ (List.range (n - p + 1)).map (fun (i : ℕ) => (i : K) * (1 / ((n : K) - p)))
      ++ ones p) : List K).length = n + p + 1 := by
    simp [zeros, ones]; omega
  refine ⟨hlen, ?_⟩
  rw [knotFn_eq (by omega)]
  by_cases h1 : i < p
  · rw [List.getElem_append_left (by simp [zeros]; omega),
      List.getElem_append_left (by simpa [zeros] using h1), if_pos h1.le]
    simp [zeros]
  · by_cases h2 : i ≤ n
    · rw [List.getElem_append_left (by simp [zeros]; omega),
        List.getElem_append_right (by simpa [zeros] using h1)]
      simp only [List.getElem_map, List.getElem_range, zeros, List.length_replicate]
      rw [Nat.cast_sub (by omega)]
      by_cases h3 : i = p
      · subst h3; rw [if_pos le_rfl]; simp
      · rw [if_neg (by omega)]
        by_cases h4 : i < n
        · rw [if_pos h4]; ring
        · have : i = n := by omega
          subst this
          rw [if_neg h4, mul_one_div, div_self hpn]
    · rw [List.getElem_append_right (by simp [zeros]; omega), if_neg (by omega), if_neg (by omega)]
      simp [ones]

end PySpline
