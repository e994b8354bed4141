import Verif.Lemmas.IeeeKnots
import Verif.Props.Double

/-!
# C161: which knot vectors `check_knot_vector` accepts in double precision
-/

set_option exponentiation.threshold 1100

namespace PySpline

open Spec Ext

/-- **C161.** `check_knot_vector` in double precision accepts every clamped array of doubles whose range
is between `2^-1022` and `2^1023`. -/
theorem check_knot_vector_binary64_accepts {p n : ℕ} {U : List ℚ} (hU : Clamped p n U)
    (hrep : ∀ x ∈ U, bin64 x = fin x) (h1 : 1 / 2 ^ 1022 ≤ knotFn U (n + p) - knotFn U 0)
    (h2 : knotFn U (n + p) - knotFn U 0 ≤ 2 ^ 1023) :
    checkKnotVectorR bin64 p (U.map fin) n = .ok true := by
  have hlen := hU.len
  have hV := monotone_knotFn hU.mono
  have m0 : knotFn U 0 ∈ U := by rw [knotFn_eq (by omega)]; exact List.getElem_mem _
  have m1 : knotFn U (n + p) ∈ U := by rw [knotFn_eq (by omega)]; exact List.getElem_mem _
  have hb : ∀ x ∈ U, knotFn U 0 ≤ x ∧ x ≤ knotFn U (n + p) := by
    intro x hx
    obtain ⟨i, hi, rfl⟩ := List.mem_iff_getElem.1 hx
    rw [← knotFn_eq hi]
    exact ⟨hV (by omega), hV (by omega)⟩
  obtain ⟨g, hg, hm, g0, g1⟩ := normalizeR_bin64 m0 m1 hb hrep h1 h2
  unfold checkKnotVectorR
  show (normalizeR bin64 (lift1 U) >>= _) = _
  rw [hg, ok_bind]
  unfold checkNormalizedR
  have hget : ∀ i, i < U.length → (lift1 (U.map g)).getD i 0 = fin (g (knotFn U i)) := by
    intro i hi
    rw [List.getD_eq_getElem?_getD, List.getElem?_eq_getElem (by simpa [lift1] using hi), knotFn_eq hi]
    simp only [lift1, List.getElem_map, Option.getD_some]
  have hlen' : (lift1 (U.map g)).length = n + p + 1 := by simp [lift1, hlen]
  have hz : iscloseR bin64 0 (fin 0) rtolDefault atolDefault = true := by decide +kernel
  rw [if_neg (not_not.2 hlen'), pySlice_nat _ 0 _ 0 (p + 1) 0 rfl (by push_cast; ring) (by omega), if_neg,
    pyGet_neg _ _ n 0 (by omega) (by omega), ok_bind]
  swap
  · rw [not_not, List.all_eq_true]
    intro x hx
    obtain ⟨r, hr, rfl⟩ := List.mem_map.1 hx
    have hr' := List.mem_range.1 hr
    rw [zero_add, hget r (by omega), hU.left r (by omega), g0]
    exact hz
  rw [hget n (by omega), hU.right n le_rfl (by omega), if_neg (by
    rw [not_not]; exact iscloseR_bin64_near g1), pyGet_nat _ 0 0 0 rfl (by omega), ok_bind]
  congr 1
  have hsort : (U.map g).Pairwise (· ≤ ·) := by
    rw [List.pairwise_map]
    exact hU.mono.imp fun h => hm h
  cases hW : U.map g with
  | nil => have := congrArg List.length hW; simp at this; rw [this] at hlen; simp at hlen
  | cons a l =>
    rw [hW] at hsort
    show increasingFromE (fin a) (lift1 (a :: l)) = true
    rw [increasingFromE_lift]
    exact (increasingFrom_head a l).2 hsort

/-- A clamped array with range `2^-1022` and one of huge numbers. -/
example : checkKnotVectorR bin64 2 (([0, 0, 0, 1 / 2 ^ 1074, 1 / 2 ^ 1022, 1 / 2 ^ 1022, 1 / 2 ^ 1022] : List ℚ).map fin) 4
      = .ok true ∧
    checkKnotVectorR bin64 1 (([-2 ^ 1022, -2 ^ 1022, 1, 2 ^ 1022, 2 ^ 1022] : List ℚ).map fin) 3 = .ok true :=
  ⟨check_knot_vector_binary64_accepts
    ⟨⟨by decide +kernel, by decide +kernel, by decide⟩, by intro i hi; interval_cases i <;> decide +kernel,
      by intro i h1 h2; interval_cases i <;> decide +kernel⟩
    (by decide +kernel) (by decide +kernel) (by decide +kernel),
  check_knot_vector_binary64_accepts
    ⟨⟨by decide +kernel, by decide +kernel, by decide⟩, by intro i hi; interval_cases i <;> decide +kernel,
      by intro i h1 h2; interval_cases i <;> decide +kernel⟩
    (by decide +kernel) (by decide +kernel) (by decide +kernel)⟩

/-- **C161.** The test is not strict: in double precision it accepts an array of doubles that is not
sorted, since the knots `2^-60` and `0` become equal when the least knot `-1` is subtracted.  In exact
arithmetic the array is rejected. -/
theorem check_knot_vector_binary64_unsorted :
    checkKnotVectorR bin64 2 (([-1, -1, -1, 1 / 2 ^ 60, 0, 1, 1, 1] : List ℚ).map fin) 5 = .ok true ∧
    checkKnotVectorFl fl64 2 ([-1, -1, -1, 1 / 2 ^ 60, 0, 1, 1, 1] : List ℚ) 5 = .ok true ∧
    checkKnotVector 2 ([-1, -1, -1, 1 / 2 ^ 60, 0, 1, 1, 1] : List ℚ) 5 = .ok false := by
  decide +kernel

end PySpline
