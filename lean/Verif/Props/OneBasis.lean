import Verif.Lemmas.OneBasisAux
import Verif.Lemmas.OneBasis
import Verif.Lemmas.KnotValues
import Verif.Props.Ders

/-!
# C20–C24: `one_basis_function` and `one_basis_function_ders`
-/

set_option linter.unusedSectionVars false

namespace PySpline

open Spec Polynomial

variable {K : Type} [Field K] [LinearOrder K] [IsStrictOrderedRing K]

/-- **C20.** For a clamped knot vector with a non-empty first span, `one_basis_function` is the
Cox–de Boor function, closed at the right end; it never divides by zero. -/
theorem one_basis_function_cox_de_boor {p n : ℕ} {U : List K} (hU : Clamped p n U)
    (hfirst : knotFn U p < knotFn U (p + 1)) {i : ℕ} (hi : i < n) (u : K) :
    oneBasisFunction p U i u = .ok (Nclosed (knotFn U) p n i u) := by
  have hV := monotone_knotFn hU.mono
  have hlen := hU.len
  have hsz := hU.size
  have hlast : knotFn U 0 < knotFn U (n + p) :=
    lt_of_le_of_lt (hV (by omega : 0 ≤ p)) (lt_of_lt_of_le hfirst (hV (by omega)))
  rw [oneBasisFunction_spec hV u (by omega)]
  have e : U.length - 1 = n + p := by omega
  rw [e]
  unfold Nclosed
  congr 1
  by_cases h1 : u = knotFn U (n + p)
  · rw [if_pos h1]
    by_cases h2 : i + 1 = n
    · rw [if_pos h2, if_pos (Or.inr ⟨by omega, h1⟩)]
    · rw [if_neg h2, if_neg]
      · exact N_zero_of_not_support hV (Or.inr (by rw [h1]; exact hV (by omega)))
      · rintro (⟨-, h⟩ | ⟨h, -⟩)
        · rw [h1] at h; exact absurd h hlast.ne'
        · omega
  · rw [if_neg h1]
    by_cases h2 : i = 0 ∧ u = knotFn U 0
    · rw [if_pos (Or.inl h2), h2.2, N_first hU hfirst, if_pos h2.1]
    · rw [if_neg]
      rintro (h | ⟨-, h⟩)
      · exact h2 h
      · exact h1 h

/-- The value is zero outside the support. -/
theorem one_basis_function_support {p n : ℕ} {U : List K} (hU : Clamped p n U)
    (hfirst : knotFn U p < knotFn U (p + 1)) {i : ℕ} (hi : i < n) (u : K)
    (h : u < knotFn U i ∨ knotFn U (i + p + 1) < u) : oneBasisFunction p U i u = .ok 0 := by
  have hV := monotone_knotFn hU.mono
  rw [one_basis_function_cox_de_boor hU hfirst hi]
  unfold Nclosed
  by_cases h1 : u = knotFn U (n + p)
  · rw [if_pos h1]
    by_cases h2 : i + 1 = n
    · exfalso
      rcases h with h | h
      · exact absurd (hV (by omega : i ≤ n + p)) (not_le.2 (h1 ▸ h))
      · have e : i + p + 1 = n + p := by omega
        rw [e, h1] at h
        exact lt_irrefl _ h
    · rw [if_neg h2]
  · rw [if_neg h1, N_zero_of_not_support hV (h.imp id le_of_lt)]

/-- **C21.** The row of all `one_basis_function` values sums to one on the closed domain. -/
theorem one_basis_function_row_sum {p n : ℕ} {U : List K} (hU : Clamped p n U)
    (hfirst : knotFn U p < knotFn U (p + 1)) {u : K} (h1 : knotFn U 0 ≤ u)
    (h2 : u ≤ knotFn U (n + p)) :
    ∃ row, mapPy (fun i => oneBasisFunction p U i u) (List.range n) = .ok row ∧ row.sum = 1 := by
  refine ⟨_, mapPy_eq_ok _ (fun i => Nclosed (knotFn U) p n i u) _ fun i hi =>
    one_basis_function_cox_de_boor hU hfirst (List.mem_range.1 hi) u, ?_⟩
  rw [sum_map_range]
  have hsz := hU.size
  exact sum_Nclosed hU (by rw [hU.left p le_rfl]; exact h1)
    (by rw [hU.right n le_rfl (by omega)]; exact h2)

/-- **C22.** On a half-open span `one_basis_function` gives the entries of `basis_functions`. -/
theorem one_basis_function_agrees {p n : ℕ} {U : List K} (hU : Clamped p n U)
    (hfirst : knotFn U p < knotFn U (p + 1)) {k i : ℕ} (hpk : p ≤ k) (hkn : k < n) (hi : i < n)
    {u : K} (h1 : knotFn U k ≤ u) (h2 : u < knotFn U (k + 1)) :
    ∃ B, basisFunctions (k : ℤ) u p U = .ok B ∧
      oneBasisFunction p U i u
        = .ok (if k - p ≤ i ∧ i ≤ k then B.getD (i - (k - p)) 0 else 0) := by
  have hV := monotone_knotFn hU.mono
  have hlen := hU.len
  refine ⟨_, basis_functions_cox_de_boor hU.mono hpk (by omega) h1 h2, ?_⟩
  rw [one_basis_function_cox_de_boor hU hfirst hi]
  unfold Nclosed
  rw [if_neg (h2.trans_le (hV (by omega))).ne]
  congr 1
  by_cases h : k - p ≤ i ∧ i ≤ k
  · rw [if_pos h]
    have e : k - p + (i - (k - p)) = i := by omega
    simp [List.getD_eq_getElem?_getD, show i - (k - p) < p + 1 by omega, e]
  · rw [if_neg h, N_eq_piece hV h1 h2]
    by_cases h' : i ≤ k
    · rw [piece_eq_zero_of_gt _ _ _ _ (by omega)]; simp
    · rw [piece_eq_zero_of_lt _ _ _ _ (by omega)]; simp

/-- **C23.** For a parameter in the half-open span `k` and an order up to the degree,
`one_basis_function_ders` returns the derivatives of the basis polynomial of that span. -/
theorem one_basis_function_ders_derivatives {U : List K} (hU : U.Pairwise (· ≤ ·)) {p i k : ℕ}
    {u : K} (hi : i + p + 1 < U.length) (h1 : knotFn U k ≤ u) (h2 : u < knotFn U (k + 1))
    {order : ℕ} (ho : order ≤ p) :
    oneBasisFunctionDers p U i u order
      = .ok ((List.range (order + 1)).map fun m =>
          (deriv m (piece (knotFn U) k p i)).eval u) := by
  obtain ⟨d, e, hl, hd⟩ := oneBasisFunctionDers_spec (monotone_knotFn hU) hi h1 h2 ho
  rw [e, eq_map_range hl fun r hr => hd r (by omega)]

/-- **C23**, agreement with `basis_function_ders`: the matching row, or zeros. -/
theorem one_basis_function_ders_agrees {U : List K} (hU : U.Pairwise (· ≤ ·)) {p i k : ℕ}
    {u : K} (hi : i + p + 1 < U.length) (hpk : p ≤ k) (hk : k + p < U.length)
    (h1 : knotFn U k ≤ u) (h2 : u < knotFn U (k + 1)) {order : ℕ} (ho : order ≤ p) :
    ∃ ders, basisFunctionDers (k : ℤ) u p U order = .ok ders ∧
      oneBasisFunctionDers p U i u order
        = .ok (if k - p ≤ i ∧ i ≤ k then ders.getD (i - (k - p)) [] else zeros (order + 1)) := by
  refine ⟨_, basis_function_ders_derivatives hU u hpk hk (h1.trans_lt h2) order, ?_⟩
  rw [one_basis_function_ders_derivatives hU hi h1 h2 ho]
  congr 1
  by_cases h : k - p ≤ i ∧ i ≤ k
  · rw [if_pos h]
    have e : k - p + (i - (k - p)) = i := by omega
    simp [List.getD_eq_getElem?_getD, show i - (k - p) < p + 1 by omega, e]
  · rw [if_neg h]
    have h0 : piece (knotFn U) k p i = 0 := by
      by_cases h' : i ≤ k
      · exact piece_eq_zero_of_gt _ _ _ _ (by omega)
      · exact piece_eq_zero_of_lt _ _ _ _ (by omega)
    rw [h0]
    simp [zeros, deriv, List.map_const']

/-- **C24.** At the last knot `one_basis_function_ders` returns zeros for every index and every
order, while `one_basis_function` returns `1` for the last index. -/
theorem one_basis_function_ders_right_end {p n : ℕ} {U : List K} (hU : KnotVector p n U) {i : ℕ}
    (hi : i < n) (order : ℕ) :
    oneBasisFunctionDers p U i (knotFn U (n + p)) order = .ok (zeros (order + 1)) ∧
    oneBasisFunction p U (n - 1) (knotFn U (n + p)) = .ok 1 := by
  have hV := monotone_knotFn hU.mono
  have hlen := hU.len
  have hsz := hU.size
  constructor
  · unfold oneBasisFunctionDers
    dsimp only
    rw [pyGet_knot U _ i rfl (by omega), ok_bind,
      if_neg (not_lt.2 (hV (by omega : i ≤ n + p))),
      pyGet_knot U _ (i + p + 1) (by push_cast; rfl) (by omega), ok_bind,
      if_pos (hV (by omega : i + p + 1 ≤ n + p))]
  · rw [oneBasisFunction_spec hV _ (by omega), if_pos]
    exact Or.inr ⟨by omega, by rw [hlen]; rfl⟩

/-- **C127.** With an order above the degree `one_basis_function_ders` returns zeros outside the support of the basis
function and raises `IndexError` inside, where `basis_function_ders` returns its derivatives. -/
theorem one_basis_function_ders_above_degree {U : List K} (hU : U.Pairwise (· ≤ ·)) {p i k : ℕ} {u : K}
    (hi : i + p + 1 < U.length) (h1 : knotFn U k ≤ u) (h2 : u < knotFn U (k + 1)) {order : ℕ} (ho : p < order) :
    (¬ (k - p ≤ i ∧ i ≤ k) → oneBasisFunctionDers p U i u order = .ok (zeros (order + 1))) ∧
    (k - p ≤ i ∧ i ≤ k → oneBasisFunctionDers p U i u order = .error .indexError) ∧
    (p ≤ k → k + p < U.length → k - p ≤ i ∧ i ≤ k → ∃ ders, basisFunctionDers (k : ℤ) u p U order = .ok ders ∧
      ders.getD (i - (k - p)) [] = (List.range (order + 1)).map fun m =>
        (deriv m (piece (knotFn U) k p i)).eval u) := by
  have hV := monotone_knotFn hU
  refine ⟨fun h => ?_, fun h => ?_, fun hpk hk h => ?_⟩
  · unfold oneBasisFunctionDers
    dsimp only
    rw [pyGet_knot U _ i rfl (by omega), ok_bind]
    by_cases hik : i ≤ k
    · rw [if_neg (not_lt.2 ((hV hik).trans h1)), pyGet_knot U _ (i + p + 1) (by push_cast; rfl) hi, ok_bind,
        if_pos ((hV (show i + p + 1 ≤ k by omega)).trans h1)]
    · rw [if_pos (h2.trans_le (hV (by omega)))]
  · exact oneBasisFunctionDers_above hV hi h1 h2 ((hV h.2).trans h1) (h2.trans_le (hV (by omega))) ho
  · refine ⟨_, basis_function_ders_derivatives hU u hpk hk (h1.trans_lt h2) order, ?_⟩
    have e : k - p + (i - (k - p)) = i := by omega
    simp [List.getD_eq_getElem?_getD, show i - (k - p) < p + 1 by omega, e]

/-! ## Concrete cases -/

/-- C127: the third derivatives of quadratic basis functions. -/
example : oneBasisFunctionDers 2 exU 2 (3/10) 3 = .error .indexError ∧
    oneBasisFunctionDers 2 exU 5 (3/10) 3 = .ok [0, 0, 0, 0] := by decide +kernel

example : oneBasisFunctionDers 2 exU 2 (3/10) 3 = .error .indexError :=
  (one_basis_function_ders_above_degree exU_knotVector.mono (k := 3) (by decide) (by decide +kernel) (by decide +kernel)
    (by decide)).2.1 (by decide)

theorem exU_clamped : Clamped 2 6 exU where
  len := by decide +kernel
  mono := by decide +kernel
  size := by decide
  left := by intro i hi; interval_cases i <;> decide +kernel
  right := by intro i h1 h2; interval_cases i <;> decide +kernel

example : oneBasisFunction 2 exU 2 (3/10) = .ok (33/50) := by decide +kernel

example : oneBasisFunction 2 exU 2 (3/10) = .ok (Nclosed (knotFn exU) 2 6 2 (3/10)) :=
  one_basis_function_cox_de_boor exU_clamped (by decide +kernel) (by decide) _

example : ∃ row, mapPy (fun i => oneBasisFunction 2 exU i 1) (List.range 6) = .ok row ∧
    row.sum = 1 :=
  one_basis_function_row_sum exU_clamped (by decide +kernel) (by decide +kernel)
    (by decide +kernel)

example : ∃ B, basisFunctions (3 : ℕ) (3/10) 2 exU = .ok B ∧ oneBasisFunction 2 exU 2 (3/10)
    = .ok (if 3 - 2 ≤ 2 ∧ 2 ≤ 3 then B.getD (2 - (3 - 2)) 0 else 0) :=
  one_basis_function_agrees exU_clamped (by decide +kernel) (by decide) (by decide) (by decide)
    (by decide +kernel) (by decide +kernel)

example : oneBasisFunctionDers 2 exU 2 (3/10) 2 = .ok [33/50, 12/5, -32] := by decide +kernel

example : oneBasisFunctionDers 2 exU 2 (3/10) 2 = .ok ((List.range 3).map fun m =>
    (deriv m (piece (knotFn exU) 3 2 2)).eval (3/10)) :=
  one_basis_function_ders_derivatives exU_knotVector.mono (by decide) (by decide +kernel)
    (by decide +kernel) (by decide)

/-- The first span has to be non-empty in C20 and C21: with `degree + 2` equal first knots (which
`check_knot_vector` accepts) the row at the first knot sums to `2`. -/
theorem row_sum_overfull_first_knot :
    checkKnotVector 2 ([0, 0, 0, 0, 1, 1, 1] : List ℚ) 4 = .ok true ∧
    mapPy (fun i => oneBasisFunction 2 ([0, 0, 0, 0, 1, 1, 1] : List ℚ) i 0) (List.range 4)
      = .ok [1, 1, 0, 0] := by
  decide +kernel

end PySpline
