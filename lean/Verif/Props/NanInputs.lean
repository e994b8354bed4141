import Verif.Props.Nan

/-!
# C149: NaN and infinities as arguments
-/

set_option linter.unusedSectionVars false

namespace PySpline

open Ext Spec

section
variable {K : Type} [Field K] [LinearOrder K] [IsStrictOrderedRing K]

/-- **C149**, `validate_knot`. -/
theorem validate_knot_extended (u : Ext K) : validateKnotE u = true ↔ ∃ x, u = fin x ∧ 0 ≤ x ∧ x ≤ 1 := by
  cases u with
  | fin x =>
    rw [validateKnotE_lift, validateKnot_iff]
    exact ⟨fun h => ⟨x, rfl, h⟩, fun ⟨y, e, h⟩ => by cases e; exact h⟩
  | inf s => cases s <;> exact ⟨fun h => absurd h (by simp [validateKnotE, Ext.le, lt, eqv]),
      fun ⟨x, e, _⟩ => by cases e⟩
  | nan => exact ⟨fun h => absurd h (by simp [validateKnotE_nan]), fun ⟨x, e, _⟩ => by cases e⟩

theorem validateKnotE_nonfin {u : Ext K} (h : ∀ x, u ≠ fin x) : validateKnotE u = false := by
  rcases hv : validateKnotE u with _ | _
  · rfl
  · obtain ⟨x, e, -⟩ := (validate_knot_extended u).1 hv
    exact absurd e (h x)

/-- **C149**, evaluation: NaN and infinite parameters are rejected with `ValueError`, whatever the
control points and knots are. -/
theorem evaluation_rejects_nonfinite (norm : List K → K) :
    (∀ (c : Curve (Ext K)) u, (∀ x, u ≠ fin x) → c.singlePointE u = .error .valueError ∧
      ∀ order b, c.derivativesE norm u order b = .error .valueError) ∧
    ∀ (s : Surface (Ext K)) u v, ((∀ x, u ≠ fin x) ∨ ∀ x, v ≠ fin x) →
      s.singlePointE u v = .error .valueError ∧ ∀ a b t, s.derivativesE norm u v a b t = .error .valueError := by
  refine ⟨fun c u h => ⟨?_, fun order b => ?_⟩, fun s u v h => ⟨?_, fun a b t => ?_⟩⟩
  · unfold Curve.singlePointE
    rw [if_pos (validateKnotE_nonfin h)]
  · unfold Curve.derivativesE
    rw [if_pos (validateKnotE_nonfin h)]
  · unfold Surface.singlePointE
    rcases h with h | h
    · rw [if_pos (validateKnotE_nonfin h)]
    · rw [if_pos (validateKnotE_nonfin h)]
      split_ifs <;> rfl
  · unfold Surface.derivativesE
    rcases h with h | h
    · rw [if_pos (validateKnotE_nonfin h)]
    · rw [if_pos (validateKnotE_nonfin h)]
      split_ifs <;> rfl

/-- **C149**, `find_span` of NaN: the first probe is returned, in one round, for every array in which
it and the test at `U[n]` can read. -/
theorem find_span_nan {n p : ℕ} {U : List (Ext K)} (hpn : p < n) (hn : n + 1 < U.length) (fuel : ℕ) :
    findSpanFuelE (fuel + 1) n p nan U = .ok ((findSpanMid0 n p : ℕ) : ℤ) ∧
    findSpanE n p nan U = .ok ((findSpanMid0 n p : ℕ) : ℤ) ∧ p ≤ findSpanMid0 n p ∧ findSpanMid0 n p ≤ n := by
  obtain ⟨b1, b2, b3, b4⟩ := findSpanMid0_bounds hpn
  have key : ∀ fuel, findSpanFuelE (fuel + 1) n p nan U = .ok ((findSpanMid0 n p : ℕ) : ℤ) := by
    intro fuel
    unfold findSpanFuelE
    rw [pyGet_nat U _ n 0 rfl (by omega), ok_bind, isclose_nan_left, if_neg (by simp)]
    unfold findSpanLoopE
    rw [pyGet_nat U _ (findSpanMid0 n p) 0 rfl (by omega), ok_bind, lt_nan_left, if_neg (by simp),
      pyGet_nat U _ (findSpanMid0 n p + 1) 0 (by omega) (by omega), ok_bind, lt_nan_right, if_neg (by simp)]
  exact ⟨key fuel, key (n + p + 2), by omega, by omega⟩

/-- **C149**, `find_span` of an infinity: the loop does not end. -/
theorem find_span_inf {n p : ℕ} {U : List K} (hpn : p < n) (hn : n + 1 < U.length) (s : Bool) (fuel : ℕ) :
    findSpanFuelE fuel n p (inf s) (U.map fin) = .error .diverged := by
  unfold findSpanFuelE
  rw [pyGet_nat _ _ n 0 rfl (by simp; omega), ok_bind, getD_fin (by omega), if_neg (by cases s <;> simp [Ext.isclose, Ext.isFin, eqv])]
  obtain ⟨b1, b2, b3, b4⟩ := findSpanMid0_bounds hpn
  suffices H : ∀ fuel low high mid, low ≤ n → high ≤ n → mid ≤ n →
      findSpanLoopE (inf s) (U.map fin) fuel low high mid = .error .diverged from
    H fuel p n _ (by omega) le_rfl (by omega)
  intro fuel
  induction fuel with
  | zero => intro low high mid _ _ _; rfl
  | succ fuel ih =>
    intro low high mid h1 h2 h3
    unfold findSpanLoopE
    rw [pyGet_nat _ _ mid 0 rfl (by simp; omega), ok_bind, getD_fin (by omega)]
    cases s with
    | true =>
      rw [if_pos (by rfl)]
      exact ih _ _ _ h1 h3 (by omega)
    | false =>
      rw [if_neg (by simp [lt]), pyGet_nat _ _ (mid + 1) 0 (by omega) (by simp; omega), ok_bind,
        getD_fin (by omega), if_pos (by rfl)]
      exact ih _ _ _ h3 h2 (by omega)

/-- **C149**, `find_multiplicity` of NaN. -/
theorem find_multiplicity_nan (U : List (Ext K)) : findMultiplicityE nan U = 0 := by
  unfold findMultiplicityE
  induction U with
  | nil => rfl
  | cons x xs ih =>
    rw [List.foldl_cons, if_neg (by unfold iscloseDE; rw [isclose_nan_left]; simp)]
    exact ih

/-- **C149**, `check_knot_vector` and `normalize`: an array with a knot that is NaN or infinite is
rejected, and `normalize` makes every entry of it `0` or NaN. -/
theorem check_knot_vector_nonfinite {U : List (Ext K)} {x : Ext K} (hx : x ∈ U) (h : ∀ y, x ≠ fin y) (p n : ℕ) :
    checkKnotVectorE p U n = .ok false ∧
    ∃ W, normalizeE U = .ok W ∧ W.length = U.length ∧ ∀ y ∈ W, y = 0 ∨ y = nan := by
  have hf : x.isFin = false := by
    cases x with
    | fin y => exact absurd rfl (h y)
    | inf s => rfl
    | nan => rfl
  obtain ⟨W, h1, h2, h3⟩ := normalizeE_nonfin hx hf
  refine ⟨?_, W, h1, h2, h3⟩
  unfold checkKnotVectorE
  rw [h1, ok_bind]
  exact checkNormalizedE_zero_nan p n W h3

/-- **C149**, `basis_functions` of NaN: all values are NaN. -/
theorem basis_functions_nan {U : List (Ext K)} {k p : ℕ} (hp1 : 1 ≤ p) (hp : p ≤ k) (hk : k + p < U.length) :
    basisFunctionsE (k : ℤ) nan p U = .ok (List.replicate (p + 1) nan) := by
  obtain ⟨N, hN, hl, hq⟩ := basisFunctionsE_absorb absorbing_nan U k p nan hp1 hp hk
    (by rw [sub_nan, nan_mul, add_nan]) (by rw [nan_sub, nan_mul])
  rw [hN, List.eq_replicate_iff.2 ⟨hl, hq⟩]

/-- **C149**, `one_basis_function` of NaN: the value is `0`. -/
theorem one_basis_function_nan {p i : ℕ} {U : List (Ext K)} (hi : i + p + 1 < U.length) :
    oneBasisFunctionE p U i nan = .ok 0 := by
  unfold oneBasisFunctionE
  rw [pyGet_nat U 0 0 0 rfl (by omega), ok_bind, pyGet_nat U _ (U.length - 1) 0 (by omega) (by omega), ok_bind,
    if_neg (by simp [eqv_nan_left]), pyGet_nat U _ i 0 rfl (by omega), ok_bind, lt_nan_left, if_neg (by simp),
    pyGet_nat U _ (i + p + 1) 0 (by omega) (by omega), ok_bind, lt_nan_right, if_neg (by simp)]
  dsimp only
  rw [forN_fix, ok_bind, forN_fix, ok_bind]
  · exact pyGet_zerosE (z := 0) (j := 0) rfl (by omega)
  · intro k h1 h2
    rw [pyGet_zerosE (z := 0) (j := 0) rfl (by omega), ok_bind, if_neg (by rw [eqv_zero_zero]; simp), ok_bind,
      forN_fix, ok_bind]
    intro j h3 h4
    dsimp only
    rw [pyGet_nat U _ (i + j + 1) 0 (by omega) (by omega), ok_bind,
      pyGet_nat U _ (i + j + k + 1) 0 (by omega) (by omega), ok_bind,
      pyGet_zerosE (j := j + 1) (by omega) (by omega), ok_bind, if_pos eqv_zero_zero,
      pySet_zerosE rfl (by omega), ok_bind]
  · intro j h1 h2
    rw [pyGet_nat U _ (i + j) 0 (by omega) (by omega), ok_bind,
      pyGet_nat U _ (i + j + 1) 0 (by omega) (by omega), ok_bind, if_neg (by simp [le_nan_right])]

/-- **C149**, `one_basis_function_ders` of NaN: all values are `0`. -/
theorem one_basis_function_ders_nan {p i order : ℕ} {U : List (Ext K)} (hi : i + p + 1 < U.length)
    (ho : order ≤ p) : oneBasisFunctionDersE p U i nan order = .ok (List.replicate (order + 1) 0) := by
  unfold oneBasisFunctionDersE
  rw [pyGet_nat U _ i 0 rfl (by omega), ok_bind, lt_nan_left, if_neg (by simp),
    pyGet_nat U _ (i + p + 1) 0 (by omega) (by omega), ok_bind, le_nan_right, if_neg (by simp)]
  have hT : oneBasisTableE p U i nan = .ok (zeros2E (p + 1) (p + 1)) := by
    unfold oneBasisTableE
    dsimp only
    rw [forN_fix, ok_bind, forN_fix]
    · intro k h1 h2
      rw [get2_zerosE (y := 0) (a := 0) (b := k - 1) rfl (by omega) (by omega) (by omega), ok_bind,
        if_neg (by rw [eqv_zero_zero]; simp), ok_bind, forN_fix, ok_bind]
      intro j h3 h4
      dsimp only
      rw [pyGet_nat U _ (i + j + 1) 0 (by omega) (by omega), ok_bind,
        pyGet_nat U _ (i + j + k + 1) 0 (by omega) (by omega), ok_bind,
        get2_zerosE (a := j + 1) (b := k - 1) (by omega) (by omega) (by omega) (by omega), ok_bind,
        if_pos eqv_zero_zero, set2_zerosE rfl rfl (by omega) (by omega), ok_bind]
    · intro j h1 h2
      rw [pyGet_nat U _ (i + j) 0 (by omega) (by omega), ok_bind,
        pyGet_nat U _ (i + j + 1) 0 (by omega) (by omega), ok_bind, if_neg (by simp [le_nan_right])]
  rw [hT, ok_bind, get2_zerosE (y := 0) (a := 0) (b := p) rfl rfl (by omega) (by omega), ok_bind,
    pySet_zerosE (z := 0) (j := 0) rfl (by omega), ok_bind]
  dsimp only
  rw [forN_fix, ok_bind]
  intro k h1 h2
  dsimp only
  rw [forN_fix, ok_bind, forN_fix, ok_bind, pyGet_zerosE (z := 0) (j := 0) rfl (by omega), ok_bind,
    pySet_zerosE rfl (by omega), ok_bind]
  · intro jj h3 h4
    rw [pyGet_zerosE (z := 0) (j := 0) rfl (by omega), ok_bind, if_neg (by rw [eqv_zero_zero]; simp), ok_bind,
      forN_fix, ok_bind]
    intro j h5 h6
    dsimp only
    have e : (fin ((p : K) - k + jj) * 0 : Ext K) = 0 := by
      show fin (((p : K) - k + jj) * 0) = fin 0
      rw [mul_zero]
    rw [pyGet_nat U _ (i + j + 1) 0 (by omega) (by omega), ok_bind,
      pyGet_nat U _ (i + j + p - k + jj + 1) 0 (by omega) (by omega), ok_bind,
      pyGet_zerosE (j := j + 1) (by omega) (by omega), ok_bind, if_pos eqv_zero_zero, e,
      pySet_zerosE rfl (by omega), ok_bind]
  · intro j h3 h4
    rw [get2_zerosE (a := j) (b := p - k) rfl (by omega) (by omega) (by omega), ok_bind,
      pySet_zerosE rfl (by omega)]

end

/-! ## Concrete cases -/

example : findSpanE 6 2 nan (exU.map fin) = .ok 4 ∧
    basisFunctionsE 4 nan 2 (exU.map fin) = .ok [nan, nan, nan] ∧
    oneBasisFunctionE 2 (exU.map fin) 3 nan = .ok 0 ∧
    oneBasisFunctionDersE 2 (exU.map fin) 3 nan 1 = .ok [0, 0] := by decide +kernel

example : checkKnotVectorE 1 ([fin 0, fin 0, fin (1/2), inf false, inf false] : List (Ext ℚ)) 3 = .ok false ∧
    normalizeE ([fin 0, fin 0, fin (1/2), inf false, inf false] : List (Ext ℚ))
      = .ok [fin 0, fin 0, fin 0, nan, nan] ∧
    checkKnotVectorE 1 ([fin 0, fin 0, nan, fin 1, fin 1] : List (Ext ℚ)) 3 = .ok false ∧
    checkKnotVectorE 1 ([fin 0, fin 0, fin (1/2), fin 1, fin 1] : List (Ext ℚ)) 3 = .ok true := by decide +kernel

end PySpline
