import Verif.Lemmas.Affine
import Verif.Props.Ders
import Verif.Props.FindSpan
import Verif.Props.Knots

/-!
# C144: affine changes of the knots
-/

set_option linter.unusedSectionVars false

namespace PySpline

open Spec Polynomial

variable {K : Type} [Field K] [LinearOrder K] [IsStrictOrderedRing K]

/-- **C144.** `basis_functions` does not change when knots and parameter go through the same affine map (which may
reverse the order), for all arguments; when one call fails, the other fails in the same way. -/
theorem basis_functions_affine {a : K} (ha : a ≠ 0) (b : K) (span : ℤ) (u : K) (p : ℕ) (U : List K) :
    basisFunctions span (a * u + b) p (U.map fun x => a * x + b) = basisFunctions span u p U :=
  basisFunctions_affine ha b span u p U

/-- **C144.** The same for `one_basis_function`. -/
theorem one_basis_function_affine {a : K} (ha : 0 < a) (b : K) (p : ℕ) (U : List K) (i : ℕ) (u : K) :
    oneBasisFunction p (U.map fun x => a * x + b) i (a * u + b) = oneBasisFunction p U i u :=
  oneBasisFunction_affine ha b p U i u

/-- **C144.** The `m`-th derivative of one basis function is divided by `a ^ m`. -/
theorem one_basis_function_ders_affine {a : K} (ha : 0 < a) (b : K) (p : ℕ) (U : List K) (i : ℕ) (u : K) (order : ℕ) :
    oneBasisFunctionDers p (U.map fun x => a * x + b) i (a * u + b) order
      = (oneBasisFunctionDers p U i u order).map fun ders => ders.mapIdx fun m x => x / a ^ m := by
  have h := oneBasisFunctionDers_affine ha b p U i u order
  rcases e : oneBasisFunctionDers p U i u order with er | d <;>
    rcases e' : oneBasisFunctionDers p (U.map fun x => a * x + b) i (a * u + b) order with er' | d' <;> rw [e, e'] at h
  · exact congrArg _ (Eq.symm h)
  · exact h.elim
  · exact h.elim
  · refine congrArg _ (List.ext_getElem (by rw [List.length_mapIdx]; exact h.1) fun m h1 h2 => ?_)
    rw [List.length_mapIdx] at h2
    rw [List.getElem_mapIdx, h.2 m _ _ (List.getElem?_eq_getElem h2) (List.getElem?_eq_getElem h1),
      mul_div_cancel_left₀ _ (pow_ne_zero m ha.ne')]

/-- **C144.** The columns of `basis_function_ders` are divided by the powers of `a`. -/
theorem basis_function_ders_affine {a : K} (ha : 0 < a) (b : K) {U : List K} (hU : U.Pairwise (· ≤ ·)) {k p : ℕ} (u : K)
    (hp : p ≤ k) (hk : k + p < U.length) (hs : knotFn U k < knotFn U (k + 1)) (order : ℕ) :
    basisFunctionDers (k : ℤ) (a * u + b) p (U.map fun x => a * x + b) order
      = (basisFunctionDers (k : ℤ) u p U order).map fun rows => rows.map fun row => row.mapIdx fun m x => x / a ^ m := by
  have hne : U ≠ [] := by rintro rfl; simp at hk
  have e := knotFn_affine hne a b
  have hU' : (U.map fun x => a * x + b).Pairwise (· ≤ ·) :=
    hU.map _ fun x y h => (affine_le ha b x y).2 h
  rw [basis_function_ders_derivatives hU u hp hk hs order,
    basis_function_ders_derivatives hU' (a * u + b) hp (by rw [List.length_map]; exact hk)
      (by rw [e]; exact (affine_lt ha b _ _).2 hs) order, e]
  refine congrArg _ ?_
  dsimp only
  rw [List.map_map]
  refine List.map_congr_left fun r _ => List.ext_getElem (by simp) fun m h1 h2 => ?_
  simp only [Function.comp_apply, List.getElem_mapIdx, List.getElem_map, List.getElem_range]
  rw [piece_affine ha.ne', deriv_affine, eval_mul, eval_C, eval_comp]
  simp only [eval_mul, eval_sub, eval_C, eval_X]
  rw [show a⁻¹ * (a * u + b - b) = u by rw [add_sub_cancel_right, inv_mul_cancel_left₀ ha.ne'], inv_pow, mul_comm,
    div_eq_mul_inv]

/-- **C144.** The values of the basis functions do not depend on whether the knots were normalized first. -/
theorem basis_functions_normalize {U : List K} {x y : K} (hx : x ∈ U) (hy : y ∈ U) (hxy : x ≠ y) :
    ∃ W : List K, ∃ g : K → K, normalize U = .ok W ∧ W = U.map g ∧ StrictMono g ∧ (0 : K) ∈ W ∧ (1 : K) ∈ W ∧
      (∀ span u p, basisFunctions span (g u) p W = basisFunctions span u p U) ∧
      ∀ p i u, oneBasisFunction p W i (g u) = oneBasisFunction p U i u := by
  obtain ⟨lo, hi, -, -, hlt, -, W, h1, rfl, -, -, h0, h1', -, -⟩ := normalize_affine hx hy hxy
  have ha : 0 < (hi - lo)⁻¹ := inv_pos.2 (sub_pos.2 hlt)
  have e : (fun z => (z - lo) / (hi - lo)) = fun z => (hi - lo)⁻¹ * z + -((hi - lo)⁻¹ * lo) := by
    funext z
    rw [div_eq_mul_inv]
    ring
  rw [e] at h1 h0 h1'
  exact ⟨_, _, h1, rfl, fun x y h => (affine_lt ha _ x y).2 h, h0, h1', fun span u p =>
    basis_functions_affine ha.ne' _ span u p U, fun p i u => one_basis_function_affine ha _ p U i u⟩

/-- **C144.** `find_span` commutes with an increasing affine map where its test for the last knot gives the same
answer before and after. -/
theorem find_span_affine {a : K} (ha : 0 < a) (b : K) (n p : ℕ) (u : K) (U : List K)
    (h : nearEnd n (a * u + b) (U.map fun x => a * x + b) = nearEnd n u U) :
    findSpan n p (a * u + b) (U.map fun x => a * x + b) = findSpan n p u U := by
  refine findSpanWith_affine ha b _ _ _ n p u U fun e he => ?_
  have hn : n < U.length := by
    by_contra hc
    rw [pyGet, pyIdx, if_neg (by omega), if_neg (by omega)] at he
    cases he
  have hne : U ≠ [] := by rintro rfl; simp at hn
  rw [pyGet_knot U _ n rfl hn] at he
  obtain rfl := Except.ok.inj he
  unfold nearEnd at h
  rw [knotFn_affine hne] at h
  exact h

/-- **C144.** The test is not scale-free: shrink any knot vector far enough and `find_span` returns the last span for
every parameter. -/
theorem find_span_small_scale {a : K} (ha : 0 < a) {n p : ℕ} {U : List K} (hU : KnotVector p n U)
    (hsmall : a * (knotFn U n - knotFn U p) ≤ 1 / 10 ^ 8) {u : K} (hlo : knotFn U p ≤ u) (hhi : u ≤ knotFn U n) :
    findSpan n p (a * u) (U.map fun x => a * x) = .ok ((n : ℤ) - 1) := by
  have hlen := hU.len
  have hn : n < U.length := by omega
  have hne : U ≠ [] := by rintro rfl; simp at hn
  have e : (fun x => a * x) = fun x => a * x + 0 := by funext x; rw [add_zero]
  unfold findSpan findSpanWith
  rw [e, pyGet_knot _ _ n rfl (by rw [List.length_map]; exact hn), knotFn_affine hne, ok_bind, if_pos]
  unfold isclose atolDefault
  dsimp only
  rw [decide_eq_true_eq, add_zero, ← mul_sub, abs_mul, abs_of_pos ha, abs_of_nonpos (by linarith)]
  have h1 : a * -(u - knotFn U n) ≤ a * (knotFn U n - knotFn U p) := mul_le_mul_of_nonneg_left (by linarith) ha.le
  have h2 : 0 ≤ 1 / 10 ^ 6 * |a * knotFn U n| := by positivity
  linarith

/-- **C144.** Where both parameters pass the range check and the test for the last knot agrees, the point of the
curve is the same. -/
theorem single_point_affine_knots {a : K} (ha : 0 < a) (b : K) (p : ℕ) (P : List (List K)) (U : List K) (u : K)
    (h : nearEnd P.length (a * u + b) (U.map fun x => a * x + b) = nearEnd P.length u U)
    (hu : 0 ≤ u ∧ u ≤ 1) (hu' : 0 ≤ a * u + b ∧ a * u + b ≤ 1) :
    Curve.singlePoint ⟨p, P, U.map fun x => a * x + b⟩ (a * u + b) = Curve.singlePoint ⟨p, P, U⟩ u := by
  unfold Curve.singlePoint
  have v1 : validateKnot u = true := by unfold validateKnot; simp [hu]
  have v2 : validateKnot (a * u + b) = true := by unfold validateKnot; simp [hu']
  dsimp only
  rw [v1, v2, find_span_affine ha b _ p u U h]
  simp only [basis_functions_affine ha.ne']

/-! ## Examples -/

/-- Reversing the direction of the parameter: the knots are then decreasing, the values are the same. -/
example : basisFunctions 3 (1 - 3/10) 2 (exU.map fun x => -1 * x + 1) = basisFunctions 3 (3/10) 2 exU ∧
    basisFunctions 3 (3/10) 2 exU = .ok [8/25, 33/50, 1/50] := by
  decide +kernel

/-- Knots in `[2, 6]` instead of `[0, 1]`. -/
example : oneBasisFunctionDers 2 (exU.map fun x => 4 * x + 2) 3 (4 * (3/10) + 2) 2 = .ok [1/50, 1/5, 1] ∧
    oneBasisFunctionDers 2 exU 3 (3/10) 2 = .ok [1/50, 4/5, 16] := by
  decide +kernel

example : ∃ W : List ℚ, ∃ g : ℚ → ℚ, normalize [2, 2, 3, 6, 6] = .ok W ∧ W = [2, 2, 3, 6, 6].map g ∧ StrictMono g ∧
    (0 : ℚ) ∈ W ∧ (1 : ℚ) ∈ W ∧ (∀ span u p, basisFunctions span (g u) p W = basisFunctions span u p [2, 2, 3, 6, 6]) ∧
    ∀ p i u, oneBasisFunction p W i (g u) = oneBasisFunction p [2, 2, 3, 6, 6] i u :=
  basis_functions_normalize (x := 2) (y := 3) (by decide) (by decide) (by decide)

/-- **C144.** On knots of total length `10⁻⁸` the search returns span 5 for a parameter in span 3; the values of
`basis_functions` there are not between 0 and 1, and the computed point is another one. -/
theorem small_knots_witness :
    findSpan 6 2 (3/10) exU = .ok 3 ∧
    findSpan 6 2 (1 / 10 ^ 8 * (3/10)) (exU.map fun x => 1 / 10 ^ 8 * x) = .ok 5 ∧
    basisFunctions 5 (1 / 10 ^ 8 * (3/10)) 2 (exU.map fun x => 1 / 10 ^ 8 * x) = .ok [98/25, -154/25, 81/25] ∧
    checkKnotVector 2 (exU.map fun x => 1 / 10 ^ 8 * x) 6 = .ok true ∧
    Curve.singlePoint ⟨2, [[0,0,0],[1,0,0],[2,0,0],[3,0,0],[4,0,0],[5,0,0]], exU⟩ (3/10) = .ok [17/10, 0, 0] ∧
    Curve.singlePoint ⟨2, [[0,0,0],[1,0,0],[2,0,0],[3,0,0],[4,0,0],[5,0,0]], exU.map fun x => 1 / 10 ^ 8 * x⟩
      (1 / 10 ^ 8 * (3/10)) = .ok [83/25, 0, 0] := by
  decide +kernel

end PySpline
