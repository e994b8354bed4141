import Verif.Lemmas.Integers
import Verif.Lemmas.Ders
import Verif.Props.Surface

/-!
# Integer arguments of the basis functions and of the derivatives of surfaces (C155)
-/

set_option linter.unusedSectionVars false

namespace PySpline

open Spec

variable {K : Type} [Field K] [LinearOrder K] [IsStrictOrderedRing K]

/-- **C155.** `basis_functions`: for a natural degree the function of C15; for the degree `-1` an
empty array; below that `ValueError`. -/
theorem basis_functions_int (span : ℤ) (u : K) (U : List K) :
    (∀ p : ℕ, basisFunctionsZ span u p U = basisFunctions span u p U) ∧
    basisFunctionsZ span u (-1) U = .ok [] ∧
    ∀ p : ℤ, p < -1 → basisFunctionsZ span u p U = .error .valueError := by
  refine ⟨fun p => by simp [basisFunctionsZ], by simp [basisFunctionsZ, onesZ, ones], fun p hp => ?_⟩
  unfold basisFunctionsZ onesZ
  rw [if_neg (by omega), if_pos (by omega)]

/-- **C155.** `basis_function_ders`: for natural numbers the function of C18; a degree or an order
below `-1` raises `ValueError`, the degree `-1` raises `IndexError`, and so does the order `-1`
after the table of the basis functions has been built. -/
theorem basis_function_ders_int (span : ℤ) (u : K) (U : List K) :
    (∀ p order : ℕ, basisFunctionDersZ span u p U order = basisFunctionDers span u p U order) ∧
    (∀ p order : ℤ, p < -1 ∨ order < -1 → basisFunctionDersZ span u p U order = .error .valueError) ∧
    (∀ order : ℤ, -1 ≤ order → basisFunctionDersZ span u (-1) U order = .error .indexError) ∧
    ∀ k p : ℕ, U.Pairwise (· ≤ ·) → p ≤ k → k + p < U.length → knotFn U k < knotFn U (k + 1) →
      basisFunctionDersZ k u p U (-1) = .error .indexError := by
  have h0 : ∀ p : ℕ, ∃ m : List (List K), set2 (ones2 (p + 1) (p + 1) : List (List K)) 0 0 1 = .ok m := by
    intro p
    obtain ⟨m, e, -⟩ := set2_nat (shape_replicate (p + 1) (p + 1) (1 : K)) 0 0 0 0 (1 : K) 0
      rfl rfl (by omega) (by omega)
    exact ⟨m, e⟩
  refine ⟨fun p order => ?_, fun p order h => ?_, fun order h => ?_, fun k p hU hp hk hs => ?_⟩
  · obtain ⟨m, hm⟩ := h0 p
    unfold basisFunctionDersZ basisFunctionDers
    rw [zeros2Z_nat (p + 1) (order + 1) (by push_cast; ring) (by push_cast; ring), ok_bind,
      ones2Z_nat (p + 1) (p + 1) (by push_cast; ring) (by push_cast; ring), ok_bind, hm, ok_bind]
    simp only [Int.toNat_natCast, show ((order : ℤ) + 1).toNat = order + 1 by omega]
  · unfold basisFunctionDersZ zeros2Z
    rw [if_pos (by omega)]
    rfl
  · unfold basisFunctionDersZ zeros2Z ones2Z
    rw [if_neg (by omega), if_neg (by omega)]
    rfl
  · obtain ⟨m, hm⟩ := h0 p
    obtain ⟨ndu, e, tri⟩ := nduTable_tri (monotone_knotFn hU) u hp hk hs
    unfold basisFunctionDersZ
    rw [zeros2Z_nat (p + 1) 0 (by push_cast; ring) (by norm_num), ok_bind,
      ones2Z_nat (p + 1) (p + 1) (by push_cast; ring) (by push_cast; ring), ok_bind, hm, ok_bind]
    simp only [Int.toNat_natCast]
    rw [e, ok_bind, forN_succ_left (by omega)]
    obtain ⟨x, hx⟩ : ∃ x, get2 ndu ((0 : ℕ) : ℤ) (p : ℤ) = .ok x :=
      ⟨_, get2_nat tri.1 _ _ 0 p 0 rfl rfl (by omega) (by omega)⟩
    have he : set2 (zeros2 (p + 1) 0 : List (List K)) ((0 : ℕ) : ℤ) 0 x = .error .indexError := by
      unfold set2
      rw [pyGet_nat _ _ 0 [] rfl (by simp [zeros2])]
      rfl
    rw [hx, ok_bind, he]
    rfl

example : basisFunctionDersZ 2 (1 / 4 : ℚ) 2 [0, 0, 0, 1 / 2, 1, 1, 1] (-1) = .error .indexError ∧
    basisFunctionDersZ 2 (1 / 4 : ℚ) 2 [0, 0, 0, 1 / 2, 1, 1, 1] (-2) = .error .valueError ∧
    basisFunctionDersZ 2 (1 / 4 : ℚ) 2 [0, 0, 0, 1 / 2, 1, 1, 1] 1
      = .ok [[1 / 4, -2], [5 / 8, 1], [1 / 8, 1]] ∧
    basisFunctionsZ 2 (1 / 4 : ℚ) (-1) [0, 0, 0, 1 / 2, 1, 1, 1] = .ok [] := by decide +kernel

/-- **C155.** `one_basis_function`: for a natural index the function of C20.  A negative index `i`
with `i + degree + 1 < 0` counts from the end of the knot vector: outside the knots
`U[i], ..., U[i + degree + 1]` the value is `0` and between them `ValueError` is raised.  For the
remaining negative indices the value is `0` for every knot as soon as `U[i + degree + 1] < U[i]`. -/
theorem one_basis_function_int {p : ℕ} {U : List K} :
    (∀ (i : ℕ) (u : K), oneBasisFunctionZ p U i u = oneBasisFunction p U i u) ∧
    (∀ (i : ℤ) (m : ℕ) (u : K), (U.length : ℤ) + i = m → i + p + 1 < 0 →
      oneBasisFunctionZ p U i u =
        if u < U.getD m 0 ∨ U.getD (m + p + 1) 0 < u then .ok 0 else .error .valueError) ∧
    ∀ (i : ℤ) (m j : ℕ) (u : K), (U.length : ℤ) + i = m → i < 0 → i + p + 1 = j →
      j + 1 < U.length → U.getD j 0 < U.getD m 0 → oneBasisFunctionZ p U i u = .ok 0 := by
  refine ⟨fun i u => ?_, fun i m u hm hi => ?_, fun i m j u hm hi hj hjl hlt => ?_⟩
  · unfold oneBasisFunctionZ oneBasisFunction
    rw [zerosZ_nat (i + p + 1) (by push_cast; ring)]
    simp only [ok_bind, Nat.cast_eq_zero]
  · unfold oneBasisFunctionZ
    rw [pyGet_nat U 0 0 0 rfl (by omega), ok_bind, pyGet_nat U _ (U.length - 1) 0 (by omega) (by omega),
      ok_bind, if_neg (by omega), pyGet_wrap U i m hm (by omega), pyGet_nat U _ m 0 rfl (by omega),
      ok_bind, pyGet_wrap U (i + p + 1) (m + p + 1) (by push_cast; omega) (by omega),
      pyGet_nat U _ (m + p + 1) 0 rfl (by omega)]
    by_cases h1 : u < U.getD m 0
    · rw [if_pos h1, if_pos (.inl h1)]
    rw [if_neg h1, ok_bind]
    by_cases h2 : U.getD (m + p + 1) 0 < u
    · rw [if_pos h2, if_pos (.inr h2)]
    rw [if_neg h2, if_neg (by tauto)]
    unfold zerosZ
    rw [if_pos (by omega)]
    rfl
  · unfold oneBasisFunctionZ
    rw [pyGet_nat U 0 0 0 rfl (by omega), ok_bind, pyGet_nat U _ (U.length - 1) 0 (by omega) (by omega),
      ok_bind, if_neg (by omega), pyGet_wrap U i m hm (by omega), pyGet_nat U _ m 0 rfl (by omega),
      ok_bind, pyGet_nat U _ j 0 hj (by omega)]
    by_cases h1 : u < U.getD m 0
    · rw [if_pos h1]
    · rw [if_neg h1, ok_bind, if_pos (lt_of_lt_of_le hlt (not_lt.1 h1))]

/-- Index `-4` of seven knots and degree 2: `U[-4]` is `1/2` and `U[-1]` is `1`. -/
example : oneBasisFunctionZ 2 [0, 0, 0, 1 / 2, 1, 1, 1] (-4) (3 / 4 : ℚ) = .error .valueError ∧
    oneBasisFunctionZ 2 [0, 0, 0, 1 / 2, 1, 1, 1] (-4) (1 / 4 : ℚ) = .ok 0 ∧
    oneBasisFunctionZ 2 [0, 0, 0, 1 / 2, 1, 1, 1] (-1) (3 / 4 : ℚ) = .ok 0 := by decide +kernel

/-- **C155.** `one_basis_function_ders`: for natural numbers the function of C23; an order below
`-1` raises `ValueError`; a negative index `i` with `i + degree + 1 < 0` gives, for orders up to the
degree, exactly what the index `len(U) + i` gives — so here, in contrast to `one_basis_function`,
negative indices count from the end; for the remaining negative indices all derivatives are `0` as
soon as `U[i + degree + 1] ≤ U[i]`. -/
theorem one_basis_function_ders_int {p : ℕ} {U : List K} :
    (∀ (i order : ℕ) (u : K),
      oneBasisFunctionDersZ p U i u order = oneBasisFunctionDers p U i u order) ∧
    (∀ (i order : ℤ) (u : K), order < -1 → oneBasisFunctionDersZ p U i u order = .error .valueError) ∧
    (∀ (i : ℤ) (m order : ℕ) (u : K), (U.length : ℤ) + i = m → i + p + 1 < 0 → order ≤ p →
      oneBasisFunctionDersZ p U i u order = oneBasisFunctionDers p U m u order) ∧
    ∀ (i : ℤ) (m j order : ℕ) (u : K), (U.length : ℤ) + i = m → i < 0 → i + p + 1 = j →
      j < U.length → U.getD j 0 ≤ U.getD m 0 →
      oneBasisFunctionDersZ p U i u order = .ok (List.replicate (order + 1) 0) := by
  refine ⟨fun i order u => ?_, fun i order u h => ?_,
    fun i m order u hm hi ho => oneBasisFunctionDersZ_wrap u hm hi ho,
    fun i m j order u hm hi hj hjl hle => ?_⟩
  · unfold oneBasisFunctionDersZ oneBasisFunctionDers
    rw [zerosZ_nat (order + 1) (by push_cast; ring), ok_bind]
    simp only [show ((order : ℤ) + 1).toNat = order + 1 by omega]
    rfl
  · unfold oneBasisFunctionDersZ zerosZ
    rw [if_pos (by omega)]
    rfl
  · unfold oneBasisFunctionDersZ
    rw [zerosZ_nat (order + 1) (by push_cast; ring), ok_bind, pyGet_wrap U i m hm (by omega),
      pyGet_nat U _ m 0 rfl (by omega), ok_bind, pyGet_nat U _ j 0 hj hjl]
    by_cases h1 : u < U.getD m 0
    · rw [if_pos h1]; rfl
    · rw [if_neg h1, ok_bind, if_pos (hle.trans (not_lt.1 h1))]; rfl

/-- The values behind the two conventions: with index `-4` the derivatives of the last basis
function but none of its values. -/
example : oneBasisFunctionDersZ 2 [0, 0, 0, 1 / 2, 1, 1, 1] (-4) (3 / 4 : ℚ) 2 = .ok [1 / 4, 2, 8] ∧
    oneBasisFunctionDers 2 [0, 0, 0, 1 / 2, 1, 1, 1] 3 (3 / 4 : ℚ) 2 = .ok [1 / 4, 2, 8] ∧
    oneBasisFunctionDersZ 2 [0, 0, 0, 1 / 2, 1, 1, 1] (-3) (3 / 4 : ℚ) 2 = .ok [0, 0, 0] ∧
    oneBasisFunctionDersZ 2 [0, 0, 0, 1 / 2, 1, 1, 1] 3 (3 / 4 : ℚ) (-1) = .error .indexError := by
  decide +kernel

/-- **C155.** `BSplineSurface.derivatives`: for natural orders the function of C36; on a valid
surface at regular parameters an order below `-1` raises `ValueError` and the order `-1`
`IndexError`, the first parameter being looked at first. -/
theorem surface_derivatives_int (norm : List K → K) (s : Surface K) (u v : K) (t : Bool) :
    (∀ orderU orderV : ℕ, s.derivativesZ norm u v orderU orderV t
      = s.derivatives norm u v orderU orderV t) ∧
    (SurfaceOk s → 0 ≤ u ∧ u ≤ 1 → 0 ≤ v ∧ v ≤ 1 → Regular s.degreeU s.numU s.kvU u →
      Regular s.degreeV s.numV s.kvV v → ∀ orderU orderV : ℤ, orderU < 0 ∨ orderV < 0 →
      s.derivativesZ norm u v orderU orderV t = .error
        (if orderU < -1 then .valueError else if orderU = -1 then .indexError
          else if orderV < -1 then .valueError else .indexError)) := by
  refine ⟨fun a b => ?_, fun hs hu hv ru rv a b hab => ?_⟩
  · have key : ∀ (span : ℤ) (w : K) (p : ℕ) (U : List K) (o : ℕ),
        basisFunctionDersZ span w p U (min (o : ℤ) p) = basisFunctionDers span w p U (min o p) := by
      intro span w p U o
      rw [← (basis_function_ders_int span w U).1]
      congr 1
      exact (Nat.cast_min (α := ℤ) ..).symm
    have e : ∀ o p : ℕ, (min (o : ℤ) p + 1).toNat = min o p + 1 := by intro o p; omega
    unfold Surface.derivativesZ Surface.derivatives
    simp only [key, e]
    rw [zeros2Z_nat (b := 3) ((min a s.degreeU + 1) * (min b s.degreeV + 1)) 3 (by push_cast; ring) rfl]
    rfl
  · obtain ⟨m, hm, hm1, hm2, hm3, hm4, hm5⟩ := findSpan_regular hs.ku ru
    obtain ⟨k, hk, hk1, hk2, hk3, hk4, hk5⟩ := findSpan_regular hs.kv rv
    obtain ⟨Bu1, Bu2, -⟩ := basis_function_ders_int (m : ℤ) u s.kvU
    obtain ⟨-, Bv2, -⟩ := basis_function_ders_int (k : ℤ) v s.kvV
    have Bu3 := basis_function_ders_int (m : ℤ) u s.kvU |>.2.2.2 m s.degreeU hs.ku.mono hm1
      (by have := hs.ku.len; omega) hm5
    have Bv3 := basis_function_ders_int (k : ℤ) v s.kvV |>.2.2.2 k s.degreeV hs.kv.mono hk1
      (by have := hs.kv.len; omega) hk5
    unfold Surface.derivativesZ
    dsimp only
    rw [if_neg (by rw [(validateKnot_iff u).2 hu]; simp),
      if_neg (by rw [(validateKnot_iff v).2 hv]; simp), hm, ok_bind, hk, ok_bind]
    by_cases h1 : a < -1
    · rw [Bu2 _ _ (.inr (by omega)), if_pos h1]; rfl
    rw [if_neg h1]
    by_cases h2 : a = -1
    · rw [if_pos h2, show min a (s.degreeU : ℤ) = -1 by omega, Bu3]; rfl
    rw [if_neg h2]
    lift a to ℕ using (by omega)
    have e : min (a : ℤ) (s.degreeU : ℤ) = (min a s.degreeU : ℕ) := (Nat.cast_min (α := ℤ) ..).symm
    rw [e, Bu1, basis_function_ders_derivatives hs.ku.mono u hm1 (by have := hs.ku.len; omega) hm5,
      ok_bind]
    by_cases h3 : b < -1
    · rw [Bv2 _ _ (.inr (by omega)), if_pos h3]; rfl
    · rw [if_neg h3, show min b (s.degreeV : ℤ) = -1 by omega, Bv3]; rfl

/-- A bilinear patch. -/
example :
    (⟨1, 1, 2, 2, [[0, 0, 0], [0, 1, 0], [1, 0, 0], [1, 1, 1]], [0, 0, 1, 1], [0, 0, 1, 1]⟩ :
      Surface ℚ).derivativesZ (fun _ => 1) (1 / 2) (1 / 2) 1 (-1) false = .error .indexError ∧
    (⟨1, 1, 2, 2, [[0, 0, 0], [0, 1, 0], [1, 0, 0], [1, 1, 1]], [0, 0, 1, 1], [0, 0, 1, 1]⟩ :
      Surface ℚ).derivativesZ (fun _ => 1) (1 / 2) (1 / 2) (-3) (-1) false = .error .valueError ∧
    (⟨1, 1, 2, 2, [[0, 0, 0], [0, 1, 0], [1, 0, 0], [1, 1, 1]], [0, 0, 1, 1], [0, 0, 1, 1]⟩ :
      Surface ℚ).derivativesZ (fun _ => 1) (1 / 2) (1 / 2) 1 0 false
        = .ok [[1 / 2, 1 / 2, 1 / 4], [1, 0, 1 / 2]] := by decide +kernel

end PySpline
