import Verif.Props.Double
import Verif.Props.RoundedDers

/-!
# C140–C141 in double precision
-/

set_option linter.unusedSectionVars false

namespace PySpline

open Polynomial Spec

/-- **C140** in double precision, degree at most 10: on a span of length `h` the errors of the
derivatives of order `m` of all the basis functions add up to at most
`1e-14 p (p - 1) ⋯ (p - m + 1) (2 / h) ^ m`, and so does their sum for `m ≥ 1`. -/
theorem basis_function_ders_double {U : List ℚ} (hU : U.Pairwise (· ≤ ·)) {k p : ℕ} {u : ℚ}
    (hp10 : p ≤ 10) (hp : p ≤ k) (hk : k + p < U.length) (hs : knotFn U k < knotFn U (k + 1))
    (h1 : knotFn U k ≤ u) (h2 : u ≤ knotFn U (k + 1)) (order : ℕ) :
    ∃ D D', basisFunctionDers (k : ℤ) u p U order = .ok D ∧
      basisFunctionDersFl fl64 (k : ℤ) u p U order = .ok D' ∧ Shape D' (p + 1) (order + 1) ∧
      (∀ r ≤ p, |at2 D' r 0 0 - at2 D r 0 0| ≤ 1 / 10 ^ 14 * at2 D r 0 0) ∧
      (∀ m ≤ order, ∑ r ∈ Finset.range (p + 1), |at2 D' r m 0 - at2 D r m 0| ≤ 1 / 10 ^ 14 *
        (p.descFactorial m * (2 / (knotFn U (k + 1) - knotFn U k)) ^ m)) ∧
      ∀ m, 1 ≤ m → m ≤ order → |∑ r ∈ Finset.range (p + 1), at2 D' r m 0| ≤ 1 / 10 ^ 14 *
        (p.descFactorial m * (2 / (knotFn U (k + 1) - knotFn U k)) ^ m) := by
  obtain ⟨D, D', e, e', sh, hz, hb⟩ :=
    basis_function_ders_rounded rounding_fl64 accurate_fl64 hU hp hk hs h1 h2 order
  obtain ⟨D2, e2, hsum, -⟩ :=
    basis_function_ders_rounded_sum rounding_fl64 accurate_fl64 hU hp hk hs h1 h2 order
  rw [e'] at e2
  cases e2
  have hn : ∀ m, (0 : ℚ) ≤ p.descFactorial m * (2 / (knotFn U (k + 1) - knotFn U k)) ^ m := fun m =>
    mul_nonneg (Nat.cast_nonneg _) (pow_nonneg (div_nonneg (by norm_num) (sub_nonneg.2 hs.le)) _)
  refine ⟨D, D', e, e', sh, fun r hr => ?_, fun m hm => ?_, fun m hm1 hm => ?_⟩
  · refine (hz r hr).2.trans (mul_le_mul_of_nonneg_right (pow_error _ (by omega)) ?_)
    by_contra hc
    have h3 := (hz r hr).1
    have h4 := (hz r hr).2
    have h5 : (0 : ℚ) ≤ (1 / (1 - 1 / 2 ^ 53)) ^ (6 * p) - 1 :=
      sub_nonneg.2 (one_le_pow₀ accurate_fl64.one_le)
    have h6 := mul_nonpos_of_nonneg_of_nonpos h5 (not_le.1 hc).le
    have h7 := abs_nonpos_iff.1 (h4.trans h6)
    have := not_le.1 hc
    linarith
  · exact (hb m hm).trans (mul_le_mul_of_nonneg_right (pow_error _ (by omega)) (hn m))
  · exact (hsum m hm1 hm).trans (mul_le_mul_of_nonneg_right (pow_error _ (by omega)) (hn m))

/-- A cubic knot vector whose interior knots are the doubles `0.1` and `0.7`. -/
def exTenths : List ℚ := [0, 0, 0, 0, fl64 (1 / 10), fl64 (7 / 10), 1, 1, 1, 1]

/-- At the double `0.3`: derivatives up to order 4. -/
example : ∃ D D', basisFunctionDers 4 (fl64 (3 / 10)) 3 exTenths 4 = .ok D ∧
    basisFunctionDersFl fl64 4 (fl64 (3 / 10)) 3 exTenths 4 = .ok D' ∧
    ∑ r ∈ Finset.range 4, |at2 D' r 3 0 - at2 D r 3 0| ≤ 1 / 10 ^ 14 *
      ((6 : ℕ) * (2 / (fl64 (7 / 10) - fl64 (1 / 10))) ^ 3) := by
  obtain ⟨D, D', e, e', -, -, h, -⟩ := basis_function_ders_double (U := exTenths) (k := 4) (p := 3)
    (u := fl64 (3 / 10)) (by decide +kernel) (by norm_num) (by norm_num) (by decide)
    (by decide +kernel) (by decide +kernel) (by decide +kernel) 4
  exact ⟨D, D', e, e', h 3 (by norm_num)⟩

/-- There, the computed third derivatives do not sum to zero, and those of order 4 are exactly zero. -/
example : (match basisFunctionDersFl fl64 4 (fl64 (3 / 10)) 3 exTenths 4 with
    | .ok D => decide ((D.map fun row => row.getD 3 0).sum ≠ 0) &&
      decide (D.map (fun row => row.getD 4 0) = [0, 0, 0, 0])
    | _ => false) = true := by decide +kernel

/-- **C141** in double precision for degrees at most 4, with distinct interior knots away from `1`: the
error of the mixed derivative of order `(a, b)` is at most
`1e-14 p ⋯ (p - a + 1) (2 / hu) ^ a q ⋯ (q - b + 1) (2 / hv) ^ b R`. -/
theorem surface_derivatives_double {s : Surface ℚ} (hs : ClampedSurface s) {u v : ℚ}
    (hpu : s.degreeU ≤ 4) (hpv : s.degreeV ≤ 4)
    (hdu : DistinctInterior s.degreeU s.numU s.kvU) (hdv : DistinctInterior s.degreeV s.numV s.kvV)
    (hku : UnitKnots s.degreeU s.numU s.kvU) (hkv : UnitKnots s.degreeV s.numV s.kvV)
    (hgu : knotFn s.kvU (s.numU - 1) ≤ 1 - 102 / 10 ^ 8)
    (hgv : knotFn s.kvV (s.numV - 1) ≤ 1 - 102 / 10 ^ 8)
    (hu : 0 ≤ u ∧ u ≤ 1) (hv : 0 ≤ v ∧ v ≤ 1) (orderU orderV : ℕ) :
    ∃ m k : ℕ, knotFn s.kvU m ≤ u ∧ u ≤ knotFn s.kvU (m + 1) ∧ knotFn s.kvU m < knotFn s.kvU (m + 1) ∧
      knotFn s.kvV k ≤ v ∧ v ≤ knotFn s.kvV (k + 1) ∧ knotFn s.kvV k < knotFn s.kvV (k + 1) ∧
      (∃ D, s.DerivativesFl fl64 (endTestFl fl64) u v orderU orderV D) ∧
      ∀ D, s.DerivativesFl fl64 (endTestFl fl64) u v orderU orderV D →
        D.length = (min orderU s.degreeU + 1) * (min orderV s.degreeV + 1) ∧
        ∀ a ≤ min orderU s.degreeU, ∀ b ≤ min orderV s.degreeV,
          (D.getD (a * (min orderV s.degreeV + 1) + b) []).length = 3 ∧
          ∀ c < 3, ∀ R, (∀ i < s.numU * s.numV, |coord s.ctrlpts c i| ≤ R) →
            |(D.getD (a * (min orderV s.degreeV + 1) + b) []).getD c 0
              - patchDeriv (knotFn s.kvU) m s.degreeU s.numU (knotFn s.kvV) k s.degreeV s.numV
                (coord s.ctrlpts c) a b u v| ≤ 1 / 10 ^ 14 *
              (s.degreeU.descFactorial a * (2 / (knotFn s.kvU (m + 1) - knotFn s.kvU m)) ^ a *
                (s.degreeV.descFactorial b * (2 / (knotFn s.kvV (k + 1) - knotFn s.kvV k)) ^ b) * R) := by
  have hnu : knotFn s.kvU s.numU = 1 := by rw [hs.cu.right s.numU le_rfl (by omega), hku.one]
  have hnv : knotFn s.kvV s.numV = 1 := by rw [hs.cv.right s.numV le_rfl (by omega), hkv.one]
  have hru := regular_of_distinct hs.cu hdu hku.zero hku.one hu.1 hu.2 (fun h => by
    rw [abs_of_nonpos (by linarith)] at h
    norm_num at h hgu
    linarith)
  have hrv := regular_of_distinct hs.cv hdv hkv.zero hkv.one hv.1 hv.2 (fun h => by
    rw [abs_of_nonpos (by linarith)] at h
    norm_num at h hgv
    linarith)
  obtain ⟨m, k, -, -, m1, m2, m3, k1, k2, k3, he, hall⟩ :=
    surface_derivatives_rounded rounding_fl64 accurate_fl64 endTestFl_refl hs.ok hu hv hru hrv
    (fun h => by rw [hnu] at h; exact hgu.trans (endTestFl_one hu.2 h))
    (fun h => by rw [hnv] at h; exact hgv.trans (endTestFl_one hv.2 h)) orderU orderV
  refine ⟨m, k, m1, m2, m3, k1, k2, k3, he, fun D hD => ⟨(hall D hD).1, fun a ha b hb => ?_⟩⟩
  obtain ⟨hl, h⟩ := (hall D hD).2 a ha b hb
  refine ⟨hl, fun c hc R hR => (h c hc R hR).trans (mul_le_mul_of_nonneg_right (pow_error _ (by omega)) ?_)⟩
  have hpos : 0 < s.numU * s.numV := Nat.mul_pos (by have := hs.cu.size; omega) (by have := hs.cv.size; omega)
  have hR0 := (abs_nonneg _).trans (hR 0 hpos)
  have hA : (0 : ℚ) ≤ 2 / (knotFn s.kvU (m + 1) - knotFn s.kvU m) :=
    div_nonneg (by norm_num) (sub_nonneg.2 m3.le)
  have hB : (0 : ℚ) ≤ 2 / (knotFn s.kvV (k + 1) - knotFn s.kvV k) :=
    div_nonneg (by norm_num) (sub_nonneg.2 k3.le)
  positivity

/-- A surface of degree 2 × 1 at `(1/4, 1/2)`, whose coordinates are at most 5. -/
example : ∃ D, exS.DerivativesFl fl64 (endTestFl fl64) (1 / 4) (1 / 2) 2 2 D ∧ D.length = 6 := by
  obtain ⟨m, k, -, -, -, -, -, -, ⟨D, hD⟩, hall⟩ := surface_derivatives_double exS_clamped
    (by decide) (by decide)
    (by intro i h1 h2; change 2 ≤ i at h1; change i < 4 at h2; interval_cases i <;> decide +kernel)
    (by intro i h1 h2; change 1 ≤ i at h1; change i < 3 at h2; interval_cases i <;> decide +kernel)
    exS_unit.1 exS_unit.2 (by decide +kernel) (by decide +kernel) (u := 1 / 4) (v := 1 / 2) (by norm_num)
    (by norm_num) 2 2
  exact ⟨D, hD, (hall D hD).1⟩

end PySpline
