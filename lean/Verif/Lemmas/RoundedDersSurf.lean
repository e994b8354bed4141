import Verif.Lemmas.RoundedDersAll
import Verif.Lemmas.Surface
import Verif.Lemmas.LeastSquares

/-!
# Products of rounded derivatives with a block of control points
-/

set_option linter.unusedSectionVars false

namespace PySpline

open Polynomial Spec

variable {K : Type} [Field K] [LinearOrder K] [IsStrictOrderedRing K]

/-- `basisFunctionDersFl_approx` with one bound for all orders. -/
theorem basisFunctionDersFl_approx_all {ρ : K} {fl : K → K} (hr' : Rounding fl) (hf : Accurate ρ fl)
    {U : List K} (hU : Monotone (knotFn U)) {k p : ℕ} {u : K}
    (hp : p ≤ k) (hk : k + p < U.length) (hs : knotFn U k < knotFn U (k + 1))
    (h1 : knotFn U k ≤ u) (h2 : u ≤ knotFn U (k + 1)) (order : ℕ) :
    Returns (basisFunctionDersFl fl (k : ℤ) u p U order) fun ders =>
      Shape ders (p + 1) (order + 1) ∧
      (∀ r ≤ p, Near ρ (6 * p) (at2 ders r 0 0) ((piece (knotFn U) k p (k - p + r)).eval u)) ∧
      ∀ r m, r ≤ p → m ≤ order →
        Approx (1 / ρ) (6 * p + 4) (at2 ders r m 0)
          ((Spec.deriv m (piece (knotFn U) k p (k - p + r))).eval u)
          (p.descFactorial m * rawAbs (knotFn U) k p u r m) := by
  refine (basisFunctionDersFl_approx hr' hf hU hp hk hs h1 h2 order).mono ?_
  rintro ders ⟨sh, hn, ha⟩
  refine ⟨sh, hn, fun r m hr hm => ?_⟩
  rcases Nat.eq_zero_or_pos m with rfl | h
  · have := ((hn r hr).approx hf.pos hf.le_one).mono hf.one_le (l := 6 * p + 4) (by omega)
    have e : (p.descFactorial 0 : K) * rawAbs (knotFn U) k p u r 0
        = (piece (knotFn U) k p (k - p + r)).eval u := by
      simp [rawAbs, aCoef]
    rw [e]
    exact this
  · exact ha r m hr h hm

/-- The error of `bu @ M @ bv` with factors of any sign. -/
theorem BilinearFl.approx_signed {ρ : K} {fl : K → K} (hr : Rounding fl) (hf : Accurate ρ fl) {a b k l : ℕ}
    {bu bv : List K} {f h F H : ℕ → K} (g : ℕ → ℕ → K) (ha : 1 ≤ a) (hbu : bu.length = a)
    (hbv : bv.length = b)
    (hfu : ∀ i < a, Approx (1 / ρ) k (bu.getD i 0) (f i) (F i))
    (hfv : ∀ j < b, Approx (1 / ρ) l (bv.getD j 0) (h j) (H j)) {x : K}
    (hx : BilinearFl fl bu ((List.range a).map fun i => (List.range b).map (g i)) bv x) :
    Approx (1 / ρ) (k + a + l + b) x (∑ i ∈ Finset.range a, ∑ j ∈ Finset.range b, f i * g i j * h j)
      (∑ i ∈ Finset.range a, ∑ j ∈ Finset.range b, F i * |g i j| * H j) := by
  obtain ⟨w, -, hw1, hw2, hw3, hw4⟩ := hx
  have hh : (((List.range a).map fun i => (List.range b).map (g i)).headD []).length = b := by
    obtain ⟨t, rfl⟩ : ∃ t, a = t + 1 := ⟨a - 1, by omega⟩
    rw [List.range_succ_eq_map]; simp
  rw [hh] at hw1
  have hcol : ∀ j < b, ((List.range a).map fun i => (List.range b).map (g i)).map (fun row => row.getD j 0)
      = (List.range a).map fun i => g i j := by
    intro j hj
    rw [List.map_map]
    refine List.map_congr_left fun i _ => ?_
    simp [List.getD_eq_getElem?_getD, hj]
  have hw : ∀ j < b, Approx (1 / ρ) (k + a) (w.getD j 0) (∑ i ∈ Finset.range a, f i * g i j)
      (∑ i ∈ Finset.range a, F i * |g i j|) := by
    intro j hj
    have := hw3 j (by omega)
    rw [hcol j hj] at this
    refine DotFl.approx hr hf hbu (by simp) (fun i hi => ?_) this
    have e : ((List.range a).map fun i => g i j).getD i 0 = g i j := by
      simp [List.getD_eq_getElem?_getD, hi]
    rw [e]
    exact (hfu i hi).mul hf.one_le (Approx.refl hf.one_le 0 (g i j))
  have := DotFl.approx hr hf hw1 hbv (fun j hj => (hw j hj).mul hf.one_le (hfv j hj)) hw4
  have e : ∀ (e : ℕ → ℕ → K) (h : ℕ → K), ∑ j ∈ Finset.range b, (∑ i ∈ Finset.range a, e i j) * h j
      = ∑ i ∈ Finset.range a, ∑ j ∈ Finset.range b, e i j * h j := by
    intro e h
    rw [Finset.sum_comm]
    exact Finset.sum_congr rfl fun j _ => by rw [Finset.sum_mul]
  rwa [e, e] at this

/-- Products of two groups of terms with numbers of bounded size. -/
theorem sum_sum_mul_le {a b : ℕ} {F H : ℕ → K} {g : ℕ → ℕ → K} {R S T : K}
    (hF : ∀ i < a, 0 ≤ F i) (hH : ∀ j < b, 0 ≤ H j) (hg : ∀ i < a, ∀ j < b, |g i j| ≤ R) (hR : 0 ≤ R)
    (hS : ∑ i ∈ Finset.range a, F i ≤ S) (hT : ∑ j ∈ Finset.range b, H j ≤ T) :
    ∑ i ∈ Finset.range a, ∑ j ∈ Finset.range b, F i * |g i j| * H j ≤ S * T * R := by
  have hF0 : 0 ≤ ∑ i ∈ Finset.range a, F i := Finset.sum_nonneg fun i hi => hF i (Finset.mem_range.1 hi)
  have hH0 : 0 ≤ ∑ j ∈ Finset.range b, H j := Finset.sum_nonneg fun i hi => hH i (Finset.mem_range.1 hi)
  calc _ ≤ ∑ i ∈ Finset.range a, ∑ j ∈ Finset.range b, F i * H j * R := by
        refine Finset.sum_le_sum fun i hi => Finset.sum_le_sum fun j hj => ?_
        have hi := Finset.mem_range.1 hi
        have hj := Finset.mem_range.1 hj
        have := mul_le_mul_of_nonneg_left (hg i hi j hj) (mul_nonneg (hF i hi) (hH j hj))
        linarith
    _ = (∑ i ∈ Finset.range a, F i) * (∑ j ∈ Finset.range b, H j) * R := by
        rw [Finset.sum_mul_sum, Finset.sum_mul]
        exact Finset.sum_congr rfl fun i _ => by rw [Finset.sum_mul]
    _ ≤ S * T * R := mul_le_mul_of_nonneg_right (mul_le_mul hS hT hH0 (hF0.trans hS)) hR

end PySpline
