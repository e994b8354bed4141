import Verif.Props.FitLipschitz
import Verif.Lemmas.Approximation
import Mathlib.Analysis.Calculus.MeanValue
import Mathlib.Analysis.Calculus.Deriv.Pow
import Mathlib.Analysis.Calculus.IteratedDeriv.Lemmas
import Mathlib.Algebra.Polynomial.Taylor

/-!
# C176: how close fits come to smooth data
-/

set_option linter.unusedSectionVars false

namespace PySpline

open Spec Finset

section
variable {K : Type} [Field K] [LinearOrder K] [IsStrictOrderedRing K]

/-- The values `q r` at the parameters `t r` are those of a function with Taylor's formula of order `q` on `[α, β]`, up to
errors of at most `ε`; at the ends the function has the values `P` and `Q`. -/
structure SmoothData (o : ℕ) (M ε α β P Q : K) (m : ℕ) (t q : ℕ → K) (a : ℕ → K → K) : Prop where
  taylor : TaylorOn o M α β a
  first : a 0 α = P
  last : a 0 β = Q
  values : ∀ r < m, |a 0 (t r) - q r| ≤ ε

/-- **C176.** If in a coordinate the data are values of a function that has Taylor's formula of order `o ≤ p` with the constant
`M` and the right values at the ends, up to errors of at most `ε`, then the mean squared distance of the data to the curve
that `single_fit_curve` returns is at most `((o + 1) M h ^ (o + 1) + ε)²`, where `h` is the length of the longest window of
`p + 1` consecutive spans: the fit has the full order of approximation of splines of degree `p`. -/
theorem single_fit_curve_smooth {ls : ℕ → List (List K) → List K → List K} (hls : IsLstsq ls)
    {c : Curve K} {data : List (List K)} {m n : ℕ} (hp : 1 ≤ c.degree)
    (hU : Clamped c.degree n c.kv) (hfirst : knotFn c.kv c.degree < knotFn c.kv (c.degree + 1))
    (hP : Shape c.ctrlpts n 3) (hd : Shape data m 4)
    (hdom : ∀ r < m, knotFn c.kv c.degree ≤ at2 data r 3 0 ∧ at2 data r 3 0 ≤ knotFn c.kv n)
    {h : K} (hh : ∀ i < n, knotFn c.kv (i + c.degree + 1) - knotFn c.kv i ≤ h) :
    ∃ c', singleFitCurve ls c data = .ok c' ∧ c'.degree = c.degree ∧ c'.kv = c.kv ∧
      ∀ k < 3, ∀ o ≤ c.degree, ∀ M ε a, 0 ≤ M → SmoothData o M ε (knotFn c.kv c.degree) (knotFn c.kv n)
        (coord c.ctrlpts k 0) (coord c.ctrlpts k (n - 1)) m (fun r => at2 data r 3 0) (fun r => at2 data r k 0) a →
      ∑ r ∈ range m, (curve (knotFn c.kv) c.degree n (coord c'.ctrlpts k) (at2 data r 3 0) - at2 data r k 0) ^ 2
        ≤ m * ((o + 1) * M * h ^ (o + 1) + ε) ^ 2 := by
  obtain ⟨c', h1, h2, h3, h4, h5, h6⟩ := single_fit_curve_optimal hls hU hfirst hP hd hdom
  refine ⟨c', h1, h2, h3, fun k hk o ho M ε a hM hs => ?_⟩
  obtain ⟨z, z0, z1, hz, -⟩ := exists_smooth_curve hU hp ho hh hM hs.taylor
  refine (h6 k hk z (z0.trans hs.first) (z1.trans hs.last)).trans (sum_sq_le_of_abs_le fun r hr => ?_)
  have e1 := hz _ (hdom r hr).1 (hdom r hr).2
  have e2 := hs.values r hr
  have := abs_sub_le (curve (knotFn c.kv) c.degree n z (at2 data r 3 0)) (a 0 (at2 data r 3 0)) (at2 data r k 0)
  linarith

/-- A polynomial of degree at most `o` has Taylor's formula of order `o` without remainder. -/
theorem taylorOn_polynomial {o : ℕ} (f : Polynomial K) (hf : f.natDegree ≤ o) (α β : K) :
    TaylorOn o 0 α β fun k x => (Polynomial.taylor x f).coeff k := by
  intro x y _ _ _ _ k _
  have e : Polynomial.taylor x f = Polynomial.taylor (x - y) (Polynomial.taylor y f) := by
    rw [Polynomial.taylor_taylor, sub_add_cancel]
  have hsum : (Polynomial.taylor x f).coeff k
      = ∑ j ∈ range (o + 1), (j.choose k : K) * (x - y) ^ (j - k) * (Polynomial.taylor y f).coeff j := by
    rw [e, Polynomial.taylor_apply]
    generalize hg : Polynomial.taylor y f = g
    have hgd : g.natDegree < o + 1 := by
      rw [← hg, Polynomial.natDegree_taylor]; omega
    conv_lhs => rw [Polynomial.as_sum_range' g (o + 1) hgd]
    rw [Polynomial.sum_comp, Polynomial.finsetSum_coeff]
    refine sum_congr rfl fun j _ => ?_
    rw [Polynomial.monomial_comp, Polynomial.coeff_C_mul, Polynomial.coeff_X_add_C_pow]
    ring
  dsimp only
  rw [hsum, sub_self, abs_zero, zero_mul]

/-- **C176.** Data that are the values of a polynomial of degree at most `p`, up to errors of at most `ε`, with the exact
values at the ends, are fitted with a mean squared distance of at most `ε²`, whatever the knots; without errors the curve
goes through all data. -/
theorem single_fit_curve_polynomial {ls : ℕ → List (List K) → List K → List K} (hls : IsLstsq ls)
    {c : Curve K} {data : List (List K)} {m n : ℕ} (hp : 1 ≤ c.degree)
    (hU : Clamped c.degree n c.kv) (hfirst : knotFn c.kv c.degree < knotFn c.kv (c.degree + 1))
    (hP : Shape c.ctrlpts n 3) (hd : Shape data m 4)
    (hdom : ∀ r < m, knotFn c.kv c.degree ≤ at2 data r 3 0 ∧ at2 data r 3 0 ≤ knotFn c.kv n) :
    ∃ c', singleFitCurve ls c data = .ok c' ∧ c'.degree = c.degree ∧ c'.kv = c.kv ∧
      ∀ k < 3, ∀ (f : Polynomial K), f.natDegree ≤ c.degree → f.eval (knotFn c.kv c.degree) = coord c.ctrlpts k 0 →
        f.eval (knotFn c.kv n) = coord c.ctrlpts k (n - 1) → ∀ ε,
        (∀ r < m, |f.eval (at2 data r 3 0) - at2 data r k 0| ≤ ε) →
        ∑ r ∈ range m, (curve (knotFn c.kv) c.degree n (coord c'.ctrlpts k) (at2 data r 3 0) - at2 data r k 0) ^ 2
          ≤ m * ε ^ 2 ∧
        (ε = 0 → ∀ r < m, curve (knotFn c.kv) c.degree n (coord c'.ctrlpts k) (at2 data r 3 0) = at2 data r k 0) := by
  have hmono := monotone_knotFn hU.mono
  have hw : ∀ i < n, knotFn c.kv (i + c.degree + 1) - knotFn c.kv i
      ≤ knotFn c.kv (n + c.degree) - knotFn c.kv 0 := fun i hi => by
    have h1 := hmono (show i + c.degree + 1 ≤ n + c.degree by omega)
    have h2 := hmono (Nat.zero_le i)
    linarith
  obtain ⟨c', h1, h2, h3, h4⟩ := single_fit_curve_smooth hls hp hU hfirst hP hd hdom hw
  refine ⟨c', h1, h2, h3, fun k hk f hf f0 f1 ε hε => ?_⟩
  have key := h4 k hk c.degree le_rfl 0 ε _ le_rfl
    ⟨taylorOn_polynomial f hf _ _, by rw [Polynomial.taylor_coeff_zero]; exact f0,
      by rw [Polynomial.taylor_coeff_zero]; exact f1, fun r hr => by rw [Polynomial.taylor_coeff_zero]; exact hε r hr⟩
  rw [mul_zero, zero_mul, zero_add] at key
  refine ⟨key, fun h0 r hr => ?_⟩
  rw [h0, zero_pow (by norm_num), mul_zero] at key
  have := (sum_eq_zero_iff_of_nonneg fun r _ => sq_nonneg _).1
    (le_antisymm key (sum_nonneg fun r _ => sq_nonneg _)) r (mem_range.2 hr)
  exact sub_eq_zero.1 (pow_eq_zero_iff (by norm_num) |>.1 this)

/-- **C176.** In round `s` of `fit_curve_knot_insertion`, for data of such a function with the parameters of the round, the mean
squared distance to the curve of the round is at most `((o + 1) M ((p + 1) w / 2 ^ s) ^ (o + 1) + ε)²`, `w` the length of the
longest span before the first round: each round divides the bound for the distance by `2 ^ (o + 1)`, up to the errors. -/
theorem fit_curve_knot_insertion_smooth {env : FitEnv K} (hls : IsLstsq env.lstsq)
    {data : List (List K)} (hpar : Parameterizes env data) {p : ℕ} (hp : 1 ≤ p) (N : ℤ) (t : ℕ)
    {n fuel : ℕ} {δ w : K} {c : Curve K} (hc : Spaced p n δ c)
    (hδ : 2 ^ t * (1 / 10 ^ 8 + 1 / 10 ^ 5) < δ) (hf : t < fuel)
    (hN : N ≤ ((p + 2 ^ t * (n - p) : ℕ) : ℤ)) (hlt : ∀ s < t, ((p + 2 ^ s * (n - p) : ℕ) : ℤ) < N)
    (hw : SpansAtMost p n c.kv w) :
    ∃ (b d : ℕ → Curve K) (rows : ℕ → List (List K)), b 0 = c ∧
      fitCurveKnotInsertion fuel env c data N = .ok (d t) ∧
      ∀ s ≤ t, parameterizeCurve env.num (env.curveLike (b s)) data = .ok (rows s) ∧
        ∀ k < 3, ∀ o ≤ p, ∀ M ε a, 0 ≤ M → SmoothData o M ε 0 1 (coord c.ctrlpts k 0) (coord c.ctrlpts k (n - 1))
            data.length (fun r => at2 (rows s) r 3 0) (fun r => at2 (rows s) r k 0) a →
          sqDist (rows s) (d s) k ≤ data.length * ((o + 1) * M * ((p + 1) * (w / 2 ^ s)) ^ (o + 1) + ε) ^ 2 := by
  obtain ⟨b, d, rows, hb0, hret, hw0, hall⟩ := fit_curve_knot_insertion_best hls hpar hp N t hc hδ hf hN hlt hw
  refine ⟨b, d, rows, hb0, hret, fun s hs => ?_⟩
  obtain ⟨h1, h2, hcl, h3, h4, hran, hbest⟩ := hall s hs
  refine ⟨h1, fun k hk o ho M ε a hM hsm => ?_⟩
  obtain ⟨z, z0, z1, hz, -⟩ := exists_smooth_curve hcl hp ho (h2.support hcl (by positivity)) hM
    (by rw [h3, h4]; exact hsm.taylor)
  rw [h3] at z0
  rw [h4] at z1
  refine (hbest k hk z (z0.trans hsm.first) (z1.trans hsm.last)).trans (sum_sq_le_of_abs_le fun r hr => ?_)
  have e1 := hz (at2 (rows s) r 3 0) (by rw [h3]; exact (hran r hr).1) (by rw [h4]; exact (hran r hr).2)
  have e2 := hsm.values r hr
  have := abs_sub_le (curve (knotFn (d s).kv) p (p + 2 ^ s * (n - p)) z (at2 (rows s) r 3 0)) (a 0 (at2 (rows s) r 3 0))
    (at2 (rows s) r k 0)
  linarith

/-- **C176.** If in a coordinate the data are values of a function of two variables that has Taylor's formula of total order
`o`, up to errors of at most `ε`, and the boundary control points are the blossoms of its Taylor polynomials, up to errors of
at most `δ`, then the mean squared distance of the data to the surface that `single_fit_surface` returns is at most
`((o + 1)² M h ^ (o + 1) + δ + ε)²`. -/
theorem single_fit_surface_smooth {ls : ℕ → List (List K) → List K → List K} (hls : IsLstsq ls)
    {s : Surface K} {data : List (List K)} {m : ℕ} (hs : ClampedSurface s)
    (fu : knotFn s.kvU s.degreeU < knotFn s.kvU (s.degreeU + 1))
    (fv : knotFn s.kvV s.degreeV < knotFn s.kvV (s.degreeV + 1)) (hd : Shape data m 5)
    (hu : ∀ r < m, knotFn s.kvU s.degreeU ≤ at2 data r 3 0 ∧ at2 data r 3 0 ≤ knotFn s.kvU s.numU)
    (hv : ∀ r < m, knotFn s.kvV s.degreeV ≤ at2 data r 4 0 ∧ at2 data r 4 0 ≤ knotFn s.kvV s.numV)
    {h : K} (hh : ∀ i < s.numU, knotFn s.kvU (i + s.degreeU + 1) - knotFn s.kvU i ≤ h)
    (hh' : ∀ j < s.numV, knotFn s.kvV (j + s.degreeV + 1) - knotFn s.kvV j ≤ h) :
    ∃ s', singleFitSurface ls s data = .ok s' ∧ s' = { s with ctrlpts := s'.ctrlpts } ∧
      ∀ k < 3, ∀ o ≤ s.degreeU, o ≤ s.degreeV → ∀ M δ ε a, 0 ≤ M → 0 ≤ δ →
        TaylorOn2 o M (knotFn s.kvU s.degreeU) (knotFn s.kvU s.numU) (knotFn s.kvV s.degreeV) (knotFn s.kvV s.numV) a →
        (∀ i < s.numU, ∀ j < s.numV, OnBoundary s i j →
          |coord s.ctrlpts k (i * s.numV + j) - quasi2 s.degreeU s.degreeV o a (fun r => knotFn s.kvU (i + 1 + r))
            (fun r => knotFn s.kvV (j + 1 + r)) (knotFn s.kvU (i + 1)) (knotFn s.kvV (j + 1))| ≤ δ) →
        (∀ r < m, |a 0 0 (at2 data r 3 0) (at2 data r 4 0) - at2 data r k 0| ≤ ε) →
      ∑ r ∈ range m, (surface (knotFn s.kvU) s.degreeU s.numU (knotFn s.kvV) s.degreeV s.numV
          (coord s'.ctrlpts k) (at2 data r 3 0) (at2 data r 4 0) - at2 data r k 0) ^ 2
        ≤ m * ((o + 1) ^ 2 * M * h ^ (o + 1) + δ + ε) ^ 2 := by
  have su := hs.cu.size
  have sv := hs.cv.size
  obtain ⟨s', h1, h2, h3⟩ := single_fit_surface_optimal hls hs fu fv hd hu hv
  refine ⟨s', h1, h2, fun k hk o hou hov M δ ε a hM hδ ha hb hε => ?_⟩
  classical
  let b : ℕ → ℕ → K := fun i j => quasi2 s.degreeU s.degreeV o a (fun r => knotFn s.kvU (i + 1 + r))
    (fun r => knotFn s.kvV (j + 1 + r)) (knotFn s.kvU (i + 1)) (knotFn s.kvV (j + 1))
  let z : ℕ → K := fun l => if OnBoundary s (l / s.numV) (l % s.numV) then
      coord s.ctrlpts k ((l / s.numV) * s.numV + l % s.numV) else b (l / s.numV) (l % s.numV)
  have hz : ∀ i j, j < s.numV → z (i * s.numV + j)
      = if OnBoundary s i j then coord s.ctrlpts k (i * s.numV + j) else b i j := by
    intro i j hj
    have e1 : (i * s.numV + j) / s.numV = i := by
      rw [mul_comm, Nat.mul_add_div (by omega), Nat.div_eq_of_lt hj, add_zero]
    have e2 : (i * s.numV + j) % s.numV = j := by
      rw [mul_comm, Nat.mul_add_mod, Nat.mod_eq_of_lt hj]
    simp only [z, e1, e2]
  refine (h3 k hk z fun i hi j hj hb' => by rw [hz i j hj, if_pos (show OnBoundary s i j from hb')]).trans (sum_sq_le_of_abs_le fun r hr => ?_)
  have e1 := smooth_surface hs.cu hs.cv hou hov hh hh' hM ha (z := z) (δ := δ) (fun i hi j hj => by
    rw [hz i j hj]
    split_ifs with hb'
    · exact hb i hi j hj hb'
    · show |b i j - b i j| ≤ δ
      rw [sub_self, abs_zero]; exact hδ) (hu r hr).1 (hu r hr).2 (hv r hr).1 (hv r hr).2
  have e2 := hε r hr
  have := abs_sub_le (surface (knotFn s.kvU) s.degreeU s.numU (knotFn s.kvV) s.degreeV s.numV z (at2 data r 3 0)
    (at2 data r 4 0)) (a 0 0 (at2 data r 3 0) (at2 data r 4 0)) (at2 data r k 0)
  linarith

end

/-! ## Differentiable functions of a real variable -/

/-- Taylor's formula for functions with derivatives `(k + 1) a (k + 1)`. -/
theorem taylorOn_of_hasDerivAt {o : ℕ} {B α β : ℝ} {a : ℕ → ℝ → ℝ} (hB : 0 ≤ B)
    (ha : ∀ k ≤ o, ∀ x, α ≤ x → x ≤ β → HasDerivAt (a k) ((k + 1) * a (k + 1) x) x)
    (hb : ∀ x, α ≤ x → x ≤ β → |a (o + 1) x| ≤ B) : TaylorOn o ((o + 1).factorial * B) α β a := by
  intro x y hx0 hx1 hy0 hy1
  have hsub : ∀ t ∈ Set.uIcc y x, α ≤ t ∧ t ≤ β := fun t ht => by
    rw [Set.mem_uIcc] at ht
    rcases ht with h | h <;> constructor <;> linarith
  let E : ℕ → ℝ → ℝ := fun k t => a k t - ∑ j ∈ range (o + 1), (j.choose k : ℝ) * (t - y) ^ (j - k) * a j y
  have hE : ∀ k ≤ o, ∀ t ∈ Set.uIcc y x, HasDerivAt (E k) ((k + 1) * E (k + 1) t) t := by
    intro k hk t ht
    have h1 := ha k hk t (hsub t ht).1 (hsub t ht).2
    have h2 : HasDerivAt (fun t => ∑ j ∈ range (o + 1), (j.choose k : ℝ) * (t - y) ^ (j - k) * a j y)
        (∑ j ∈ range (o + 1), (j.choose k : ℝ) * (((j - k : ℕ) : ℝ) * (t - y) ^ (j - k - 1)) * a j y) t := by
      refine HasDerivAt.fun_sum fun j _ => ?_
      have h3 : HasDerivAt (fun t => (t - y) ^ (j - k)) (((j - k : ℕ) : ℝ) * (t - y) ^ (j - k - 1)) t := by
        have := HasDerivAt.fun_pow ((hasDerivAt_id t).sub_const y) (j - k)
        simpa using this
      exact (h3.const_mul _).mul_const _
    refine (h1.fun_sub h2).congr_deriv ?_
    show _ = (k + 1 : ℝ) * (a (k + 1) t - ∑ j ∈ range (o + 1), (j.choose (k + 1) : ℝ) * (t - y) ^ (j - (k + 1)) * a j y)
    rw [mul_sub, mul_sum]
    congr 1
    refine sum_congr rfl fun j _ => ?_
    have e : ((j.choose (k + 1) : ℕ) : ℝ) * (k + 1) = j.choose k * ((j - k : ℕ) : ℝ) := by
      exact_mod_cast Nat.choose_succ_right_eq j k
    rw [show j - (k + 1) = j - k - 1 by omega]
    linear_combination (-(t - y) ^ (j - k - 1) * a j y) * e
  have hE0 : ∀ k ≤ o, E k y = 0 := by
    intro k hk
    show a k y - _ = 0
    rw [sum_eq_single k (fun j _ hjk => ?_) (fun h => absurd (mem_range.2 (by omega)) h)]
    · simp
    · rcases lt_or_ge j k with h | h
      · rw [Nat.choose_eq_zero_of_lt h]; simp
      · rw [sub_self, zero_pow (by omega)]; simp
  have key : ∀ d k, k + d = o + 1 → ∀ t ∈ Set.uIcc y x,
      |E k t| ≤ ((o + 1).factorial / k.factorial : ℝ) * B * |x - y| ^ d := by
    intro d
    induction d with
    | zero =>
      intro k hk t ht
      have hk' : k = o + 1 := by omega
      subst hk'
      have e : E (o + 1) t = a (o + 1) t := by
        show a (o + 1) t - _ = _
        rw [sum_eq_zero fun j hj => by rw [Nat.choose_eq_zero_of_lt (mem_range.1 hj)]; simp, sub_zero]
      rw [e, div_self (by positivity), one_mul, pow_zero, mul_one]
      exact hb t (hsub t ht).1 (hsub t ht).2
    | succ d ih =>
      intro k hk t ht
      have hbound : ∀ s ∈ Set.uIcc y x, ‖(k + 1 : ℝ) * E (k + 1) s‖
          ≤ (k + 1 : ℝ) * (((o + 1).factorial / (k + 1).factorial : ℝ) * B * |x - y| ^ d) := fun s hs => by
        rw [Real.norm_eq_abs, abs_mul, abs_of_nonneg (by positivity : (0 : ℝ) ≤ k + 1)]
        exact mul_le_mul_of_nonneg_left (ih (k + 1) (by omega) s hs) (by positivity)
      have := (convex_uIcc y x).norm_image_sub_le_of_norm_hasDerivWithin_le
        (fun s hs => (hE k (by omega) s hs).hasDerivWithinAt) hbound Set.left_mem_uIcc ht
      rw [hE0 k (by omega), sub_zero, Real.norm_eq_abs, Real.norm_eq_abs] at this
      have h4 : |t - y| ≤ |x - y| := Set.abs_sub_left_of_mem_uIcc ht
      have e : (k + 1 : ℝ) * (((o + 1).factorial / (k + 1).factorial : ℝ) * B * |x - y| ^ d)
          = ((o + 1).factorial / k.factorial : ℝ) * B * |x - y| ^ d := by
        rw [Nat.factorial_succ k]
        push_cast
        field_simp
      rw [e] at this
      calc |E k t| ≤ ((o + 1).factorial / k.factorial : ℝ) * B * |x - y| ^ d * |t - y| := this
        _ ≤ ((o + 1).factorial / k.factorial : ℝ) * B * |x - y| ^ d * |x - y| :=
            mul_le_mul_of_nonneg_left h4 (by positivity)
        _ = _ := by ring
  intro k hk
  refine (key (o + 1 - k) k (by omega) x Set.right_mem_uIcc).trans ?_
  refine mul_le_mul_of_nonneg_right (mul_le_mul_of_nonneg_right ?_ hB) (by positivity)
  have : (1 : ℝ) ≤ k.factorial := by exact_mod_cast Nat.succ_le_of_lt (Nat.factorial_pos k)
  exact div_le_self (by positivity) this

/-- **C176.** A function with `o + 1` continuous derivatives, the last one bounded by `B` on `[α, β]`, has Taylor's formula of
order `o` with the constant `B`. -/
theorem taylorOn_of_contDiff {o : ℕ} {B α β : ℝ} {f : ℝ → ℝ} (hf : ContDiff ℝ (o + 1) f)
    (hB : ∀ x, α ≤ x → x ≤ β → |iteratedDeriv (o + 1) f x| ≤ B) (hαβ : α ≤ β) :
    TaylorOn o B α β fun k x => iteratedDeriv k f x / k.factorial := by
  have hB0 : 0 ≤ B := (abs_nonneg _).trans (hB α le_rfl hαβ)
  have := taylorOn_of_hasDerivAt (o := o) (B := B / (o + 1).factorial) (α := α) (β := β)
    (a := fun k x => iteratedDeriv k f x / k.factorial) (by positivity) (fun k hk x _ _ => ?_) (fun x h0 h1 => ?_)
  · rwa [mul_div_cancel₀ _ (by positivity)] at this
  · have hd : Differentiable ℝ (iteratedDeriv k f) := hf.differentiable_iteratedDeriv k (by exact_mod_cast (by omega : k < o + 1))
    have h1 := (hd x).hasDerivAt
    rw [← iteratedDeriv_succ] at h1
    refine (h1.div_const _).congr_deriv ?_
    rw [Nat.factorial_succ]
    push_cast
    field_simp
  · rw [abs_div, abs_of_pos (by positivity : (0 : ℝ) < (o + 1).factorial)]
    exact div_le_div_of_nonneg_right (hB x h0 h1) (by positivity)

/-- **C176.** In real numbers: noisy values of a function with `o + 1 ≤ p + 1` continuous derivatives, the last one bounded by
`B`, are fitted with a mean squared distance of at most `((o + 1) B h ^ (o + 1) + ε)²`. -/
theorem single_fit_curve_contDiff {ls : ℕ → List (List ℝ) → List ℝ → List ℝ} (hls : IsLstsq ls)
    {c : Curve ℝ} {data : List (List ℝ)} {m n : ℕ} (hp : 1 ≤ c.degree)
    (hU : Clamped c.degree n c.kv) (hfirst : knotFn c.kv c.degree < knotFn c.kv (c.degree + 1))
    (hP : Shape c.ctrlpts n 3) (hd : Shape data m 4)
    (hdom : ∀ r < m, knotFn c.kv c.degree ≤ at2 data r 3 0 ∧ at2 data r 3 0 ≤ knotFn c.kv n)
    {h : ℝ} (hh : ∀ i < n, knotFn c.kv (i + c.degree + 1) - knotFn c.kv i ≤ h) :
    ∃ c', singleFitCurve ls c data = .ok c' ∧ c'.degree = c.degree ∧ c'.kv = c.kv ∧
      ∀ k < 3, ∀ o ≤ c.degree, ∀ (f : ℝ → ℝ) (B ε : ℝ), ContDiff ℝ (o + 1) f →
        (∀ x, knotFn c.kv c.degree ≤ x → x ≤ knotFn c.kv n → |iteratedDeriv (o + 1) f x| ≤ B) →
        f (knotFn c.kv c.degree) = coord c.ctrlpts k 0 → f (knotFn c.kv n) = coord c.ctrlpts k (n - 1) →
        (∀ r < m, |f (at2 data r 3 0) - at2 data r k 0| ≤ ε) →
      ∑ r ∈ range m, (curve (knotFn c.kv) c.degree n (coord c'.ctrlpts k) (at2 data r 3 0) - at2 data r k 0) ^ 2
        ≤ m * ((o + 1) * B * h ^ (o + 1) + ε) ^ 2 := by
  obtain ⟨c', h1, h2, h3, h4⟩ := single_fit_curve_smooth hls hp hU hfirst hP hd hdom hh
  have hab := monotone_knotFn hU.mono hU.size.le
  refine ⟨c', h1, h2, h3, fun k hk o ho f B ε hf hB f0 f1 hε => h4 k hk o ho B ε _ ?_
    ⟨taylorOn_of_contDiff hf hB hab, ?_, ?_, fun r hr => ?_⟩⟩
  · exact (abs_nonneg _).trans (hB _ le_rfl hab)
  · simpa using f0
  · simpa using f1
  · simpa using hε r hr

/-! ## Concrete cases -/

/-- `x³` has Taylor's formula of order two. -/
theorem exCube_taylor : TaylorOn 2 3 (0 : ℚ) 1
    (fun k x => if k = 0 then x ^ 3 else if k = 1 then 3 * x ^ 2 else 3 * x) := by
  intro x y _ _ _ _ k hk
  simp only [sum_range_succ, sum_range_zero]
  interval_cases k
  · norm_num [Nat.choose]
    rw [show x ^ 3 - (y ^ 3 + (x - y) * (3 * y ^ 2) + (x - y) ^ 2 * (3 * y)) = (x - y) ^ 3 by ring, abs_pow]
    nlinarith [pow_nonneg (abs_nonneg (x - y)) 3]
  · norm_num [Nat.choose]
    rw [show 3 * x ^ 2 - (3 * y ^ 2 + 2 * (x - y) * (3 * y)) = 3 * (x - y) ^ 2 by ring, abs_of_nonneg (by positivity)]
  · norm_num [Nat.choose]
    rw [show 3 * x - 3 * y = 3 * (x - y) by ring, abs_mul]
    norm_num

def exCubeCurve : Curve ℚ :=
  ⟨2, [[0, 0, 0], [0, 0, 0], [0, 0, 0], [0, 0, 0], [0, 0, 0], [1, 0, 0]], [0, 0, 0, 1/4, 1/2, 3/4, 1, 1, 1]⟩
def exCubeData : List (List ℚ) :=
  [[1/512, 0, 0, 1/8], [1/64, 0, 0, 1/4], [27/512, 0, 0, 3/8], [1/8, 0, 0, 1/2], [1/4, 0, 0, 5/8], [27/64, 0, 0, 3/4]]

theorem exCubeCurve_clamped : Clamped 2 6 exCubeCurve.kv :=
  ⟨⟨by decide +kernel, by decide +kernel, by decide⟩, by intro i hi; interval_cases i <;> decide +kernel,
    by intro i h1 h2; interval_cases i <;> decide +kernel⟩

/-- C176: values of `x³`, one of them off by `3/512`, fitted with a quadratic curve. -/
example (ls : ℕ → List (List ℚ) → List ℚ → List ℚ) (hls : IsLstsq ls) :
    ∃ c', singleFitCurve ls exCubeCurve exCubeData = .ok c' ∧
      ∑ r ∈ range 6, (curve (knotFn exCubeCurve.kv) 2 6 (coord c'.ctrlpts 0) (at2 exCubeData r 3 0)
        - at2 exCubeData r 0 0) ^ 2 ≤ (6 : ℕ) * ((((2 : ℕ) : ℚ) + 1) * 3 * (3/4) ^ (2 + 1) + 3 / 512) ^ 2 := by
  obtain ⟨c', h1, -, -, h2⟩ := single_fit_curve_smooth hls (c := exCubeCurve) (data := exCubeData) (m := 6) (n := 6)
    (by decide) exCubeCurve_clamped (by decide +kernel) ⟨rfl, by decide +kernel⟩ ⟨rfl, by decide +kernel⟩
    (by intro r hr; interval_cases r <;> decide +kernel) (h := 3 / 4)
    (by intro i hi; interval_cases i <;> decide +kernel)
  exact ⟨c', h1, h2 0 (by norm_num) 2 (by decide) 3 (3 / 512) _ (by norm_num)
    ⟨exCube_taylor, by decide +kernel, by decide +kernel, by
      intro r hr; interval_cases r <;> decide +kernel⟩⟩

/-- C176: two data points at distance one from a flat frame. -/
example (ls : ℕ → List (List ℚ) → List ℚ → List ℚ) (hls : IsLstsq ls) :
    ∃ s', singleFitSurface ls exWide exFrameData = .ok s' ∧
      ∑ r ∈ range 2, (surface (knotFn exWide.kvU) 1 4 (knotFn exWide.kvV) 1 3 (coord s'.ctrlpts 0)
          (at2 exFrameData r 3 0) (at2 exFrameData r 4 0) - at2 exFrameData r 0 0) ^ 2
        ≤ (2 : ℕ) * ((((1 : ℕ) : ℚ) + 1) ^ 2 * 0 * 1 ^ (1 + 1) + 0 + 1) ^ 2 := by
  obtain ⟨s', h1, -, h2⟩ := single_fit_surface_smooth hls (s := exWide) (m := 2)
    (data := exFrameData) exWide_clamped
    (by decide +kernel) (by decide +kernel) ⟨rfl, by decide +kernel⟩
    (by intro r hr; interval_cases r <;> decide +kernel) (by intro r hr; interval_cases r <;> decide +kernel)
    (h := 1) (by decide +kernel) (by decide +kernel)
  refine ⟨s', h1, h2 0 (by norm_num) 1 (by decide) (by decide) 0 0 1
    (fun k l _ _ => if k = 0 ∧ l = 0 then 100 else 0) le_rfl le_rfl ?_ ?_ ?_⟩
  · intro x y x' y' h _ _ _ _ _ _ k l hkl
    have : (k = 0 ∧ l = 0) ∨ (k = 1 ∧ l = 0) ∨ (k = 0 ∧ l = 1) := by omega
    rcases this with ⟨rfl, rfl⟩ | ⟨rfl, rfl⟩ | ⟨rfl, rfl⟩ <;> simp [sum_range_succ]
  · intro i hi j hj hb
    have : quasi2 exWide.degreeU exWide.degreeV 1 (fun k l (_ _ : ℚ) => if k = 0 ∧ l = 0 then 100 else 0)
        (fun r => knotFn exWide.kvU (i + 1 + r)) (fun r => knotFn exWide.kvV (j + 1 + r)) (knotFn exWide.kvU (i + 1))
        (knotFn exWide.kvV (j + 1)) = 100 := by
      simp [quasi2, sum_range_succ, polar_zero]
    rw [this]
    change i < 4 at hi
    change j < 3 at hj
    revert hb
    unfold OnBoundary
    interval_cases i <;> interval_cases j <;> decide +kernel
  · intro r hr
    interval_cases r <;> decide +kernel

end PySpline
