import Verif.Lemmas.SmoothAux
import Verif.Lemmas.Smooth
import Verif.Props.Ders
import Verif.Props.Surface

/-!
# C103–C105: real functions and their derivatives

Here the values are real numbers and derivatives are those of analysis.
-/

set_option linter.unusedSectionVars false

namespace PySpline

open Polynomial Spec Set Filter Topology

/-! ## Multiplicities -/

/-- A quadratic knot vector with the interior knot `1/2`. -/
noncomputable def exR : List ℝ := [0, 0, 0, 1 / 2, 1, 1, 1]

theorem exR_clamped : Clamped 2 4 exR where
  size := by decide
  len := rfl
  mono := by simp [exR]; norm_num
  left i hi := by interval_cases i <;> simp [exR, knotFn]
  right i h1 h2 := by interval_cases i <;> simp [exR, knotFn]

/-! ## C103: derivatives of the basis functions -/

/-- **C103.** Where `u` is no knot, row `r`, column `m` of `basis_function_ders` is the `m`-th derivative at
`u` of the real function `N_{k-p+r,p}`, for all `m`; at a knot of multiplicity `s` this holds for `m ≤ p - s`. -/
theorem basis_function_ders_real {U : List ℝ} (hU : U.Pairwise (· ≤ ·)) {k p n : ℕ} {u : ℝ} (hp : p ≤ k)
    (hk : k + p < U.length) (hs : knotFn U k < knotFn U (k + 1)) (h1 : knotFn U k ≤ u)
    (h2 : u ≤ knotFn U (k + 1)) (h0 : knotFn U 0 < u) (hn : u < knotFn U n) (order : ℕ) :
    ∃ D, basisFunctionDers (k : ℤ) u p U order = .ok D ∧ ∀ r ≤ p, ∀ m ≤ order,
      (U.count u = 0 ∨ m + U.count u ≤ p) →
        (D.getD r []).getD m 0 = iteratedDeriv m (N (knotFn U) p (k - p + r)) u := by
  refine ⟨_, basis_function_ders_derivatives hU u hp hk hs order, fun r hr m hm hc => ?_⟩
  rw [(piece_derivs hU hs h1 h2 h0 hn hc (k - p + r)).2, List.getD_eq_getElem?_getD,
    List.getD_eq_getElem?_getD, List.getElem?_map, List.getElem?_range (by omega)]
  simp [show m < order + 1 by omega]

example : ∃ D, basisFunctionDers (2 : ℤ) (1 / 4) 2 exR 2 = .ok D ∧ ∀ r ≤ 2, ∀ m ≤ 2,
    (D.getD r []).getD m 0 = iteratedDeriv m (N (knotFn exR) 2 r) (1 / 4) := by
  obtain ⟨D, h1, h2⟩ := basis_function_ders_real exR_clamped.mono (k := 2) (p := 2) (n := 4) (u := 1 / 4) le_rfl
    (by simp [exR]) (by simp [exR, knotFn]) (by simp [exR, knotFn]) (by simp [exR, knotFn]; norm_num)
    (by simp [exR, knotFn]) (by simp [exR, knotFn]; norm_num) 2
  refine ⟨D, h1, fun r hr m hm => ?_⟩
  have : exR.count (1 / 4) = 0 := by
    rw [List.count_eq_zero]; simp [exR]
  simpa using h2 r hr m hm (.inl this)

/-- The value computed there: the derivatives of `(1 - 2 t)²` at `1/4`. -/
example : (Spec.deriv 1 (piece (knotFn exR) 2 2 0)).eval (1 / 4) = -2 := by
  simp [Spec.deriv, piece, knotFn, exR]
  norm_num

/-! ## C104: curves are smooth -/

section
variable {p n : ℕ} {U : List ℝ}

/-- The derivative of a clamped spline: the spline of one degree less through the scaled differences of
the coefficients. -/
theorem curve_hasDerivAt (hU : Clamped p n U) (c : ℕ → ℝ) {u : ℝ} (h1 : knotFn U 0 < u)
    (h2 : u < knotFn U (n + p)) (hc : U.count u < p) :
    HasDerivAt (curve (knotFn U) p n c) (∑ i ∈ Finset.range (n - 1),
      (p : ℝ) * (c (i + 1) - c i) / (knotFn U (i + p + 1) - knotFn U (i + 1)) * N (knotFn U) (p - 1) (i + 1) u) u := by
  have hV := monotone_knotFn hU.mono
  have hsz := hU.size
  obtain ⟨k, m, -, ha⟩ := exists_around hV h1 h2
  have hm := around_count hU.mono ha
  obtain ⟨q, rfl⟩ : ∃ q, p = q + 1 := ⟨p - 1, by omega⟩
  refine HasDerivAt.congr_of_eventuallyEq ?_ (curve_eventuallyEq c h2.ne)
  have hd : HasDerivAt (fun t => ∑ i ∈ Finset.range n, c i * N (knotFn U) (q + 1) i t)
      (∑ i ∈ Finset.range n, c i * (((q : ℝ) + 1) * (w (knotFn U) q i * N (knotFn U) q i u
        - w (knotFn U) q (i + 1) * N (knotFn U) q (i + 1) u))) u :=
    HasDerivAt.fun_sum fun i _ => (ha.hasDerivAt hV (by omega) i).const_mul (c i)
  have e : spline (knotFn U) (q + 1) n c = fun t => ∑ i ∈ Finset.range n, c i * N (knotFn U) (q + 1) i t := rfl
  rw [e]
  refine hd.congr_deriv ?_
  symm
  set g : ℕ → ℝ := fun i => w (knotFn U) q i * N (knotFn U) q i u with hg
  have g0 : g 0 = 0 := by
    have : knotFn U (q + 1) = knotFn U 0 := hU.left (q + 1) le_rfl
    simp [hg, w, this]
  have gn : g n = 0 := by
    have : knotFn U (n + q + 1) = knotFn U n := by
      rw [hU.right n le_rfl (by omega)]; rfl
    simp [hg, w, this]
  have key : ∀ n, ∑ i ∈ Finset.range (n + 1), c i * (((q : ℝ) + 1) * (g i - g (i + 1)))
      = ∑ i ∈ Finset.range n, ((q : ℝ) + 1) * (c (i + 1) - c i) * g (i + 1)
        + ((q : ℝ) + 1) * (c 0 * g 0 - c n * g (n + 1)) := by
    intro n
    induction n with
    | zero => simp; ring
    | succ n ih => rw [Finset.sum_range_succ, ih, Finset.sum_range_succ _ n]; ring
  have hkey := key (n - 1)
  rw [show n - 1 + 1 = n by omega, g0, gn] at hkey
  rw [hkey]
  simp only [mul_zero, sub_zero, add_zero, Nat.add_sub_cancel]
  refine Finset.sum_congr rfl fun i _ => ?_
  rw [hg]
  simp only [w]
  rw [show i + 1 + q + 1 = i + (q + 1) + 1 by omega]
  push_cast
  ring

/-- **C104.** A clamped curve with distinct interior knots (and the last interior knot outside the end
tolerance): `single_point` is a function on `[0, 1]` that is continuous, `p - 1` times continuously
differentiable on `(0, 1)`, and its derivative is the curve of degree `p - 1` through
`p (P[i+1] - P[i]) / (U[i+p+1] - U[i+1])`. -/
theorem single_point_smooth {d : ℕ} {P : List (List ℝ)} (hU : Clamped p n U) (hdist : DistinctInterior p n U)
    (hz : knotFn U 0 = 0) (ho : knotFn U (n + p) = 1)
    (hgap : knotFn U (n - 1) ≤ 1 - (1 / 10 ^ 8 + 1 / 10 ^ 6)) (hp : 1 ≤ p) (hP : Shape P n d) (hd : 3 ≤ d) :
    ∃ f : ℕ → ℝ → ℝ, (∀ u ∈ Icc (0 : ℝ) 1, Curve.singlePoint ⟨p, P, U⟩ u = .ok [f 0 u, f 1 u, f 2 u]) ∧
      ∀ c < 3, ContinuousOn (f c) (Icc 0 1) ∧ ContDiffOn ℝ (p - 1 : ℕ) (f c) (Ioo 0 1) ∧
        ∀ u ∈ Ioo (0 : ℝ) 1, U.count u < p → HasDerivAt (f c) (∑ i ∈ Finset.range (n - 1),
          (p : ℝ) * (coord P c (i + 1) - coord P c i) / (knotFn U (i + p + 1) - knotFn U (i + 1))
            * N (knotFn U) (p - 1) (i + 1) u) u := by
  have hV := monotone_knotFn hU.mono
  have hsz := hU.size
  have hlen := hU.len
  have hn : knotFn U n = 1 := by rw [hU.right n le_rfl (by omega), ho]
  have hmult : MultAtMost (knotFn U) 0 1 1 := by
    intro i h1 h2
    refine hdist i ?_ ?_
    · by_contra hc
      rw [hU.left i (by omega), hz] at h1
      exact lt_irrefl _ h1
    · by_contra hc
      have := hV (by omega : n ≤ i)
      linarith
  have hmult' : MultAtMost (knotFn U) (knotFn U 0) (knotFn U (n + p)) p := by
    rw [hz, ho]
    exact fun i h1 h2 => (hmult i h1 h2).trans_le (hV (by omega))
  refine ⟨fun c => curve (knotFn U) p n (coord P c), fun u hu => ?_, fun c _ => ⟨?_, ?_, ?_⟩⟩
  · refine single_point_bspline_sum hU hp hP hd hu.1 hu.2 (regular_of_distinct hU hdist hz ho hu.1 hu.2 ?_)
    intro h
    rw [abs_of_nonpos (by linarith [hu.2])] at h
    linarith
  · rw [← hz, ← ho]
    refine continuousOn_finsetSum _ fun i hi => continuousOn_const.mul ?_
    exact Nclosed_continuousOn hU (hdist p le_rfl hsz) (by
      have := hdist (n - 1) (by omega) (by omega)
      rwa [show n - 1 + 1 = n by omega] at this) hmult' (Finset.mem_range.1 hi)
  · have : ContDiffOn ℝ (p - 1 : ℕ) (spline (knotFn U) p n (coord P c)) (Ioo 0 1) := by
      refine ContDiffOn.sum fun i _ => contDiffOn_const.mul ?_
      exact N_contDiffOn hV hmult hz.le ho.ge (p - 1) p (by omega) i
    refine this.congr fun u hu => ?_
    exact (curve_eventuallyEq (coord P c) (by rw [ho]; exact hu.2.ne)).self_of_nhds
  · intro u hu hc
    exact curve_hasDerivAt hU (coord P c) (by rw [hz]; exact hu.1) (by rw [ho]; exact hu.2) hc

/-- The curve with control points `(0,0,0), (1,2,0), (3,2,0), (4,0,0)` on `exR`. -/
example : ∃ f : ℕ → ℝ → ℝ, (∀ u ∈ Icc (0 : ℝ) 1,
    Curve.singlePoint ⟨2, [[0, 0, 0], [1, 2, 0], [3, 2, 0], [4, 0, 0]], exR⟩ u = .ok [f 0 u, f 1 u, f 2 u]) ∧
    ∀ c < 3, ContDiffOn ℝ 1 (f c) (Ioo 0 1) := by
  obtain ⟨f, h1, h2⟩ := single_point_smooth (d := 3) (P := [[0, 0, 0], [1, 2, 0], [3, 2, 0], [4, 0, 0]]) exR_clamped
    (fun i h1 h2 => by interval_cases i <;> (simp [exR, knotFn]; try norm_num)) (by simp [exR, knotFn])
    (by simp [exR, knotFn]) (by simp [exR, knotFn]; norm_num) (by norm_num) ⟨rfl, by simp⟩ le_rfl
  exact ⟨f, h1, fun c hc => by simpa using (h2 c hc).2.1⟩

end

/-! ## C105: partial derivatives of surfaces -/

/-- **C105.** `derivatives(u, v, ..., normalize=False)` at parameters inside the square: the row of order
`(a, b)` is the `a`-th derivative in `u` of the `b`-th derivative in `v` of the tensor-product function
that `single_point` evaluates, unless `u` or `v` is a knot where that derivative need not exist. -/
theorem surface_derivatives_real (norm : List ℝ → ℝ) {s : Surface ℝ} (hs : ClampedSurface s) {u v : ℝ}
    (hu : 0 ≤ u ∧ u ≤ 1) (hv : 0 ≤ v ∧ v ≤ 1) (ru : Regular s.degreeU s.numU s.kvU u)
    (rv : Regular s.degreeV s.numV s.kvV v) (u0 : knotFn s.kvU 0 < u)
    (u1 : u < knotFn s.kvU (s.numU + s.degreeU)) (v0 : knotFn s.kvV 0 < v)
    (v1 : v < knotFn s.kvV (s.numV + s.degreeV)) (orderU orderV : ℕ) :
    ∃ rows, s.derivatives norm u v orderU orderV false = .ok rows ∧
      rows.length = (min orderU s.degreeU + 1) * (min orderV s.degreeV + 1) ∧
      ∀ a ≤ min orderU s.degreeU, ∀ b ≤ min orderV s.degreeV,
        (s.kvU.count u = 0 ∨ a + s.kvU.count u ≤ s.degreeU) →
        (s.kvV.count v = 0 ∨ b + s.kvV.count v ≤ s.degreeV) →
        rows.getD (a * (min orderV s.degreeV + 1) + b) [] = (List.range 3).map fun c =>
          iteratedDeriv a (fun x => iteratedDeriv b (fun y => s.value c x y) v) u := by
  obtain ⟨m, k, hm1, hm2, hk1, hk2, hms, hks, h⟩ := surface_derivatives_layout norm hs.ok hu hv ru rv orderU orderV
  obtain ⟨rows, h1, h2, h3⟩ := h false
  refine ⟨rows, h1, h2, fun a ha b hb hcu hcv => ?_⟩
  rw [h3 a ha b hb]
  have hsc : ∀ z r, scaledRow norm false z r = r := fun z r => by simp [scaledRow]
  rw [hsc]
  refine List.map_congr_left fun c _ => ?_
  have dv := fun j => Nclosed_derivs hs.cv.mono hks hk1 hk2 v0 v1 hcv j
  have du := fun i => Nclosed_derivs hs.cu.mono hms hm1 hm2 u0 u1 hcu i
  have inner : ∀ x, iteratedDeriv b (fun y => s.value c x y) v = ∑ i ∈ Finset.range s.numU,
      (∑ j ∈ Finset.range s.numV, coord s.ctrlpts c (i * s.numV + j) *
        (Spec.deriv b (piece (knotFn s.kvV) k s.degreeV j)).eval v) * Nclosed (knotFn s.kvU) s.degreeU s.numU i x := by
    intro x
    unfold Surface.value surface
    rw [iteratedDeriv_fun_sum fun i _ => ContDiffAt.sum fun j _ => contDiffAt_const.mul (dv j).1]
    refine Finset.sum_congr rfl fun i _ => ?_
    rw [iteratedDeriv_fun_sum fun j _ => contDiffAt_const.mul (dv j).1, Finset.sum_mul]
    refine Finset.sum_congr rfl fun j _ => ?_
    rw [iteratedDeriv_const_mul _ (dv j).1, (dv j).2]
    ring
  simp only [inner]
  rw [iteratedDeriv_fun_sum fun i _ => contDiffAt_const.mul (du i).1]
  unfold patchDeriv
  refine Finset.sum_congr rfl fun i _ => ?_
  rw [iteratedDeriv_const_mul _ (du i).1, (du i).2, Finset.sum_mul]
  refine Finset.sum_congr rfl fun j _ => ?_
  ring

/-- A biquadratic surface and the parameters `(1/4, 1/2)`, the second of which is a simple knot: all rows of
first order are the first partial derivatives. -/
example (P : List (List ℝ)) (hP : Shape P 16 3) (norm : List ℝ → ℝ) : ∃ rows,
    Surface.derivatives norm ⟨2, 2, 4, 4, P, exR, exR⟩ (1 / 4) (1 / 2) 1 1 false = .ok rows ∧
      rows.getD 1 [] = (List.range 3).map fun c =>
        _root_.deriv (fun y => Surface.value ⟨2, 2, 4, 4, P, exR, exR⟩ c (1 / 4) y) (1 / 2) := by
  have c1 : exR.count (1 / 4) = 0 := by
    rw [List.count_eq_zero]; simp [exR]
  have c2 : exR.count (1 / 2) = 1 := by
    simp [exR]
  have r : ∀ u : ℝ, 0 ≤ u → u ≤ 1 / 2 → Regular 2 4 exR u := fun u h1 h2 =>
    ⟨by simpa [exR, knotFn] using h1, by simp [exR, knotFn]; linarith,
      fun i h3 h4 _ => by interval_cases i <;> (simp [exR, knotFn]; try norm_num),
      fun h => by
        simp only [exR, knotFn, List.getD_cons_succ, List.getD_cons_zero] at h
        rw [abs_of_nonpos (by linarith)] at h
        norm_num at h
        linarith⟩
  obtain ⟨rows, h1, -, h2⟩ := surface_derivatives_real norm (s := ⟨2, 2, 4, 4, P, exR, exR⟩)
    ⟨exR_clamped, exR_clamped, by norm_num, by norm_num, hP⟩ (u := 1 / 4) (v := 1 / 2) (by norm_num) (by norm_num)
    (r _ (by norm_num) (by norm_num)) (r _ (by norm_num) le_rfl) (by simp [exR, knotFn])
    (by simp [exR, knotFn]; norm_num) (by simp [exR, knotFn]) (by simp [exR, knotFn]; norm_num) 1 1
  refine ⟨rows, h1, ?_⟩
  have := h2 0 (by simp) 1 (by simp) (.inl c1) (.inr (by rw [c2]))
  simpa using this

end PySpline
