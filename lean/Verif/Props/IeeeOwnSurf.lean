import Verif.Props.IeeeSurfNewton
import Verif.Props.IeeeSessionEval
import Verif.Props.IeeeDers
import Verif.Lemmas.PatchBound

/-!
# C199: `surface_inversion` on B-spline surfaces in IEEE arithmetic
-/

set_option linter.unusedSectionVars false
set_option exponentiation.threshold 1100

namespace PySpline

open Spec Ext

private theorem moderate_of_getD {q : List ℚ} (l : q.length = 3) (h : ∀ c < 3, |q.getD c 0| ≤ 2 ^ 500) : Moderate q := by
  obtain ⟨x, y, z, rfl⟩ := List.length_eq_three.1 l
  refine ⟨rfl, ?_⟩
  simp only [List.mem_cons, List.not_mem_nil, or_false]
  rintro _ (rfl | rfl | rfl)
  · exact h 0 (by norm_num)
  · exact h 1 (by norm_num)
  · exact h 2 (by norm_num)

/-- The factor of one direction in the size of the derivatives. -/
private theorem factor_le {p a : ℕ} (hp : p ≤ 5) (ha : a ≤ 2) {h : ℚ} (hh : 1 / 2 ^ 40 ≤ h) :
    0 ≤ (p.descFactorial a : ℚ) * (2 / h) ^ a ∧ (p.descFactorial a : ℚ) * (2 / h) ^ a ≤ 2 ^ 87 := by
  have h0 : 0 < h := lt_of_lt_of_le (by positivity) hh
  have h1 : 2 / h ≤ 2 ^ 41 := by
    rw [div_le_iff₀ h0]
    norm_num at hh ⊢
    linarith
  have h2 : (2 / h) ^ a ≤ 2 ^ 82 := calc
    (2 / h) ^ a ≤ (2 ^ 41) ^ a := pow_le_pow_left₀ (by positivity) h1 a
    _ ≤ (2 ^ 41) ^ 2 := pow_le_pow_right₀ (one_le_pow₀ (by norm_num)) ha
    _ = 2 ^ 82 := by norm_num
  have h3 : (p.descFactorial a : ℚ) ≤ 2 ^ 5 := by
    have : p.descFactorial a ≤ 32 := by
      refine (Nat.descFactorial_le_pow p a).trans ((Nat.pow_le_pow_left hp a).trans ?_)
      exact (Nat.pow_le_pow_right (by norm_num) ha).trans (by norm_num)
    norm_num
    exact_mod_cast this
  refine ⟨by positivity, ?_⟩
  calc (p.descFactorial a : ℚ) * (2 / h) ^ a ≤ 2 ^ 5 * 2 ^ 82 := mul_le_mul h3 h2 (by positivity) (by positivity)
    _ = 2 ^ 87 := by norm_num

/-- The spans of a uniform knot vector of at most `2^39` knots in double precision are at least `2^-40`. -/
theorem uniform_double_gap40 {q m : ℕ} (hq : q < m) (hm : m ≤ 2 ^ 39) {V : List ℚ} (hV : generateUniformFl fl64 q m = .ok V) :
    ∀ i, q ≤ i → i < m → 1 / 2 ^ 40 ≤ knotFn V (i + 1) - knotFn V i := by
  obtain ⟨V', hV', -, vc, -, v0, v1, ⟨U, hU, hUV⟩, -⟩ := generate_uniform_double hq (le_trans hm (by norm_num))
  rw [hV] at hV'
  cases hV'
  have hmK : (m : ℚ) ≤ 2 ^ 39 := by exact_mod_cast hm
  have hqK : (q : ℚ) + 1 ≤ m := by exact_mod_cast hq
  have hq0 : (0 : ℚ) ≤ q := Nat.cast_nonneg q
  have hd : (0 : ℚ) < (m : ℚ) - q := by linarith
  have hinv : (1 : ℚ) / 2 ^ 39 ≤ 1 / ((m : ℚ) - q) := one_div_le_one_div_of_le hd (by linarith)
  have hk : ∀ i, q ≤ i → i ≤ m → knotFn U i = ((i : ℚ) - q) / ((m : ℚ) - q) := by
    intro i h1 h2
    rw [(generateUniform_knot hq hU (by omega)).2]
    rcases Nat.eq_or_lt_of_le h1 with rfl | h1
    · rw [if_pos le_rfl, sub_self, zero_div]
    rw [if_neg (by omega)]
    rcases Nat.eq_or_lt_of_le h2 with rfl | h2
    · rw [if_neg (by omega), div_self hd.ne']
    · rw [if_pos h2]
  have hnear : ∀ i, q ≤ i → i ≤ m → |knotFn V i - knotFn U i| ≤ 1 / 2 ^ 51 := by
    intro i h1 h2
    refine (hUV i (by omega)).trans ?_
    have : knotFn U i ≤ 1 := by
      rw [hk i h1 h2, div_le_one hd]
      have : (i : ℚ) ≤ m := by exact_mod_cast h2
      linarith
    linarith [mul_le_mul_of_nonneg_left this (by positivity : (0 : ℚ) ≤ 1 / 2 ^ 51)]
  intro i h1 h2
  have a := abs_le.1 (hnear i h1 h2.le)
  have b := abs_le.1 (hnear (i + 1) (by omega) h2)
  have c : knotFn U (i + 1) - knotFn U i = 1 / ((m : ℚ) - q) := by
    rw [hk i h1 h2.le, hk (i + 1) (by omega) h2, ← sub_div]
    push_cast
    ring
  have : (1 : ℚ) / 2 ^ 40 + 2 / 2 ^ 51 ≤ 1 / 2 ^ 39 := by norm_num
  have d : (2 : ℚ) / 2 ^ 51 = 1 / 2 ^ 51 + 1 / 2 ^ 51 := by ring
  linarith [a.2, b.1]

/-- A surface as in the theorems below: clamped, of degrees two to five, on knots of doubles over `[0, 1]` that are at least `2^-40`
apart, the last interior ones away from `1`, with at most `2^49` control points in each direction, of size at most `2^300`. -/
structure RegularSurface64 (s : Surface ℚ) : Prop where
  clamped : ClampedSurface s
  degU : 2 ≤ s.degreeU ∧ s.degreeU ≤ 5
  degV : 2 ≤ s.degreeV ∧ s.degreeV ≤ 5
  gapU : ∀ i, s.degreeU ≤ i → i < s.numU → 1 / 2 ^ 40 ≤ knotFn s.kvU (i + 1) - knotFn s.kvU i
  gapV : ∀ i, s.degreeV ≤ i → i < s.numV → 1 / 2 ^ 40 ≤ knotFn s.kvV (i + 1) - knotFn s.kvV i
  unitU : UnitKnots s.degreeU s.numU s.kvU
  unitV : UnitKnots s.degreeV s.numV s.kvV
  lastU : knotFn s.kvU (s.numU - 1) ≤ 1 - 102 / 10 ^ 8
  lastV : knotFn s.kvV (s.numV - 1) ≤ 1 - 102 / 10 ^ 8
  storedU : ∀ x ∈ s.kvU, bin64 x = fin x
  storedV : ∀ x ∈ s.kvV, bin64 x = fin x
  size : ∀ c < 3, ∀ i < s.numU * s.numV, |coord s.ctrlpts c i| ≤ 2 ^ 300
  numU : s.numU ≤ 2 ^ 49
  numV : s.numV ≤ 2 ^ 49

/-- **C199.** The hypotheses of C198 hold for B-spline surfaces: points and derivatives are numbers of size at most `2^500`,
whatever the order in which the products are added. -/
theorem own_surface_moderate {s : Surface ℚ} (h : RegularSurface64 s) {S : SurfLike (Ext ℚ)} (hS : ComputesSurface bin64 s.lift S) :
    ModerateSurface S := by
  have sn := h.clamped.cu.size
  have sm := h.clamped.cv.size
  have mu := monotone_knotFn h.clamped.cu.mono
  have mv := monotone_knotFn h.clamped.cv.mono
  have h40 : (1 : ℚ) / 2 ^ 1000 ≤ 1 / 2 ^ 40 :=
    one_div_le_one_div_of_le (by positivity) (pow_le_pow_right₀ (by norm_num) (by norm_num))
  refine ⟨?_, ?_, fun u v hu u0 u1 hv v0 v1 => ?_⟩
  · rw [hS.numU]; exact ⟨by change 1 ≤ s.numU; omega, h.numU⟩
  · rw [hS.numV]; exact ⟨by change 1 ≤ s.numV; omega, h.numV⟩
  obtain ⟨ex, all⟩ := surface_point_binary64 h.clamped h.degU.2 h.degV.2 (fun i a b => h40.trans (h.gapU i a b))
    (fun i a b => h40.trans (h.gapV i a b)) h.unitU h.unitV h.lastU h.lastV ⟨u0, u1⟩ ⟨v0, v1⟩ h.storedU h.storedV hu hv
    h.size (pow_le_pow_right₀ (by norm_num) (by norm_num))
  obtain ⟨pt, ept, hpt⟩ := hS.point _ _ ex
  obtain ⟨q, rfl, lq, bq⟩ := all pt hpt
  obtain ⟨m, k, g1, g2, g3, g4, k1, k2, k3, k4, k5, k6, exD, allD⟩ := surface_derivatives_binary64 h.clamped h.degU.2 h.degV.2
    h.gapU h.gapV h.unitU h.unitV h.lastU h.lastV ⟨u0, u1⟩ ⟨v0, v1⟩ h.storedU h.storedV hu hv h.size
    (pow_le_pow_right₀ (by norm_num) (by norm_num)) 2 2
  obtain ⟨D, eD, hD⟩ := hS.ders _ _ exD
  obtain ⟨lD, rows⟩ := allD D hD
  rw [min_eq_left h.degU.1, min_eq_left h.degV.1] at lD rows
  have row : ∀ a ≤ 2, ∀ b ≤ 2, ∃ q : List ℚ, D.getD (a * 3 + b) [] = q.map fin ∧ Moderate q := by
    intro a ha b hb
    obtain ⟨q, e, l, hq⟩ := rows a ha b hb
    refine ⟨q, e, moderate_of_getD l fun c hc => ?_⟩
    obtain ⟨x0, x1⟩ := factor_le h.degU.2 ha (h.gapU m g1 g2)
    obtain ⟨y0, y1⟩ := factor_le h.degV.2 hb (h.gapV k g3 g4)
    have t := patchDeriv_abs_le (a := a) (b := b) (c := coord s.ctrlpts c) mu mv g1 g2 g3 g4 k3 k6 k1 k2 k4 k5 (h.size c hc)
    have t2 : (s.degreeU.descFactorial a : ℚ) * (2 / (knotFn s.kvU (m + 1) - knotFn s.kvU m)) ^ a *
        (s.degreeV.descFactorial b * (2 / (knotFn s.kvV (k + 1) - knotFn s.kvV k)) ^ b) * 2 ^ 300 ≤ 2 ^ 87 * 2 ^ 87 * 2 ^ 300 :=
      mul_le_mul_of_nonneg_right (mul_le_mul x1 y1 y0 (by positivity)) (by positivity)
    have hqc := hq c hc
    have e1 := abs_sub_abs_le_abs_sub (q.getD c 0) (patchDeriv (knotFn s.kvU) m s.degreeU s.numU (knotFn s.kvV) k s.degreeV
      s.numV (coord s.ctrlpts c) a b u v)
    have e2 := mul_le_mul_of_nonneg_left t2 (by positivity : (0 : ℚ) ≤ 1 / 10 ^ 14)
    have N : (2 ^ 87 * 2 ^ 87 * 2 ^ 300 + (1 / 10 ^ 14 * (2 ^ 87 * 2 ^ 87 * 2 ^ 300) + (2 ^ 300 + 1) * (1 / 2 ^ 600)) : ℚ) ≤ 2 ^ 500 := by
      decide +kernel
    linarith
  have hpoint : Moderate q := moderate_of_getD lq fun c hc => by
    have hb : ∀ i < s.numU, ∀ j < s.numV, |coord s.ctrlpts c (i * s.numV + j)| ≤ 2 ^ 300 := fun i hi j hj =>
      h.size c hc _ (index_lt hi hj)
    have du : knotFn s.kvU s.degreeU ≤ u ∧ u ≤ knotFn s.kvU s.numU :=
      ⟨by rw [h.unitU.left _ le_rfl, h.unitU.zero]; exact u0, by rw [h.unitU.right _ le_rfl (by omega), h.unitU.one]; exact u1⟩
    have dv : knotFn s.kvV s.degreeV ≤ v ∧ v ≤ knotFn s.kvV s.numV :=
      ⟨by rw [h.unitV.left _ le_rfl, h.unitV.zero]; exact v0, by rw [h.unitV.right _ le_rfl (by omega), h.unitV.one]; exact v1⟩
    have b1 := surface_le_bound h.clamped.cu h.clamped.cv (c := fun i => |coord s.ctrlpts c i|) du dv hb
    have b2 := surface_le_bound h.clamped.cu h.clamped.cv (c := coord s.ctrlpts c) du dv
      fun i hi j hj => (le_abs_self _).trans (hb i hi j hj)
    have b3 := surface_le_bound h.clamped.cu h.clamped.cv (c := fun i => -coord s.ctrlpts c i) (M := 2 ^ 300) du dv
      fun i hi j hj => by linarith [(abs_le.1 (hb i hi j hj)).1]
    have b4 : surface (knotFn s.kvU) s.degreeU s.numU (knotFn s.kvV) s.degreeV s.numV (fun i => -coord s.ctrlpts c i) u v
        = -surface (knotFn s.kvU) s.degreeU s.numU (knotFn s.kvV) s.degreeV s.numV (coord s.ctrlpts c) u v := by
      unfold surface
      simp only [neg_mul, Finset.sum_neg_distrib]
    rw [b4] at b3
    have hqc := bq c hc
    have hval : |s.value c u v| ≤ 2 ^ 300 := by
      unfold Surface.value
      exact abs_le.2 ⟨by linarith, b2⟩
    have e1 := abs_sub_abs_le_abs_sub (q.getD c 0) (s.value c u v)
    have e2 := mul_le_mul_of_nonneg_left b1 (by positivity : (0 : ℚ) ≤ 1 / 10 ^ 14)
    have N : (2 ^ 300 + (1 / 10 ^ 14 * 2 ^ 300 + (2 ^ 300 + 1) * (1 / 2 ^ 1050)) : ℚ) ≤ 2 ^ 500 := by decide +kernel
    linarith
  obtain ⟨d1, r1, m1⟩ := row 0 (by omega) 1 (by omega)
  obtain ⟨d2, r2, m2⟩ := row 0 (by omega) 2 (by omega)
  obtain ⟨d3, r3, m3⟩ := row 1 (by omega) 0 (by omega)
  obtain ⟨d4, r4, m4⟩ := row 1 (by omega) 1 (by omega)
  obtain ⟨d6, r6, m6⟩ := row 2 (by omega) 0 (by omega)
  exact ⟨q, d1, d2, d3, d4, d6, D, ept, eD, by omega, r1, r2, r3, r4, r6, hpoint, m1, m2, m3, m4, m6⟩

/-- **C199.** `surface_inversion` on a B-spline surface in double precision with overflow and underflow, for every point of moderate
size, all tolerances and limits, all orders of summation, every norm and every solver that raises nothing but `LinAlgError`: it
returns two doubles in `[0, 1]`, or raises `LinAlgError`, or, only if the solver makes NaN out of numbers, `ValueError`. -/
theorem own_surface_inversion_binary64 {norm : List (Ext ℚ) → Ext ℚ} {slv : Ext ℚ → Ext ℚ → Ext ℚ → Ext ℚ → Ext ℚ → Ext ℚ → Py (Ext ℚ × Ext ℚ)}
    {s : Surface ℚ} (h : RegularSurface64 s) {S : SurfLike (Ext ℚ)} (hS : ComputesSurface bin64 s.lift S)
    (hnorm : BoundedNorm norm) (hnan : ∀ l, nan ∈ l → norm l = nan)
    (hslv : ∀ a b c d x y : ℚ, slv (fin a) (fin b) (fin c) (fin d) (fin x) (fin y) = .error .linAlgError ∨
      ∃ s t, slv (fin a) (fin b) (fin c) (fin d) (fin x) (fin y) = .ok (s, t))
    {point : List ℚ} (hp : Moderate point) (eps1 eps2 : Ext ℚ) {maxIter : ℤ} {fuel : ℕ} (hf : maxIter + 1 ≤ fuel) (hf1 : 1 ≤ fuel) :
    surfaceInversionA fuel (solverArith norm slv) S (point.map fin) eps1 eps2 maxIter = .error .linAlgError ∨
      (surfaceInversionA fuel (solverArith norm slv) S (point.map fin) eps1 eps2 maxIter = .error .valueError ∧
        ¬ NumericSolve slv) ∨
      ∃ u v, surfaceInversionA fuel (solverArith norm slv) S (point.map fin) eps1 eps2 maxIter = .ok (fin u, fin v) ∧
        (bin64 u = fin u ∧ 0 ≤ u ∧ u ≤ 1) ∧ bin64 v = fin v ∧ 0 ≤ v ∧ v ≤ 1 := by
  have hm := own_surface_moderate h hS
  by_cases hn : NumericSolve slv
  · exact (surface_inversion_fails_binary64 hnorm hn hp hm eps1 eps2 hf hf1).imp id Or.inr
  · refine (surface_inversion_any_solver_binary64 hnorm hnan hslv hp hm (fun u v huv => hS.invalid u v ?_) eps1 eps2 hf hf1).imp id
      (Or.imp (fun e => ⟨e, hn⟩) id)
    rcases huv with rfl | rfl
    · exact Or.inl rfl
    · exact Or.inr rfl

/-- **C199.** There are such methods for every surface. -/
theorem computesSurface_exists (s : Surface (Ext ℚ)) : ∃ S, ComputesSurface bin64 s S := by
  classical
  refine ⟨⟨s.numU, s.numV, fun u v => if h : ∃ pt, s.PointR bin64 u v pt then .ok h.choose else .error .valueError,
    fun u v => if h : ∃ D, s.DerivativesR bin64 u v 2 2 D then .ok h.choose else .error .valueError⟩, rfl, rfl,
    fun u v h => ⟨h.choose, dif_pos h, h.choose_spec⟩, fun u v h => ⟨h.choose, dif_pos h, h.choose_spec⟩, fun u v h => dif_neg ?_⟩
  rintro ⟨pt, hpt⟩
  obtain ⟨-, -, -, -, hu, hv, -⟩ := hpt
  rcases h with h | h
  · rw [hu] at h; cases h
  · rw [hv] at h; cases h

/-- **C199.** A surface of doubles of size at most `2^300` on the knots of `generate_uniform`, of degrees two to five and with at
most `2^19` control points in each direction, as `fit_surface` returns it (C193), satisfies the hypotheses. -/
theorem uniform_surface_regular {p n q m : ℕ} (hp : 2 ≤ p) (hp5 : p ≤ 5) (hpn : p < n) (hn : n ≤ 2 ^ 19) (hq : 2 ≤ q) (hq5 : q ≤ 5)
    (hqm : q < m) (hm : m ≤ 2 ^ 19) {P : List (List ℚ)} {U V : List ℚ} (hU : generateUniformFl fl64 p n = .ok U)
    (hV : generateUniformFl fl64 q m = .ok V) (hP : Shape P (n * m) 3)
    (hst : StoredSurface bin64 (2 ^ 300) ⟨p, q, n, m, P, U, V⟩) : RegularSurface64 ⟨p, q, n, m, P, U, V⟩ := by
  have ku := uniform_double_unit hpn (hn.trans (by norm_num)) hU
  have kv := uniform_double_unit hqm (hm.trans (by norm_num)) hV
  exact
  { clamped := ⟨ku.toClamped, kv.toClamped, by change 1 ≤ p; omega, by change 1 ≤ q; omega, hP⟩
    degU := ⟨hp, hp5⟩
    degV := ⟨hq, hq5⟩
    gapU := uniform_double_gap40 hpn (hn.trans (by norm_num)) hU
    gapV := uniform_double_gap40 hqm (hm.trans (by norm_num)) hV
    unitU := ku
    unitV := kv
    lastU := uniform_double_last hpn hn hU
    lastV := uniform_double_last hqm hm hV
    storedU := hst.knotsU
    storedV := hst.knotsV
    size := fun c hc i hi => (coord_of_forall_mem hP hst.pts hc hi).2
    numU := hn.trans (by norm_num)
    numV := hm.trans (by norm_num) }

/-! ## A concrete case -/

/-- A patch of degree two in both directions. -/
def exBowl : Surface ℚ where
  degreeU := 2
  degreeV := 2
  numU := 3
  numV := 3
  ctrlpts := [[0, 0, 1], [0, 1/2, 0], [0, 1, 1], [1/2, 0, 0], [1/2, 1/2, -1], [1/2, 1, 0], [1, 0, 1], [1, 1/2, 0], [1, 1, 1]]
  kvU := [0, 0, 0, 1, 1, 1]
  kvV := [0, 0, 0, 1, 1, 1]

theorem exBowl_regular : RegularSurface64 exBowl :=
  uniform_surface_regular (p := 2) (n := 3) (q := 2) (m := 3) (by norm_num) (by norm_num) (by norm_num) (by norm_num) (by norm_num)
    (by norm_num) (by norm_num) (by norm_num) (by decide +kernel) (by decide +kernel) ⟨by decide, by decide⟩
    ⟨by decide +kernel, by decide +kernel, by decide +kernel⟩

/-- C199: every moderate point inverted on the patch, with the inverse of the matrix rounded. -/
example (point : List ℚ) (hp : Moderate point) {S : SurfLike (Ext ℚ)} (hS : ComputesSurface bin64 exBowl.lift S) :
    surfaceInversionA 102 (solverArith (sumNormR bin64) invMulR) S (point.map fin) (fin (1 / 10 ^ 5)) (fin (1 / 10 ^ 5)) 100
        = .error .linAlgError ∨
      (surfaceInversionA 102 (solverArith (sumNormR bin64) invMulR) S (point.map fin) (fin (1 / 10 ^ 5)) (fin (1 / 10 ^ 5)) 100
        = .error .valueError ∧ ¬ NumericSolve invMulR) ∨
      ∃ u v, surfaceInversionA 102 (solverArith (sumNormR bin64) invMulR) S (point.map fin) (fin (1 / 10 ^ 5))
          (fin (1 / 10 ^ 5)) 100 = .ok (fin u, fin v) ∧
        (bin64 u = fin u ∧ 0 ≤ u ∧ u ≤ 1) ∧ bin64 v = fin v ∧ 0 ≤ v ∧ v ≤ 1 :=
  own_surface_inversion_binary64 exBowl_regular hS sumNormR_bounded (sumNormR_nan bin64) (fun a b c d x y => by
    unfold invMulR
    by_cases h : a * d - b * c = 0
    · exact Or.inl (if_pos h)
    · exact Or.inr ⟨_, _, if_neg h⟩) hp _ _ (by norm_num) (by norm_num)

end PySpline
