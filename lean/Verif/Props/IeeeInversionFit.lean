import Verif.Lemmas.StoredInversion
import Verif.Model.IeeeInversion
import Verif.Props.AnyArithmetic
import Verif.Props.IeeeSurfaceFit

/-!
# C192: the fits in IEEE arithmetic with the inversion functions of the library
-/

set_option linter.unusedSectionVars false
set_option exponentiation.threshold 1100

namespace PySpline

open Spec Ext Finset

section
variable {K : Type} [Field K] [LinearOrder K] [IsStrictOrderedRing K]

/-- **C192.** In every arithmetic whose differences and grid points are stored numbers, `curve_inversion` returns a stored
number in `[0, 1]` or raises, whatever the other operations return; with enough passes it does not hang. -/
theorem curve_inversion_stored {rd : K → Ext K} {A : Arith K} (hA : A.Stored rd) {C : CurveLike (Ext K)} (hC : C.Checks)
    (hA' : A.Total) (hT : C.TotalE) (point : List (Ext K)) (eps1 eps2 : Ext K) {maxIter : ℤ} {fuel : ℕ}
    (hf : maxIter + 2 ≤ fuel) (hf1 : 1 ≤ fuel) :
    (∃ e, e ≠ .diverged ∧ curveInversionA fuel A C point eps1 eps2 maxIter = .error e) ∨
      ∃ u, curveInversionA fuel A C point eps1 eps2 maxIter = .ok (fin u) ∧ rd u = fin u ∧ 0 ≤ u ∧ u ≤ 1 := by
  obtain ⟨h1, h2⟩ := curve_inversion_any A hC point eps1 eps2 maxIter fuel
  cases h : curveInversionA fuel A C point eps1 eps2 maxIter with
  | error e => exact Or.inl ⟨e, fun he => (h2 hf hf1).2 hA' hT (by rw [h, he]), rfl⟩
  | ok u =>
    obtain ⟨x, rfl, h0, h1⟩ := h1 u h
    exact Or.inr ⟨x, rfl, curveInversionA_stored hA h x rfl, h0, h1⟩

/-- **C192.** The same for `surface_inversion` if NaN propagates. -/
theorem surface_inversion_stored {rd : K → Ext K} {A : Arith K} (hA : A.Stored rd) (hp : A.Propagates)
    {S : SurfLike (Ext K)} (hS : S.Checks) (hrow : ∀ u v m, S.ders u v = .ok m → ∀ row ∈ m, row ≠ [])
    (hA' : A.Total) (hT : S.TotalE) (point : List (Ext K)) (eps1 eps2 : Ext K) {maxIter : ℤ} {fuel : ℕ}
    (hf : maxIter + 1 ≤ fuel) (hf1 : 1 ≤ fuel) :
    (∃ e, e ≠ .diverged ∧ surfaceInversionA fuel A S point eps1 eps2 maxIter = .error e) ∨
      ∃ u v, surfaceInversionA fuel A S point eps1 eps2 maxIter = .ok (fin u, fin v) ∧
        (rd u = fin u ∧ 0 ≤ u ∧ u ≤ 1) ∧ rd v = fin v ∧ 0 ≤ v ∧ v ≤ 1 := by
  obtain ⟨h1, h2⟩ := surface_inversion_any A hp hS hrow point eps1 eps2 maxIter fuel
  cases h : surfaceInversionA fuel A S point eps1 eps2 maxIter with
  | error e => exact Or.inl ⟨e, fun he => (h2 hf hf1).2 hA' hT (by rw [h, he]), rfl⟩
  | ok w =>
    obtain ⟨⟨x, hx, x0, x1⟩, y, hy, y0, y1⟩ := h1 w h
    obtain ⟨s1, s2⟩ := surfaceInversionA_stored hA h
    exact Or.inr ⟨x, y, congrArg Except.ok (Prod.ext hx hy), ⟨s1 x hx, x0, x1⟩, s2 y hy, y0, y1⟩

end

/-! ## An arithmetic -/

theorem rnd_bin64_stored (x : Ext ℚ) : IsStored bin64 (rnd bin64 x) := by
  intro y h
  cases x with
  | fin x => exact bin64_stored h
  | inf s => cases h
  | nan => cases h

/-- **C192.** Double precision with every operation rounded is such an arithmetic, whatever the norm is. -/
theorem ieeeArith_stored (norm : List (Ext ℚ) → Ext ℚ) : (ieeeArith bin64 norm).Stored bin64 where
  add _ _ := rnd_bin64_stored _
  sub _ _ := rnd_bin64_stored _
  grid _ _ := rnd_bin64_stored _
  zero := by decide +kernel
  one := by decide +kernel

theorem ieeeArith_total {K : Type} [Field K] [LinearOrder K] (rd : K → Ext K) (norm : List (Ext K) → Ext K) :
    (ieeeArith rd norm).Total where
  inner a b := by simp only [ieeeArith]; split <;> simp
  solve a b c d x y := by
    simp only [ieeeArith]
    unfold solve2E
    split
    · dsimp only; split <;> simp
    · simp

theorem ieeeArith_propagates {K : Type} [Field K] [LinearOrder K] [IsStrictOrderedRing K] (rd : K → Ext K)
    {norm : List (Ext K) → Ext K} (h : ∀ l, nan ∈ l → norm l = nan) : (ieeeArith rd norm).Propagates where
  sub a := by cases a <;> rfl
  mul a := by cases a <;> rfl
  add a := by cases a <;> exact ⟨rfl, rfl⟩
  norm := h

theorem sumNormR_nan {K : Type} [Field K] [LinearOrder K] [IsStrictOrderedRing K] (rd : K → Ext K) :
    ∀ l : List (Ext K), nan ∈ l → sumNormR rd l = nan := by
  have keep : ∀ l : List (Ext K), l.foldl (fun s x => rnd rd (s + Ext.abs x)) nan = nan := by
    intro l
    induction l with
    | nil => rfl
    | cons x l ih =>
      rw [List.foldl_cons, show rnd rd (nan + Ext.abs x) = nan by cases Ext.abs x <;> rfl, ih]
  have key : ∀ (l : List (Ext K)) (s : Ext K), nan ∈ l → l.foldl (fun s x => rnd rd (s + Ext.abs x)) s = nan := by
    intro l
    induction l with
    | nil => intro s h; cases h
    | cons x l ih =>
      intro s h
      rw [List.foldl_cons]
      rcases List.mem_cons.1 h with rfl | h
      · rw [show rnd rd (s + Ext.abs nan) = nan by cases s <;> rfl, keep]
      · exact ih _ h
  exact fun l h => key l 0 h

/-! ## The fits -/

section
variable {B : ℚ} {ls : ℕ → List (List (Ext ℚ)) → List (Ext ℚ) → Py (List (Ext ℚ))} {A : Arith ℚ} {eps1 eps2 : Ext ℚ}
  {maxIter : ℤ} {fuelI : ℕ}

/-- **C192.** `fit_curve_knot_insertion` in double precision with overflow and underflow and with the `curve_inversion` of the
library, whose sums, norms and evaluations may be computed in any way: under the hypotheses of C190 on the curve, the data
and the solver, every run ends with an exception or, after `t` rounds, with a curve of doubles with
`degree + 2^t (n - degree)` control points, a clamped knot vector with distinct interior knots and the end points of the
input; no run hangs, and none returns an infinity or a NaN. -/
theorem fit_curve_knot_insertion_own_inversion (hB0 : 1 / 2 ^ 1000 ≤ B) (hB1 : B ≤ 2 ^ 1019)
    (hls : TameSolver bin64 (2 ^ 1023) B (· ≠ .diverged) ls) (hA : A.Stored bin64) (hAt : A.Total)
    {cv : Curve (Ext ℚ) → CurveLike (Ext ℚ)} (hcv : ∀ c, (cv c).Checks ∧ (cv c).TotalE) (hfI : maxIter + 2 ≤ fuelI)
    (hfI1 : 1 ≤ fuelI) {data : List (List ℚ)} (h3 : ∀ pt ∈ data, pt.length = 3)
    (hdata : ∀ pt ∈ data, ∀ x ∈ pt, bin64 x = fin x ∧ |x| ≤ B) {p : ℕ} (hp : 1 ≤ p) (hp10 : p ≤ 10)
    {N : ℤ} {t n fuel : ℕ} {δ : ℚ} {c : Curve ℚ} (h : Spaced p n δ c) (hst : StoredCurve bin64 (2 * B) c)
    (hends : ∀ k < 3, |coord c.ctrlpts k 0| ≤ B ∧ |coord c.ctrlpts k (n - 1)| ≤ B) (hδ : 2 ^ t * (3 / 10 ^ 5) ≤ δ)
    (hf : t < fuel) (hsize : 5 * p + (p + 2 ^ t * (n - p)) + data.length ≤ 10 ^ 8)
    (hN : N ≤ ((p + 2 ^ t * (n - p) : ℕ) : ℤ)) (hlt : ∀ s < t, ((p + 2 ^ s * (n - p) : ℕ) : ℤ) < N) :
    (∃ res, KnotFitR bin64 ls (fun c pt => curveInversionA fuelI A (cv c) pt eps1 eps2 maxIter) (lift2 data) N fuel c.lift
      res) ∧
    ∀ res, KnotFitR bin64 ls (fun c pt => curveInversionA fuelI A (cv c) pt eps1 eps2 maxIter) (lift2 data) N fuel c.lift
      res → (∃ e, e ≠ .diverged ∧ res = .error e) ∨
      ∃ c', res = .ok (Curve.lift c') ∧ c'.degree = p ∧ Shape c'.ctrlpts (p + 2 ^ t * (n - p)) 3 ∧
        Clamped p (p + 2 ^ t * (n - p)) c'.kv ∧ DistinctInterior p (p + 2 ^ t * (n - p)) c'.kv ∧ StoredCurve bin64 B c' ∧
        c'.ctrlpts.getD 0 [] = c.ctrlpts.getD 0 [] ∧
        c'.ctrlpts.getD (p + 2 ^ t * (n - p) - 1) [] = c.ctrlpts.getD (n - 1) [] := by
  obtain ⟨hx, hall⟩ := fit_curve_knot_insertion_binary64 hB0 hB1 hls
    (inv := fun c pt => curveInversionA fuelI A (cv c) pt eps1 eps2 maxIter) (N := N) h3 hdata hp hp10
    (fun _ _ c _ _ _ pt _ => curve_inversion_stored hA (hcv c.lift).1 hAt (hcv c.lift).2 (lift1 pt) eps1 eps2 hfI hfI1)
    h hst hends hδ hf hsize hN hlt
  refine ⟨hx, fun res hres => (hall res hres).imp id ?_⟩
  rintro ⟨c', a1, a2, a3, a4, a5, a6, -, a8, a9, -⟩
  exact ⟨c', a1, a2, a3, a4, a5, a6, a8, a9⟩

/-- **C192.** The same for `fit_curve_fixed_ctrlpts`, on knots at least `2^-1000` apart. -/
theorem fit_curve_fixed_own_inversion (hB0 : 1 / 2 ^ 1000 ≤ B) (hB1 : B ≤ 2 ^ 1019)
    (hls : TameSolver bin64 (2 ^ 1023) B (· ≠ .diverged) ls) (hA : A.Stored bin64) (hAt : A.Total)
    {cv : Curve (Ext ℚ) → CurveLike (Ext ℚ)} (hcv : ∀ c, (cv c).Checks ∧ (cv c).TotalE) (hfI : maxIter + 2 ≤ fuelI)
    (hfI1 : 1 ≤ fuelI) {data : List (List ℚ)} (h3 : ∀ pt ∈ data, pt.length = 3)
    (hdata : ∀ pt ∈ data, ∀ x ∈ pt, bin64 x = fin x ∧ |x| ≤ B) {p : ℕ} (hp : 1 ≤ p) (hp10 : p ≤ 10)
    {n fuel : ℕ} {δ : ℚ} {c : Curve ℚ} (h : Spaced p n δ c) (hst : StoredCurve bin64 (2 * B) c)
    (hends : ∀ k < 3, |coord c.ctrlpts k 0| ≤ B ∧ |coord c.ctrlpts k (n - 1)| ≤ B) (hδ : 1 / 2 ^ 1000 ≤ δ) (hf : 0 < fuel)
    (hsize : 6 * p + n + data.length ≤ 10 ^ 8) :
    (∃ res, FitCurveFixedR bin64 fuel ls (fun c pt => curveInversionA fuelI A (cv c) pt eps1 eps2 maxIter) c.lift
      (lift2 data) res) ∧
    ∀ res, FitCurveFixedR bin64 fuel ls (fun c pt => curveInversionA fuelI A (cv c) pt eps1 eps2 maxIter) c.lift
      (lift2 data) res → (∃ e, e ≠ .diverged ∧ res = .error e) ∨
      ∃ c', res = .ok (Curve.lift c') ∧ c'.degree = p ∧ c'.kv = c.kv ∧ Shape c'.ctrlpts n 3 ∧ StoredCurve bin64 B c' ∧
        c'.ctrlpts.getD 0 [] = c.ctrlpts.getD 0 [] ∧ c'.ctrlpts.getD (n - 1) [] = c.ctrlpts.getD (n - 1) [] :=
  fit_curve_fixed_binary64 hB0 hB1 hls h3 hdata hp hp10
    (fun _ _ c _ _ _ pt _ => curve_inversion_stored hA (hcv c.lift).1 hAt (hcv c.lift).2 (lift1 pt) eps1 eps2 hfI hfI1)
    h hst hends hδ hf hsize

/-- **C192.** The fit of an interior problem, `set_init_surface` and `fit_surface`, in double precision with overflow and
underflow and with the `surface_inversion` of the library, computed in any way in which NaN propagates: every run ends with an
exception or with a surface of doubles whose bottom edge is the bottom boundary and whose top edge is the top boundary up to
`M 2^-47`. -/
theorem interior_fit_own_inversion {M : ℚ} (hM0 : 1 / 2 ^ 1000 ≤ M) (hMB : 2 * M ≤ B) (hB1 : B ≤ 2 ^ 1019)
    (hls : TameSolver bin64 (2 ^ 1023) B (· ≠ .diverged) ls) (hA : A.Stored bin64) (hAt : A.Total) (hAp : A.Propagates)
    {sv : Surface (Ext ℚ) → SurfLike (Ext ℚ)} (hsv : ∀ s, (sv s).Checks ∧ (sv s).TotalE)
    (hrow : ∀ s u v m, (sv s).ders u v = .ok m → ∀ row ∈ m, row ≠ []) (hfI : maxIter + 1 ≤ fuelI) (hfI1 : 1 ≤ fuelI)
    {t b : Fitted ℚ} {p n q m : ℕ} (td : t.degree = some (p : ℤ))
    (bd : b.degree = some (p : ℤ)) (tn : t.numCtrl = some (n : ℤ)) (bn : b.numCtrl = some (n : ℤ))
    (ht : Shape t.fitCurve.ctrlpts n 3) (hb : Shape b.fitCurve.ctrlpts n 3)
    (hbst : StoredCurve bin64 M b.fitCurve) (htst : StoredCurve bin64 M t.fitCurve) (hp1 : 1 ≤ p) (hp7 : p ≤ 7)
    (hU : Clamped p n b.fitCurve.kv) (hU0 : knotFn b.fitCurve.kv 0 = 0) (hU1 : knotFn b.fitCurve.kv (n + p) = 1)
    (hfirst : knotFn b.fitCurve.kv p < knotFn b.fitCurve.kv (p + 1))
    (hδ : ∀ x ∈ b.fitCurve.kv, ∀ y ∈ b.fitCurve.kv, x < y → 1 / 2 ^ 1000 ≤ y - x) (hq : q < m) (hq1 : 1 ≤ q) (hq7 : q ≤ 7)
    {data : List (List ℚ)} {top bottom : List (List (Ext ℚ))} (h3 : ∀ pt ∈ data, pt.length = 3)
    (hdata : ∀ pt ∈ data, ∀ x ∈ pt, bin64 x = fin x ∧ |x| ≤ B) (htop : ∀ row ∈ top, row.length = 4)
    (hbot : ∀ row ∈ bottom, row.length = 4) (hsize : 5 * p + 5 * q + 1 + n * m + data.length ≤ 10 ^ 8) :
    ∃ S, ruledSurfaceR bin64 (some t.lift) (some b.lift) (some (q : ℤ)) (some (m : ℤ)) = .ok (Surface.lift S) ∧
      (∃ res, FitSurfaceR bin64 ls (fun pt => surfaceInversionA fuelI A (sv S.lift) pt eps1 eps2 maxIter) S.lift (lift2 data)
        top bottom res) ∧
      ∀ res, FitSurfaceR bin64 ls (fun pt => surfaceInversionA fuelI A (sv S.lift) pt eps1 eps2 maxIter) S.lift (lift2 data)
        top bottom res → (∃ e, e ≠ .diverged ∧ res = .error e) ∨
        ∃ P, res = .ok (Surface.lift { S with ctrlpts := P }) ∧ Shape P (n * m) 3 ∧
          StoredSurface bin64 B { S with ctrlpts := P } ∧ ∀ k < 3, ∀ i < n,
            coord P k (i * m) = coord b.fitCurve.ctrlpts k i ∧
            |coord P k (i * m + (m - 1)) - coord t.fitCurve.ctrlpts k i| ≤ M / 2 ^ 47 := by
  obtain ⟨S, h1, -, -, h2, h4⟩ := interior_fit_binary64 (E := (· ≠ .diverged)) hM0 hMB hB1 hls
    (inv := fun s pt => surfaceInversionA fuelI A (sv s) pt eps1 eps2 maxIter) td bd tn bn ht hb hbst htst hp1 hp7 hU hU0 hU1
    hfirst hδ hq hq1 hq7 h3 hdata htop hbot (fun S _ _ pt _ => surface_inversion_stored hA hAp (hsv S.lift).1 (hrow S.lift) hAt
      (hsv S.lift).2 (lift1 pt) eps1 eps2 hfI hfI1) hsize
  exact ⟨S, h1, h2, h4⟩

end

/-! ## Without overflow -/

/-- Without overflow the operations of the inversions are those in rounded arithmetic (C157). -/
theorem ieeeArith_rounded {K : Type} [Field K] [LinearOrder K] (fl : K → K) (norm : List K → K) :
    ieeeArith (fun x => fin (fl x)) (normE norm) = flArith fl norm := by
  have h : ∀ e : Ext K, rnd (fun x => fin (fl x)) e = roundE fl e := fun e => by cases e <;> rfl
  simp only [ieeeArith, flArith, h]
  rfl

/-- **C192.** Without overflow the inversions are those in rounded arithmetic (C157), also where they raise or meet infinities and
NaN. -/
theorem inversions_ieee_rounded {K : Type} [Field K] [LinearOrder K] [IsStrictOrderedRing K] (fl : K → K) (norm : List K → K)
    (fuel : ℕ) (C : CurveLike (Ext K)) (S : SurfLike (Ext K)) (pt : List (Ext K)) (eps1 eps2 : Ext K) (maxIter : ℤ) :
    curveInversionA fuel (ieeeArith (fun x => fin (fl x)) (normE norm)) C pt eps1 eps2 maxIter
      = curveInversionA fuel (flArith fl norm) C pt eps1 eps2 maxIter ∧
    surfaceInversionA fuel (ieeeArith (fun x => fin (fl x)) (normE norm)) S pt eps1 eps2 maxIter
      = surfaceInversionA fuel (flArith fl norm) S pt eps1 eps2 maxIter := by
  rw [ieeeArith_rounded]
  exact ⟨rfl, rfl⟩

/-- The sum of absolute values likewise. -/
theorem sumNormR_rounded {K : Type} [Field K] [LinearOrder K] [IsStrictOrderedRing K] (fl : K → K) (l : List K) :
    sumNormR (fun x => fin (fl x)) (l.map fin) = fin (sumNormFl fl l) := by
  unfold sumNormR sumNormFl
  suffices h : ∀ a : K, (l.map fin).foldl (fun s x => rnd (fun x => fin (fl x)) (s + Ext.abs x)) (fin a)
      = fin (l.foldl (fun s x => fl (s + |x|)) a) from h 0
  induction l with
  | nil => intro a; rfl
  | cons x l ih => intro a; exact ih (fl (a + |x|))

/-! ## Concrete cases -/

/-- C192: a curve object that returns, at a parameter in `[0, 1]`, the parameter as its first coordinate. -/
def exGraphLike (_ : Curve (Ext ℚ)) : CurveLike (Ext ℚ) where
  numCtrl := 3
  singlePoint u := if validateKnotE u then .ok [u, 0, 0] else .error .valueError
  ders u := if validateKnotE u then .ok [[u, 0, 0], [1, 0, 0], [0, 0, 0]] else .error .valueError

theorem exGraphLike_ok (c : Curve (Ext ℚ)) : (exGraphLike c).Checks ∧ (exGraphLike c).TotalE := by
  refine ⟨⟨fun u q h => ?_, fun u d h => ?_⟩, fun u => ?_, fun u => ?_⟩
  · simp only [exGraphLike] at h
    split at h
    · rename_i hv; exact validateKnotE_unit hv
    · cases h
  · simp only [exGraphLike] at h
    split at h
    · rename_i hv; exact validateKnotE_unit hv
    · cases h
  · simp only [exGraphLike]; split <;> simp
  · simp only [exGraphLike]; split <;> simp

/-- C192: in double precision a third is reached in one step, but the grid point before it is returned (C157). -/
example : curveInversionA 102 (ieeeArith bin64 (sumNormR bin64)) (exGraphLike exThird.lift) [bin64 (1 / 3), 0, 0]
    (bin64 (1 / 10 ^ 5)) (bin64 (1 / 10 ^ 5)) 100 = .ok (bin64 (2 / 5)) := by decide +kernel

/-- C192: the fixed fit of the data of C190 with this inversion. -/
example : (∃ res, FitCurveFixedR bin64 1 exZeroSolver (fun c pt => curveInversionA 102 (ieeeArith bin64 (sumNormR bin64))
      (exGraphLike c) pt (bin64 (1 / 10 ^ 5)) (bin64 (1 / 10 ^ 5)) 100) exThird.lift (lift2 exKnotData) res) ∧
    ∀ res, FitCurveFixedR bin64 1 exZeroSolver (fun c pt => curveInversionA 102 (ieeeArith bin64 (sumNormR bin64))
      (exGraphLike c) pt (bin64 (1 / 10 ^ 5)) (bin64 (1 / 10 ^ 5)) 100) exThird.lift (lift2 exKnotData) res →
      (∃ e, e ≠ .diverged ∧ res = .error e) ∨
      ∃ c', res = .ok (Curve.lift c') ∧ c'.kv = exThird.kv ∧ StoredCurve bin64 2 c' := by
  obtain ⟨hx, hall⟩ := fit_curve_fixed_own_inversion (eps1 := bin64 (1 / 10 ^ 5)) (eps2 := bin64 (1 / 10 ^ 5)) (maxIter := 100)
    (fuelI := 102) exTwo_size.1 exTwo_size.2 (exZeroSolver_tame.mono fun _ h => h.elim)
    (ieeeArith_stored (sumNormR bin64)) (ieeeArith_total _ _) exGraphLike_ok (by norm_num) (by norm_num)
    (data := exKnotData) (by decide +kernel) exKnotData_stored (p := 1) le_rfl (by norm_num) (fuel := 1) exThird_spaced
    exThird_stored (by intro k hk; interval_cases k <;> decide +kernel) (by decide +kernel) (by norm_num) (by decide)
  refine ⟨hx, fun res hres => (hall res hres).imp id ?_⟩
  rintro ⟨c', h1, -, h2, -, h3, -⟩
  exact ⟨c', h1, h2, h3⟩

/-- C192: a surface object with the parameters as the first two coordinates. -/
def exPlaneLike (_ : Surface (Ext ℚ)) : SurfLike (Ext ℚ) where
  numU := 3
  numV := 2
  singlePoint u v := if validateKnotE u && validateKnotE v then .ok [u, v, 0] else .error .valueError
  ders u v := if validateKnotE u && validateKnotE v then
      .ok [[u, v, 0], [0, 1, 0], [0, 0, 0], [1, 0, 0], [0, 0, 0], [0, 0, 0], [0, 0, 0], [0, 0, 0], [0, 0, 0]]
    else .error .valueError

theorem exPlaneLike_ok (s : Surface (Ext ℚ)) : ((exPlaneLike s).Checks ∧ (exPlaneLike s).TotalE) ∧
    ∀ u v m, (exPlaneLike s).ders u v = .ok m → ∀ row ∈ m, row ≠ [] := by
  refine ⟨⟨⟨fun u v q h => ?_, fun u v d h => ?_⟩, fun u v => ?_, fun u v => ?_⟩, fun u v m h row hrow => ?_⟩
  · simp only [exPlaneLike] at h
    split at h
    · rename_i hv
      rw [Bool.and_eq_true] at hv
      exact ⟨validateKnotE_unit hv.1, validateKnotE_unit hv.2⟩
    · cases h
  · simp only [exPlaneLike] at h
    split at h
    · rename_i hv
      rw [Bool.and_eq_true] at hv
      exact ⟨validateKnotE_unit hv.1, validateKnotE_unit hv.2⟩
    · cases h
  · simp only [exPlaneLike]; split <;> simp
  · simp only [exPlaneLike]; split <;> simp
  · simp only [exPlaneLike] at h
    split at h
    · cases h
      rintro rfl
      simp at hrow
    · cases h

/-- C192: on the plane the inversion finds the parameters of a point. -/
example : surfaceInversionA 101 (ieeeArith bin64 (sumNormR bin64)) (exPlaneLike ⟨1, 1, 3, 2, [], [], []⟩)
    [bin64 (1 / 3), fin (1 / 4), 0] (bin64 (1 / 10 ^ 5)) (bin64 (1 / 10 ^ 5)) 100 = .ok (bin64 (1 / 3), fin (1 / 4)) := by
  decide +kernel

/-- C192: the interior problem of C191 with this inversion. -/
example : ∃ S, ruledSurfaceR bin64 (some exTop.lift) (some exBottom.lift) (some ((1 : ℕ) : ℤ)) (some ((3 : ℕ) : ℤ))
      = .ok (Surface.lift S) ∧
    ∀ res, FitSurfaceR bin64 exZeroSolver (fun pt => surfaceInversionA 101 (ieeeArith bin64 (sumNormR bin64))
        (exPlaneLike S.lift) pt (bin64 (1 / 10 ^ 5)) (bin64 (1 / 10 ^ 5)) 100) S.lift (lift2 [[1, 1, 1], [2, 1, 1]]) [] [] res →
      (∃ e, e ≠ .diverged ∧ res = .error e) ∨
      ∃ P, res = .ok (Surface.lift { S with ctrlpts := P }) ∧ StoredSurface bin64 8 { S with ctrlpts := P } := by
  have hU : Clamped 2 4 exBottom.fitCurve.kv :=
    ⟨⟨by decide +kernel, by decide +kernel, by decide⟩, by intro i hi; interval_cases i <;> decide +kernel,
      by intro i h1 h2; interval_cases i <;> decide +kernel⟩
  obtain ⟨S, h1, -, h3⟩ := interior_fit_own_inversion (M := 4) (B := 8) (p := 2) (n := 4) (q := 1) (m := 3)
    (eps1 := bin64 (1 / 10 ^ 5)) (eps2 := bin64 (1 / 10 ^ 5)) (maxIter := 100) (fuelI := 101)
    (data := [[1, 1, 1], [2, 1, 1]]) (top := []) (bottom := []) (by decide +kernel) (by norm_num) (by decide +kernel)
    (exZeroSolver_tame8.mono fun _ h => h.elim) (ieeeArith_stored (sumNormR bin64)) (ieeeArith_total _ _)
    (ieeeArith_propagates _ (sumNormR_nan _)) (fun s => (exPlaneLike_ok s).1) (fun s => (exPlaneLike_ok s).2) (by norm_num)
    (by norm_num) (t := exTop) (b := exBottom) rfl rfl rfl rfl ⟨by decide, by decide⟩ ⟨by decide, by decide⟩
    exBottom_stored exTop_stored (by norm_num) (by norm_num) hU (by decide +kernel)
    (by decide +kernel) (by decide +kernel) (by decide +kernel) (by omega) (by omega) (by norm_num)
    (by decide) (by decide +kernel) (by decide) (by decide) (by norm_num)
  refine ⟨S, h1, fun res hres => (h3 res hres).imp id ?_⟩
  rintro ⟨P, h, -, h', -⟩
  exact ⟨P, h, h'⟩

end PySpline
