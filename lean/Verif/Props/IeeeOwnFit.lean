import Verif.Props.IeeeOwnSurf
import Verif.Props.IeeeSurfaceFit
import Verif.Lemmas.IeeeGuarded

/-!
# C202: `fit_surface` with the inversion of the library on its own surfaces, in double precision
-/

set_option linter.unusedSectionVars false
set_option exponentiation.threshold 1100

namespace PySpline

open Spec Ext

section
variable {norm : List (Ext ℚ) → Ext ℚ} {slv : Ext ℚ → Ext ℚ → Ext ℚ → Ext ℚ → Ext ℚ → Ext ℚ → Py (Ext ℚ × Ext ℚ)}
  {sv : Surface (Ext ℚ) → SurfLike (Ext ℚ)} {eps1 eps2 : Ext ℚ} {maxIter : ℤ} {fuel : ℕ}

private theorem knots_apart {p n : ℕ} {U : List ℚ} (hU : UnitKnots p n U)
    (hgap : ∀ i, p ≤ i → i < n → 1 / 2 ^ 40 ≤ knotFn U (i + 1) - knotFn U i) :
    ∀ x ∈ U, ∀ y ∈ U, x < y → 1 / 2 ^ 1000 ≤ y - x := by
  have hs : Spaced p n (1 / 2 ^ 1000 : ℚ) ⟨p, List.replicate n [0, 0, 0], U⟩ :=
    ⟨rfl, ⟨by simp, fun row hrow => by rw [List.eq_of_mem_replicate hrow]; rfl⟩, hU.toClamped, hU.zero, hU.one, fun i a b => le_trans
      (one_div_le_one_div_of_le (by norm_num) (pow_le_pow_right₀ (by norm_num) (by norm_num))) (hgap i a b)⟩
  exact hs.sep

/-- The inversion of data on a surface of the library, in the form used by the fit. -/
private theorem own_inversion_tame {E : Err → Prop} (hE1 : E .linAlgError) (hE2 : ¬ NumericSolve slv → E .valueError)
    (hsv : ∀ s, ComputesSurface bin64 s (sv s)) (hnorm : BoundedNorm norm) (hnan : ∀ l, nan ∈ l → norm l = nan)
    (hslv : ∀ a b c d x y : ℚ, slv (fin a) (fin b) (fin c) (fin d) (fin x) (fin y) = .error .linAlgError ∨
      ∃ s t, slv (fin a) (fin b) (fin c) (fin d) (fin x) (fin y) = .ok (s, t)) (hf : maxIter + 1 ≤ fuel) (hf1 : 1 ≤ fuel)
    {s : Surface ℚ} (h : RegularSurface64 s) {data : List (List ℚ)} (h3 : ∀ pt ∈ data, pt.length = 3)
    (hdata : ∀ pt ∈ data, ∀ x ∈ pt, bin64 x = fin x ∧ |x| ≤ 2 ^ 300) : ∀ pt ∈ data,
    (∃ e, E e ∧ surfaceInversionA fuel (solverArith norm slv) (sv s.lift) (lift1 pt) eps1 eps2 maxIter = .error e) ∨
      ∃ u v, surfaceInversionA fuel (solverArith norm slv) (sv s.lift) (lift1 pt) eps1 eps2 maxIter = .ok (fin u, fin v) ∧
        (bin64 u = fin u ∧ 0 ≤ u ∧ u ≤ 1) ∧ bin64 v = fin v ∧ 0 ≤ v ∧ v ≤ 1 := fun pt hpt => by
  have hp : Moderate pt := ⟨h3 pt hpt, fun x hx => ((hdata pt hpt x hx).2).trans (pow_le_pow_right₀ (by norm_num) (by norm_num))⟩
  rcases own_surface_inversion_binary64 h (hsv _) hnorm hnan hslv hp eps1 eps2 hf hf1 with e | ⟨e, hn⟩ | e
  · exact Or.inl ⟨_, hE1, e⟩
  · exact Or.inl ⟨_, hE2 hn, e⟩
  · exact Or.inr e

/-- **C202.** `fit_surface` on the surfaces of C199 in double precision with the library's own inversion: there is an outcome, and
every outcome is an exception of the solver, `LinAlgError`, `ValueError` (only if the 2 x 2 solver makes NaN out of numbers), or a
surface of doubles with the boundary of the given one.  The fitted surface is again as in C199, so its data can be parameterized: with
the same exceptions, or in rows of doubles with parameters in `[0, 1]²`. -/
theorem fit_surface_own_inversion_binary64 {E : Err → Prop} (hE1 : E .linAlgError) (hE2 : ¬ NumericSolve slv → E .valueError)
    (hsv : ∀ s, ComputesSurface bin64 s (sv s)) (hnorm : BoundedNorm norm) (hnan : ∀ l, nan ∈ l → norm l = nan)
    (hslv : ∀ a b c d x y : ℚ, slv (fin a) (fin b) (fin c) (fin d) (fin x) (fin y) = .error .linAlgError ∨
      ∃ s t, slv (fin a) (fin b) (fin c) (fin d) (fin x) (fin y) = .ok (s, t)) (hf : maxIter + 1 ≤ fuel) (hf1 : 1 ≤ fuel)
    {ls : ℕ → List (List (Ext ℚ)) → List (Ext ℚ) → Py (List (Ext ℚ))} (hls : TameSolver bin64 (2 ^ 1023) (2 ^ 300) E ls)
    {s : Surface ℚ} (h : RegularSurface64 s) (hst : StoredSurface bin64 (2 ^ 300) s) {data : List (List ℚ)}
    (h3 : ∀ pt ∈ data, pt.length = 3) (hdata : ∀ pt ∈ data, ∀ x ∈ pt, bin64 x = fin x ∧ |x| ≤ 2 ^ 300)
    {top bottom : List (List (Ext ℚ))} (htop : ∀ row ∈ top, row.length = 4) (hbot : ∀ row ∈ bottom, row.length = 4)
    (hsize : 5 * s.degreeU + 5 * s.degreeV + 1 + s.numU * s.numV + data.length ≤ 10 ^ 8) :
    (∃ res, FitSurfaceR bin64 ls (fun pt => surfaceInversionA fuel (solverArith norm slv) (sv s.lift) pt eps1 eps2 maxIter) s.lift
      (lift2 data) top bottom res) ∧
    ∀ res, FitSurfaceR bin64 ls (fun pt => surfaceInversionA fuel (solverArith norm slv) (sv s.lift) pt eps1 eps2 maxIter) s.lift
      (lift2 data) top bottom res → (∃ e, E e ∧ res = .error e) ∨
      ∃ P, res = .ok (Surface.lift { s with ctrlpts := P }) ∧ RegularSurface64 { s with ctrlpts := P } ∧
        StoredSurface bin64 (2 ^ 300) { s with ctrlpts := P } ∧
        (∀ k < 3, ∀ i < s.numU, ∀ j < s.numV, OnBoundary s i j →
          coord P k (i * s.numV + j) = coord s.ctrlpts k (i * s.numV + j)) ∧
        ((∃ e, E e ∧ parameterizeSurfaceWithE (fun pt => surfaceInversionA fuel (solverArith norm slv)
            (sv (Surface.lift { s with ctrlpts := P })) pt eps1 eps2 maxIter) (lift2 data) = .error e) ∨
          ∃ rows, parameterizeSurfaceWithE (fun pt => surfaceInversionA fuel (solverArith norm slv)
              (sv (Surface.lift { s with ctrlpts := P })) pt eps1 eps2 maxIter) (lift2 data) = .ok (lift2 rows) ∧
            Shape rows data.length 5 ∧
            ∀ r < data.length, (0 ≤ at2 rows r 3 0 ∧ at2 rows r 3 0 ≤ 1) ∧ 0 ≤ at2 rows r 4 0 ∧ at2 rows r 4 0 ≤ 1) := by
  have hsmall : (1 : ℚ) / 2 ^ 1000 ≤ 2 ^ 300 :=
    ((div_le_one (by positivity)).2 (one_le_pow₀ (by norm_num))).trans (one_le_pow₀ (by norm_num))
  have hPs := h.clamped.shape
  obtain ⟨hex, hall⟩ := fit_surface_binary64 (B := 2 ^ 300) (inv := fun pt => surfaceInversionA fuel (solverArith norm slv) (sv s.lift) pt eps1 eps2
    maxIter) hsmall (pow_le_pow_right₀ (by norm_num) (by norm_num)) hls h.clamped
    (h.degU.2.trans (by norm_num)) (h.degV.2.trans (by norm_num)) h.unitU.first h.unitV.first h.unitU.zero h.unitU.one h.unitV.zero
    h.unitV.one hst (knots_apart h.unitU h.gapU) (knots_apart h.unitV h.gapV)
    (fun k hk i hi j hj _ => (coord_of_forall_mem hPs hst.pts hk (by
      calc i * s.numV + j < i * s.numV + s.numV := by omega
        _ = (i + 1) * s.numV := by ring
        _ ≤ s.numU * s.numV := Nat.mul_le_mul_right _ hi)).2) h3 hdata htop hbot
    (own_inversion_tame (eps1 := eps1) (eps2 := eps2) hE1 hE2 hsv hnorm hnan hslv hf hf1 h h3 hdata) hsize
  refine ⟨hex, fun res hres => ?_⟩
  rcases hall res hres with he | ⟨P, rfl, hP, hst', hbd⟩
  · exact Or.inl he
  have h' : RegularSurface64 { s with ctrlpts := P } :=
    { clamped := ⟨h.clamped.cu, h.clamped.cv, one_le_two.trans h.degU.1, one_le_two.trans h.degV.1, hP⟩
      degU := h.degU
      degV := h.degV
      gapU := h.gapU
      gapV := h.gapV
      unitU := h.unitU
      unitV := h.unitV
      lastU := h.lastU
      lastV := h.lastV
      storedU := h.storedU
      storedV := h.storedV
      size := fun c hc i hi => (coord_of_forall_mem hP hst'.pts hc hi).2
      numU := h.numU
      numV := h.numV }
  refine Or.inr ⟨P, rfl, h', hst', hbd, ?_⟩
  rcases parameterizeSurfaceWithE_finite (inv := fun pt => surfaceInversionA fuel (solverArith norm slv)
    (sv (Surface.lift { s with ctrlpts := P })) pt eps1 eps2 maxIter) h3 hdata
    (own_inversion_tame (eps1 := eps1) (eps2 := eps2) hE1 hE2 hsv hnorm hnan hslv hf hf1 h' h3 hdata) with he | ⟨rows, er, sh, h01, -⟩
  · exact Or.inl he
  · exact Or.inr ⟨rows, er, sh, h01⟩

end

/-! ## A concrete case -/

/-- C202: the bowl of C199 fitted to any ten million points of moderate size, with any solver whose results are checked for size and
with the inverse of the 2 x 2 matrix rounded: there is an outcome, and every outcome is `LinAlgError`, `ValueError` or a
surface on the same knots. -/
example {sv : Surface (Ext ℚ) → SurfLike (Ext ℚ)} (hsv : ∀ s, ComputesSurface bin64 s (sv s))
    (ls0 : ℕ → List (List (Ext ℚ)) → List (Ext ℚ) → Py (List (Ext ℚ))) {data : List (List ℚ)}
    (h3 : ∀ pt ∈ data, pt.length = 3) (hdata : ∀ pt ∈ data, ∀ x ∈ pt, bin64 x = fin x ∧ |x| ≤ 2 ^ 300) (hlen : data.length ≤ 10 ^ 7) :
    let inv := fun pt => surfaceInversionA 102 (solverArith (sumNormR bin64) invMulR) (sv exBowl.lift) pt (fin (1 / 10 ^ 5))
      (fin (1 / 10 ^ 5)) 100
    (∃ res, FitSurfaceR bin64 (guarded bin64 (2 ^ 300) .linAlgError ls0) inv exBowl.lift (lift2 data) [] [] res) ∧
    ∀ res, FitSurfaceR bin64 (guarded bin64 (2 ^ 300) .linAlgError ls0) inv exBowl.lift (lift2 data) [] [] res →
      res = .error .linAlgError ∨ res = .error .valueError ∨
      ∃ P, res = .ok (Surface.lift { exBowl with ctrlpts := P }) ∧ ∀ k < 3, coord P k 0 = coord exBowl.ctrlpts k 0 := by
  intro inv
  have hls : TameSolver bin64 (2 ^ 1023) (2 ^ 300) (fun e => e = .linAlgError ∨ e = .valueError)
      (guarded bin64 (2 ^ 300) .linAlgError ls0) := fun n A b h1 h2 h4 h5 =>
    (guarded_tame bin64 (2 ^ 1023) (2 ^ 300) .linAlgError ls0 n A b h1 h2 h4 h5).imp
      (fun ⟨e, he, h⟩ => ⟨e, Or.inl he, h⟩) id
  obtain ⟨hex, hall⟩ := fit_surface_own_inversion_binary64 (sv := sv) (eps1 := fin (1 / 10 ^ 5)) (eps2 := fin (1 / 10 ^ 5))
    (maxIter := 100) (fuel := 102) (Or.inl rfl) (fun _ => Or.inr rfl) hsv sumNormR_bounded (sumNormR_nan bin64)
    (slv := invMulR) (fun a b c d x y => by
      unfold invMulR
      by_cases h : a * d - b * c = 0
      · exact Or.inl (if_pos h)
      · exact Or.inr ⟨_, _, if_neg h⟩) (by norm_num) (by norm_num) hls exBowl_regular
    ⟨by decide +kernel, by decide +kernel, by decide +kernel⟩ h3 hdata (top := []) (bottom := []) (by simp) (by simp)
    (by change 5 * 2 + 5 * 2 + 1 + 3 * 3 + data.length ≤ _; omega)
  refine ⟨hex, fun res hres => ?_⟩
  rcases hall res hres with ⟨e, rfl | rfl, rfl⟩ | ⟨P, rfl, -, -, hbd, -⟩
  · exact Or.inl rfl
  · exact Or.inr (Or.inl rfl)
  · refine Or.inr (Or.inr ⟨P, rfl, fun k hk => ?_⟩)
    have := hbd k hk 0 (by decide) 0 (by decide) (Or.inl rfl)
    simpa using this

end PySpline
