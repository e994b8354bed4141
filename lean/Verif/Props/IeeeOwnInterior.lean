import Verif.Props.IeeeOwnFit
import Verif.Props.IeeeProblems

/-!
# C203: `InteriorProblem.fit` with the inversion of the library, in double precision
-/

set_option linter.unusedSectionVars false
set_option exponentiation.threshold 1100

namespace PySpline

open Spec Ext

section
variable {norm : List (Ext ℚ) → Ext ℚ} {slv : Ext ℚ → Ext ℚ → Ext ℚ → Ext ℚ → Ext ℚ → Ext ℚ → Py (Ext ℚ × Ext ℚ)}
  {sv : Surface (Ext ℚ) → SurfLike (Ext ℚ)} {eps1 eps2 : Ext ℚ} {maxIter : ℤ} {fuel : ℕ}

/-- **C203.** `InteriorProblem.fit` in double precision between two boundaries of doubles of size at most `2^299`, of degree two to
five, on knots as in C199, with evaluation and inversion of the library: there is an outcome, and every outcome is an exception of
the class `E` (`LinAlgError`, those of the solver, and `ValueError` only if the 2 x 2 solver makes NaN out of numbers), or a
surface of doubles with the bottom boundary as its edge, again as in C199, and parameters in `[0, 1]²` for the data. -/
theorem interior_problem_own_inversion_binary64 {E : Err → Prop} (hE1 : E .linAlgError) (hE2 : ¬ NumericSolve slv → E .valueError)
    (hsv : ∀ s, ComputesSurface bin64 s (sv s)) (hnorm : BoundedNorm norm) (hnan : ∀ l, nan ∈ l → norm l = nan)
    (hslv : ∀ a b c d x y : ℚ, slv (fin a) (fin b) (fin c) (fin d) (fin x) (fin y) = .error .linAlgError ∨
      ∃ s t, slv (fin a) (fin b) (fin c) (fin d) (fin x) (fin y) = .ok (s, t)) (hf : maxIter + 1 ≤ fuel) (hf1 : 1 ≤ fuel)
    {ls : ℕ → List (List (Ext ℚ)) → List (Ext ℚ) → Py (List (Ext ℚ))} (hls : TameSolver bin64 (2 ^ 1023) (2 ^ 300) E ls)
    {p n q m mt mb : ℕ} {st et sb eb : List ℚ} {Pt Pb : List (List ℚ)} {Ut Ub : List ℚ} {t b : Fitted (Ext ℚ)}
    (ht : StoredBoundary bin64 (2 ^ 299) (1 / 2 ^ 40) p n mt st et Pt Ut t)
    (hb : StoredBoundary bin64 (2 ^ 299) (1 / 2 ^ 40) p n mb sb eb Pb Ub b) (hlast : knotFn Ub (n - 1) ≤ 1 - 102 / 10 ^ 8)
    (hp : 2 ≤ p) (hp5 : p ≤ 5) (hqm : q < m) (hm : m ≤ 2 ^ 19) (hq : 2 ≤ q) (hq5 : q ≤ 5) {data : List (List ℚ)}
    (h3 : ∀ pt ∈ data, pt.length = 3) (hdata : ∀ pt ∈ data, ∀ x ∈ pt, bin64 x = fin x ∧ |x| ≤ 2 ^ 300)
    (hsize : 5 * p + 5 * q + 1 + n * m + data.length ≤ 10 ^ 8) :
    (∃ res, InteriorFitR bin64 ls (fun s pt => surfaceInversionA fuel (solverArith norm slv) (sv s) pt eps1 eps2 maxIter) t b q m
      (lift2 data) res) ∧
    ∀ res, InteriorFitR bin64 ls (fun s pt => surfaceInversionA fuel (solverArith norm slv) (sv s) pt eps1 eps2 maxIter) t b q m
      (lift2 data) res → (∃ e, E e ∧ res = .error e) ∨
      ∃ P V rows, res = .ok (Surface.lift ⟨p, q, n, m, P, Ub, V⟩, lift2 rows) ∧ generateUniformFl fl64 q m = .ok V ∧
        RegularSurface64 ⟨p, q, n, m, P, Ub, V⟩ ∧ StoredSurface bin64 (2 ^ 300) ⟨p, q, n, m, P, Ub, V⟩ ∧
        (∀ k < 3, ∀ i < n, coord P k (i * m) = coord Pb k i) ∧ Shape rows data.length 5 ∧
        ∀ r < data.length, (0 ≤ at2 rows r 3 0 ∧ at2 rows r 3 0 ≤ 1) ∧ 0 ≤ at2 rows r 4 0 ∧ at2 rows r 4 0 ≤ 1 := by
  obtain ⟨rt, hrt, srt, -⟩ := ht.data
  obtain ⟨rb, hrb, srb, -⟩ := hb.data
  have hbn := hb.clamped.size
  have len4 : ∀ {rows : List (List ℚ)} {r : ℕ}, Shape rows r 4 → ∀ row ∈ lift2 rows, row.length = 4 := by
    intro rows r h row hrow
    obtain ⟨x, hx, rfl⟩ := List.mem_map.1 hrow
    rw [List.length_map]
    exact h.2 x hx
  have hn8 : n ≤ 2 ^ 49 := by
    have : n * 1 ≤ n * m := Nat.mul_le_mul_left n (by omega)
    omega
  have hgap0 : (0 : ℚ) < 1 / 2 ^ 40 := by positivity
  have hsmall : (1 : ℚ) / 2 ^ 1000 ≤ 2 ^ 299 :=
    ((div_le_one (by positivity)).2 (one_le_pow₀ (by norm_num))).trans (one_le_pow₀ (by norm_num))
  have e2 : (2 : ℚ) * 2 ^ 299 = 2 ^ 300 := (pow_succ' 2 299).symm
  obtain ⟨P, V, g1, hP, hV, vc, -, hst, hedge⟩ := ruled_surface_binary64 (t := ⟨some p, some n, ⟨p, Pt, Ut⟩, none⟩)
    (b := ⟨some p, some n, ⟨p, Pb, Ub⟩, none⟩) rfl rfl rfl rfl ht.shape hb.shape hsmall
    (pow_le_pow_right₀ (by norm_num) (by norm_num)) hb.stored ht.stored hqm (by omega) (hm.trans (by norm_num))
  rw [e2] at hst
  have kU : UnitKnots p n Ub :=
    { toClamped := hb.clamped
      zero := hb.zero
      one := hb.one
      first := by have := hb.gap p le_rfl (by omega); linarith
      last := by
        have := hb.gap (n - 1) (by omega) (by omega)
        rw [show n - 1 + 1 = n by omega] at this
        linarith }
  have hR : RegularSurface64 ⟨p, q, n, m, P, Ub, V⟩ :=
    { clamped := ⟨hb.clamped, vc, one_le_two.trans hp, one_le_two.trans hq, hP⟩
      degU := ⟨hp, hp5⟩
      degV := ⟨hq, hq5⟩
      gapU := hb.gap
      gapV := uniform_double_gap40 hqm (hm.trans (by norm_num)) hV
      unitU := kU
      unitV := uniform_double_unit hqm (hm.trans (by norm_num)) hV
      lastU := hlast
      lastV := uniform_double_last hqm hm hV
      storedU := hst.knotsU
      storedV := hst.knotsV
      size := fun c hc i hi => (coord_of_forall_mem hP hst.pts hc hi).2
      numU := hn8
      numV := hm.trans (by norm_num) }
  have hruled : ruledSurfaceR bin64 (some t) (some b) (some (q : ℤ)) (some (m : ℤ))
      = .ok (Surface.lift ⟨p, q, n, m, P, Ub, V⟩) := by
    refine Eq.trans ?_ g1
    unfold ruledSurfaceR
    simp only [attrOf, ok_bind, Fitted.lift, ht.degree, hb.degree, ht.num, hb.num, ht.curve, hb.curve]
    rfl
  obtain ⟨⟨r, hr⟩, hall⟩ := fit_surface_own_inversion_binary64 (eps1 := eps1) (eps2 := eps2) hE1 hE2 hsv hnorm hnan hslv hf hf1 hls hR hst
    h3 hdata (len4 srt) (len4 srb) hsize
  have hiff : ∀ res, InteriorFitR bin64 ls
      (fun s pt => surfaceInversionA fuel (solverArith norm slv) (sv s) pt eps1 eps2 maxIter) t b q m (lift2 data) res ↔
      ∃ r, FitSurfaceR bin64 ls (fun pt => surfaceInversionA fuel (solverArith norm slv) (sv (Surface.lift ⟨p, q, n, m, P, Ub, V⟩)) pt
          eps1 eps2 maxIter) (Surface.lift ⟨p, q, n, m, P, Ub, V⟩) (lift2 data) (lift2 rt) (lift2 rb) r ∧
        match r with
        | .error e => res = .error e
        | .ok final => res = (do
          let pd ← parameterizeSurfaceWithE (fun pt => surfaceInversionA fuel (solverArith norm slv) (sv final) pt eps1 eps2
            maxIter) (lift2 data)
          .ok (final, pd)) := fun res => by
    unfold InteriorFitR
    rw [hruled]
    unfold FitSurfaceOfR
    rw [hrt, hrb]
    exact exists_congr fun r => and_congr Iff.rfl (by cases r <;> exact Iff.rfl)
  refine ⟨?_, fun res hres => ?_⟩
  · cases r with
    | error e => exact ⟨_, (hiff _).2 ⟨_, hr, rfl⟩⟩
    | ok final => exact ⟨_, (hiff _).2 ⟨_, hr, rfl⟩⟩
  obtain ⟨r, hr, hres⟩ := (hiff res).1 hres
  rcases hall r hr with ⟨e, he, rfl⟩ | ⟨Q, rfl, hR', hst', hbd, hpar⟩
  · exact Or.inl ⟨e, he, hres⟩
  dsimp only at hres
  rcases hpar with ⟨e, he, hp⟩ | ⟨rows, hp, hsh, h01⟩
  · exact Or.inl ⟨e, he, by rw [hres, hp]; rfl⟩
  refine Or.inr ⟨Q, V, rows, by rw [hres, hp]; rfl, hV, hR', hst', fun k hk i hi => ?_, hsh, h01⟩
  have := hbd k hk i hi 0 (by show 0 < m; omega) (Or.inr (Or.inr (Or.inl rfl)))
  dsimp only at this
  rw [add_zero] at this
  rw [this]
  exact (hedge k hk i hi).1

end

/-! ## A concrete case -/

/-- Two parallel lines as boundaries, without data. -/
def exSide (y : ℚ) : Fitted (Ext ℚ) :=
  ⟨some 2, some 3, ⟨2, [[0, fin y, 0], [fin (1 / 2), fin y, 0], [1, fin y, 0]], [0, 0, 0, 1, 1, 1]⟩, some []⟩

theorem exSide_stored {y : ℚ} (hy : bin64 y = fin y) (hy1 : |y| ≤ 1) : StoredBoundary bin64 (2 ^ 299) (1 / 2 ^ 40) 2 3 0 [0, y, 0]
    [1, y, 0] [[0, y, 0], [1 / 2, y, 0], [1, y, 0]] [0, 0, 0, 1, 1, 1] (exSide y) :=
  have hR := exBowl_regular
  { degree := rfl
    num := rfl
    curve := rfl
    stored := ⟨hR.storedU, by
      have h0 : bin64 0 = fin 0 := by decide +kernel
      have h1 : bin64 1 = fin 1 := by decide +kernel
      have h2 : bin64 2⁻¹ = fin 2⁻¹ := by decide +kernel
      have hb : (1 : ℚ) ≤ 2 ^ 299 := one_le_pow₀ (by norm_num)
      have hb2 : |(2 : ℚ)⁻¹| ≤ 2 ^ 299 := by rw [abs_of_pos (by norm_num)]; linarith
      have hb0 : (0 : ℚ) ≤ 2 ^ 299 := by positivity
      simp only [one_div, List.mem_cons, List.not_mem_nil, or_false, forall_eq_or_imp, forall_eq, h0, h1, h2, hy, hb, hb2, hb0,
        hy1.trans hb, abs_zero, abs_one, and_self]⟩
    shape := ⟨rfl, by simp⟩
    start := rfl
    stop := rfl
    clamped := hR.unitU.toClamped
    zero := hR.unitU.zero
    one := hR.unitU.one
    gap := hR.gapU
    data := ⟨[], rfl, ⟨rfl, by simp⟩, by simp, by simp⟩ }

/-- C203: the strip between the lines `y = 0` and `y = 1` fitted to points of moderate size. -/
example {sv : Surface (Ext ℚ) → SurfLike (Ext ℚ)} (hsv : ∀ s, ComputesSurface bin64 s (sv s))
    (ls0 : ℕ → List (List (Ext ℚ)) → List (Ext ℚ) → Py (List (Ext ℚ))) {data : List (List ℚ)}
    (h3 : ∀ pt ∈ data, pt.length = 3) (hdata : ∀ pt ∈ data, ∀ x ∈ pt, bin64 x = fin x ∧ |x| ≤ 2 ^ 300) (hlen : data.length ≤ 10 ^ 7) :
    let inv := fun s pt => surfaceInversionA 102 (solverArith (sumNormR bin64) invMulR) (sv s) pt (fin (1 / 10 ^ 5))
      (fin (1 / 10 ^ 5)) 100
    (∃ res, InteriorFitR bin64 (guarded bin64 (2 ^ 300) .linAlgError ls0) inv (exSide 1) (exSide 0) 2 4 (lift2 data) res) ∧
    ∀ res, InteriorFitR bin64 (guarded bin64 (2 ^ 300) .linAlgError ls0) inv (exSide 1) (exSide 0) 2 4 (lift2 data) res →
      res = .error .linAlgError ∨ res = .error .valueError ∨
      ∃ P V rows, res = .ok (Surface.lift ⟨2, 2, 3, 4, P, [0, 0, 0, 1, 1, 1], V⟩, lift2 rows) ∧ coord P 0 4 = 1 / 2 := by
  intro inv
  have hls : TameSolver bin64 (2 ^ 1023) (2 ^ 300) (fun e => e = .linAlgError ∨ e = .valueError)
      (guarded bin64 (2 ^ 300) .linAlgError ls0) := fun n A b h1 h2 h4 h5 =>
    (guarded_tame bin64 (2 ^ 1023) (2 ^ 300) .linAlgError ls0 n A b h1 h2 h4 h5).imp
      (fun ⟨e, he, h⟩ => ⟨e, Or.inl he, h⟩) id
  obtain ⟨hex, hall⟩ := interior_problem_own_inversion_binary64 (sv := sv) (eps1 := fin (1 / 10 ^ 5)) (eps2 := fin (1 / 10 ^ 5))
    (maxIter := 100) (fuel := 102) (Or.inl rfl) (fun _ => Or.inr rfl) hsv sumNormR_bounded (sumNormR_nan bin64)
    (slv := invMulR) (fun a b c d x y => by
      unfold invMulR
      by_cases h : a * d - b * c = 0
      · exact Or.inl (if_pos h)
      · exact Or.inr ⟨_, _, if_neg h⟩) (by norm_num) (by norm_num) hls
    (exSide_stored (y := 1) (by decide +kernel) (by norm_num))
    (exSide_stored (y := 0) (by decide +kernel) (by norm_num)) exBowl_regular.lastU le_rfl (by norm_num) (q := 2) (m := 4)
    (by norm_num) (by norm_num) le_rfl (by norm_num) h3 hdata (by omega)
  refine ⟨hex, fun res hres => ?_⟩
  rcases hall res hres with ⟨e, rfl | rfl, rfl⟩ | ⟨P, V, rows, rfl, -, -, -, hbd, -⟩
  · exact Or.inl rfl
  · exact Or.inr (Or.inl rfl)
  · exact Or.inr (Or.inr ⟨P, V, rows, rfl, by have := hbd 0 (by norm_num) 1 (by norm_num); simpa [coord] using this⟩)

end PySpline
