import Verif.Lemmas.SurfaceInversionAux
import Verif.Props.Newton

/-!
# C124: inverting points on B-spline surfaces
-/

set_option linter.unusedSectionVars false

namespace PySpline

open Spec

section
variable {K : Type} [Field K] [LinearOrder K] [IsStrictOrderedRing K]

/-- All parameters of a direction are regular. -/
def AllRegular (p n : ℕ) (U : List K) : Prop := ∀ u, 0 ≤ u → u ≤ 1 → Regular p n U u

/-- Distinct interior knots and a last span longer than the end tolerance. -/
theorem allRegular_of_distinct {p n : ℕ} {U : List K} (hU : Clamped p n U) (hd : DistinctInterior p n U)
    (h0 : knotFn U 0 = 0) (h1 : knotFn U (n + p) = 1) (hl : knotFn U (n - 1) ≤ 1 - (1 / 10 ^ 8 + 1 / 10 ^ 6)) :
    AllRegular p n U := fun u hu0 hu1 => regular_of_distinct hU hd h0 h1 hu0 hu1 fun hc => by
  rw [abs_of_nonpos (by linarith)] at hc
  linarith

/-- **C124.** A `BSplineSurface` with both degrees at least 2 is what `surface_inversion` needs: points and partial
derivatives of the span at hand, up to order two, for every pair of parameters. -/
theorem surface_smooth (norm : List K → K) {s : Surface K} (hs : ClampedSurface s) (hdu : 2 ≤ s.degreeU)
    (hdv : 2 ≤ s.degreeV) (ru : AllRegular s.degreeU s.numU s.kvU) (rv : AllRegular s.degreeV s.numV s.kvV) :
    ∃ D, (s.like norm).Smooth D ∧ ∀ u v, 0 ≤ u → u ≤ 1 → 0 ≤ v → v ≤ 1 → ∃ m k,
      knotFn s.kvU m ≤ u ∧ u ≤ knotFn s.kvU (m + 1) ∧ knotFn s.kvV k ≤ v ∧ v ≤ knotFn s.kvV (k + 1) ∧
      knotFn s.kvU m < knotFn s.kvU (m + 1) ∧ knotFn s.kvV k < knotFn s.kvV (k + 1) ∧
      ∀ a ≤ 2, ∀ b ≤ 2, D a b u v = (List.range 3).map fun c =>
        patchDeriv (knotFn s.kvU) m s.degreeU s.numU (knotFn s.kvV) k s.degreeV s.numV (coord s.ctrlpts c) a b u v := by
  have key : ∀ u v : K, ∃ f : ℕ → ℕ → List K, (∀ a b, (f a b).length = 3) ∧ (0 ≤ u → u ≤ 1 → 0 ≤ v → v ≤ 1 →
      s.singlePoint u v = .ok (f 0 0) ∧
      (∃ rows, s.derivatives norm u v 2 2 false = .ok rows ∧ ∀ a ≤ 2, ∀ b ≤ 2, rows[3 * a + b]? = some (f a b)) ∧
      ∃ m k, knotFn s.kvU m ≤ u ∧ u ≤ knotFn s.kvU (m + 1) ∧ knotFn s.kvV k ≤ v ∧ v ≤ knotFn s.kvV (k + 1) ∧
        knotFn s.kvU m < knotFn s.kvU (m + 1) ∧ knotFn s.kvV k < knotFn s.kvV (k + 1) ∧
        ∀ a ≤ 2, ∀ b ≤ 2, f a b = (List.range 3).map fun c =>
          patchDeriv (knotFn s.kvU) m s.degreeU s.numU (knotFn s.kvV) k s.degreeV s.numV
            (coord s.ctrlpts c) a b u v) := by
    intro u v
    by_cases h : (0 ≤ u ∧ u ≤ 1) ∧ 0 ≤ v ∧ v ≤ 1
    · obtain ⟨m, k, h1, h2, h3, h4, h5, h6, hr⟩ :=
        surface_derivatives_layout norm hs.ok h.1 h.2 (ru u h.1.1 h.1.2) (rv v h.2.1 h.2.2) 2 2
      obtain ⟨rows, hrows, hl, hrow⟩ := hr false
      rw [Nat.min_eq_left hdu, Nat.min_eq_left hdv] at hl hrow
      have hsc : ∀ (b : Bool) (l : List K), scaledRow norm false b l = l := by
        intro b l; simp [scaledRow]
      simp only [hsc] at hrow
      refine ⟨fun a b => (List.range 3).map fun c =>
          patchDeriv (knotFn s.kvU) m s.degreeU s.numU (knotFn s.kvV) k s.degreeV s.numV (coord s.ctrlpts c) a b u v,
        fun a b => by simp, fun _ _ _ _ => ⟨?_, ⟨rows, hrows, fun a ha b hb => ?_⟩,
          m, k, h1, h2, h3, h4, h5, h6, fun _ _ _ _ => rfl⟩⟩
      · obtain ⟨rows', hrows', hpt⟩ :=
          surface_derivatives_row_zero norm hs.ok h.1 h.2 (ru u h.1.1 h.1.2) (rv v h.2.1 h.2.2) 2 2 false
        cases Except.ok.inj (hrows.symm.trans hrows')
        have := hrow 0 (by omega) 0 (by omega)
        rw [hpt]
        beta_reduce
        rw [← this]
      · beta_reduce
        rw [← hrow a ha b hb, List.getD_eq_getElem?_getD, Nat.mul_comm 3 a, List.getElem?_eq_getElem (by
          rw [hl]; interval_cases a <;> interval_cases b <;> decide)]
        rfl
    · exact ⟨fun _ _ => [0, 0, 0], fun _ _ => rfl, fun h1 h2 h3 h4 => absurd ⟨⟨h1, h2⟩, h3, h4⟩ h⟩
  choose f hlen hf using key
  exact ⟨fun a b u v => f u v a b, ⟨fun u v h1 h2 h3 h4 => (hf u v h1 h2 h3 h4).1,
    fun u v h1 h2 h3 h4 => (hf u v h1 h2 h3 h4).2.1, fun a b u v => hlen u v a b⟩,
    fun u v h1 h2 h3 h4 => (hf u v h1 h2 h3 h4).2.2⟩

/-- **C124.** The start values on a clamped surface: the pair of the grid with `2 numU` times `2 numV` points whose
surface point is nearest, if one of these points is closer than `1e6`. -/
theorem initial_guess_surf_bspline (nm : Num K) (norm : List K → K) {s : Surface K} (hs : ClampedSurface s)
    (ru : AllRegular s.degreeU s.numU s.kvU) (rv : AllRegular s.degreeV s.numV s.kvV) {x y z : K} :
    let g : ℕ → ℕ → K := fun n a => (a : K) / (2 * n - 1)
    let dist : ℕ → ℕ → K := fun a b => nm.norm [x - s.value 0 (g s.numU a) (g s.numV b),
      y - s.value 1 (g s.numU a) (g s.numV b), z - s.value 2 (g s.numU a) (g s.numV b)]
    ∃ a < 2 * s.numU, ∃ b < 2 * s.numV,
      initialGuessSurf nm (s.like norm) [x, y, z] = .ok (g s.numU a, g s.numV b) ∧
      ((∃ i < 2 * s.numU, ∃ j < 2 * s.numV, dist i j < 10 ^ 6) →
        ∀ i < 2 * s.numU, ∀ j < 2 * s.numV, dist a b ≤ dist i j) := by
  intro g dist
  have hg : ∀ n a : ℕ, (a : K) / (((2 * n : ℕ) : K) - 1) = g n a := fun n a => by simp only [g]; push_cast; rfl
  obtain ⟨a, ha, b, hb, h0, h1, -⟩ := initial_guess_surf_nearest nm (s.like norm) [x, y, z]
    ((Nat.zero_le _).trans_lt hs.cu.size) ((Nat.zero_le _).trans_lt hs.cv.size)
    (fun a b => [s.value 0 (g s.numU a) (g s.numV b), s.value 1 (g s.numU a) (g s.numV b),
      s.value 2 (g s.numU a) (g s.numV b)])
    fun a ha b hb => ⟨by
      have A := grid_mem_unit (K := K) ha
      have B := grid_mem_unit (K := K) hb
      have := surface_point_tensor_sum hs A B (ru _ A.1 A.2) (rv _ B.1 B.2)
      simp only [← hg]
      exact this, by simp⟩
  refine ⟨a, ha, b, hb, ?_, fun h => ?_⟩
  · rw [h0]
    simp only [← hg]
    rfl
  · exact (h1 h).1

/-- **C124.** On a clamped surface with both degrees at least 2 `surface_inversion` returns a pair in the unit square or
raises `LinAlgError`, for every point in space. -/
theorem surface_inversion_bspline (nm : Num K) (norm : List K → K) {s : Surface K} (hs : ClampedSurface s)
    (hdu : 2 ≤ s.degreeU) (hdv : 2 ≤ s.degreeV) (ru : AllRegular s.degreeU s.numU s.kvU)
    (rv : AllRegular s.degreeV s.numV s.kvV) {p : List K} (hp : p.length = 3) (eps1 eps2 : K) {maxIter : ℤ} {fuel : ℕ}
    (hf : maxIter + 1 ≤ fuel) (hf1 : 1 ≤ fuel) :
    (∃ r, surfaceInversion fuel nm (s.like norm) p eps1 eps2 maxIter = .ok r ∧
      (0 ≤ r.1 ∧ r.1 ≤ 1) ∧ 0 ≤ r.2 ∧ r.2 ≤ 1) ∨
    surfaceInversion fuel nm (s.like norm) p eps1 eps2 maxIter = .error .linAlgError := by
  obtain ⟨D, hD, -⟩ := surface_smooth norm hs hdu hdv ru rv
  exact surface_inversion_outcome hD ((Nat.zero_le _).trans_lt hs.cu.size) ((Nat.zero_le _).trans_lt hs.cv.size)
    hp eps1 eps2 hf hf1

/-- **C124.** With a degree 1 it always raises `IndexError`. -/
theorem surface_inversion_bspline_degree_one (nm : Num K) (norm : List K → K) {s : Surface K} (hs : ClampedSurface s)
    (hd : s.degreeU < 2 ∨ s.degreeV < 2) (ru : AllRegular s.degreeU s.numU s.kvU)
    (rv : AllRegular s.degreeV s.numV s.kvV) {p : List K} (hp : p.length = 3) (eps1 eps2 : K) (maxIter : ℤ) (fuel : ℕ) :
    surfaceInversion fuel nm (s.like norm) p eps1 eps2 maxIter = .error .indexError := by
  obtain ⟨a, ha, b, hb, h0, -⟩ := initial_guess_surf_nearest nm (s.like norm) p
    ((Nat.zero_le _).trans_lt hs.cu.size) ((Nat.zero_le _).trans_lt hs.cv.size)
    (fun a b => let u := (a : K) / (((2 * (s.like norm).numU : ℕ) : K) - 1)
      let v := (b : K) / (((2 * (s.like norm).numV : ℕ) : K) - 1)
      [s.value 0 u v, s.value 1 u v, s.value 2 u v])
    fun a ha b hb => ⟨surface_point_tensor_sum hs (grid_mem_unit ha) (grid_mem_unit hb)
      (ru _ (grid_mem_unit ha).1 (grid_mem_unit ha).2) (rv _ (grid_mem_unit hb).1 (grid_mem_unit hb).2), by simp [hp]⟩
  unfold surfaceInversion
  rw [h0, ok_bind]
  dsimp only
  rw [surface_rows_degree_one norm hs.ok (grid_mem_unit ha) (grid_mem_unit hb)
    (ru _ (grid_mem_unit ha).1 (grid_mem_unit ha).2) (rv _ (grid_mem_unit hb).1 (grid_mem_unit hb).2) hd]
  rfl

/-- **C124.** `parameterize_surface` on such a surface: with both degrees at least 2 the rows are the data points with
a pair of parameters in the unit square each, or `LinAlgError` is raised. -/
theorem parameterize_surface_bspline (nm : Num K) (norm : List K → K) {s : Surface K} (hs : ClampedSurface s)
    (hdu : 2 ≤ s.degreeU) (hdv : 2 ≤ s.degreeV) (ru : AllRegular s.degreeU s.numU s.kvU)
    (rv : AllRegular s.degreeV s.numV s.kvV) {data : List (List K)} (hd : ∀ row ∈ data, row.length = 3) :
    (∃ rows, parameterizeSurface nm (s.like norm) data = .ok rows ∧ (rows.map (List.take 3)).Perm data ∧
      ∀ row ∈ rows, row.length = 5 ∧ (0 ≤ row.getD 3 0 ∧ row.getD 3 0 ≤ 1) ∧ 0 ≤ row.getD 4 0 ∧ row.getD 4 0 ≤ 1) ∨
    parameterizeSurface nm (s.like norm) data = .error .linAlgError := by
  unfold parameterizeSurface
  have hpt : ∀ p ∈ data, (∃ row, (do
      let (u, v) ← surfaceInversionD nm (s.like norm) p
      .ok (p ++ [u, v]) : Py (List K)) = .ok row ∧ row.take 3 = p ∧ row.length = 5 ∧
        (0 ≤ row.getD 3 0 ∧ row.getD 3 0 ≤ 1) ∧ 0 ≤ row.getD 4 0 ∧ row.getD 4 0 ≤ 1) ∨ (do
      let (u, v) ← surfaceInversionD nm (s.like norm) p
      .ok (p ++ [u, v]) : Py (List K)) = .error .linAlgError := by
    intro p hp
    have hp3 := hd p hp
    rcases surface_inversion_bspline nm norm hs hdu hdv ru rv hp3 epsDefault epsDefault (maxIter := 100) (fuel := 101)
      (by norm_num) (by norm_num) with ⟨r, hr, h⟩ | hr
    · left
      refine ⟨_, by unfold surfaceInversionD; rw [hr, ok_bind], ?_⟩
      obtain ⟨a, b, c, rfl⟩ := List.length_eq_three.1 hp3
      exact ⟨rfl, rfl, h⟩
    · right
      unfold surfaceInversionD
      rw [hr]
      rfl
  rcases mapPy_outcome (f := fun point => do
      let (u, v) ← surfaceInversionD nm (s.like norm) point
      .ok (point ++ [u, v])) (e := .linAlgError) (l := data)
      (P := fun p row => row.take 3 = p ∧ row.length = 5 ∧ (0 ≤ row.getD 3 0 ∧ row.getD 3 0 ≤ 1) ∧
        0 ≤ row.getD 4 0 ∧ row.getD 4 0 ≤ 1) hpt with ⟨rows, hr, hF⟩ | he
  · left
    rw [hr, ok_bind, if_pos]
    · refine ⟨_, rfl, ?_, fun row hrow => ?_⟩
      · refine ((npSortRows_perm _ _).map _).trans ?_
        have : rows.map (List.take 3) = data := by
          clear hr hd hpt
          induction hF with
          | nil => rfl
          | cons h _ ih => rw [List.map_cons, h.1, ih]
        rw [this]
      · obtain ⟨i, hi, rfl⟩ := List.getElem_of_mem ((npSortRows_perm _ _).mem_iff.1 hrow)
        exact ((List.forall₂_iff_get.1 hF).2 i (by rw [hF.length_eq]; exact hi) hi).2
    · rw [List.all_eq_true]
      intro row hrow
      obtain ⟨i, hi, rfl⟩ := List.getElem_of_mem hrow
      simpa using ((List.forall₂_iff_get.1 hF).2 i (by rw [hF.length_eq]; exact hi) hi).2.1
  · rw [he]
    exact Or.inr rfl

end

/-! ## Witnesses -/

/-- A flat patch of degree two. -/
def exQuad : Surface ℚ where
  degreeU := 2
  degreeV := 2
  numU := 3
  numV := 3
  ctrlpts := [[0,0,0],[0,1/2,0],[0,1,0],[1/2,0,0],[1/2,1/2,0],[1/2,1,0],[1,0,0],[1,1/2,0],[1,1,0]]
  kvU := [0,0,0,1,1,1]
  kvV := [0,0,0,1,1,1]

theorem exQuad_clamped : ClampedSurface exQuad where
  cu := ⟨⟨by decide +kernel, by decide +kernel, by decide⟩,
    by intro i hi; change i ≤ 2 at hi; interval_cases i <;> decide +kernel,
    by intro i h1 h2; change 3 ≤ i at h1; change i ≤ 5 at h2; interval_cases i <;> decide +kernel⟩
  cv := ⟨⟨by decide +kernel, by decide +kernel, by decide⟩,
    by intro i hi; change i ≤ 2 at hi; interval_cases i <;> decide +kernel,
    by intro i h1 h2; change 3 ≤ i at h1; change i ≤ 5 at h2; interval_cases i <;> decide +kernel⟩
  du := by decide
  dv := by decide
  shape := ⟨by decide, by decide +kernel⟩

theorem exQuad_regular : AllRegular (K := ℚ) 2 3 [0, 0, 0, 1, 1, 1] :=
  allRegular_of_distinct exQuad_clamped.cu
    (by intro i h1 h2; obtain rfl : i = 2 := by omega
        decide +kernel)
    (by decide +kernel) (by decide +kernel) (by decide +kernel)

/-- Both outcomes of C124 occur: the point above the flat patch is inverted, and on the patch shrunk to a point the
Jacobian is singular. -/
example : surfaceInversionD exNum (exQuad.like exNum.norm) [1/3, 1/4, 1] = .ok (1/3, 1/4) := by decide +kernel

example : surfaceInversionD exNum ({ exQuad with ctrlpts := List.replicate 9 [0, 0, 0] }.like exNum.norm)
    [1/3, 1/4, 0] = .error .linAlgError := by decide +kernel

example : (∃ r, surfaceInversion 101 exNum (exQuad.like exNum.norm) [7, -2, 5] epsDefault epsDefault 100 = .ok r ∧
      (0 ≤ r.1 ∧ r.1 ≤ 1) ∧ 0 ≤ r.2 ∧ r.2 ≤ 1) ∨
    surfaceInversion 101 exNum (exQuad.like exNum.norm) [7, -2, 5] epsDefault epsDefault 100 = .error .linAlgError :=
  surface_inversion_bspline exNum exNum.norm exQuad_clamped (by decide) (by decide) exQuad_regular exQuad_regular rfl
    epsDefault epsDefault (by norm_num) (by norm_num)

/-- On `exS`, with 4 times 3 control points, the grid has 8 times 6 points. -/
example : initialGuessSurf exNum (exS.like exNum.norm) [7/8, 1, 19/8] = .ok (2/7, 2/5) := by decide +kernel

/-- `exS` has degree 1 in the second direction. -/
example : surfaceInversionD exNum (exS.like exNum.norm) [7/8, 1, 19/8] = .error .indexError := by decide +kernel

example : parameterizeSurface exNum (exQuad.like exNum.norm) [[1/3, 1/4, 1], [1/5, 1, 0]]
    = .ok [[1/5, 1, 0, 1/5, 1], [1/3, 1/4, 1, 1/3, 1/4]] := by decide +kernel

end PySpline
