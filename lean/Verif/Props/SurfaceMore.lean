import Verif.Lemmas.SurfaceMoreAux
import Verif.Props.Surface

/-!
# C94–C96: isoparametric curves, affine maps and local support of surfaces
-/

set_option linter.unusedSectionVars false

namespace PySpline

open Spec Polynomial

section
variable {K : Type} [Field K] [LinearOrder K] [IsStrictOrderedRing K]

/-- **C94.** Evaluating a surface is evaluating curves: the rows of the control net, as curves with the
`v` knots, are evaluated at `v`; their points are the control points of a curve with the `u` knots
that is evaluated at `u`. -/
theorem surface_point_by_rows {s : Surface K} (hs : ClampedSurface s) {u v : K}
    (hu : 0 ≤ u ∧ u ≤ 1) (hv : 0 ≤ v ∧ v ≤ 1) (ru : Regular s.degreeU s.numU s.kvU u)
    (rv : Regular s.degreeV s.numV s.kvV v) :
    ∃ Q, mapPy (fun i => Curve.singlePoint ⟨s.degreeV, s.rowPts i, s.kvV⟩ v) (List.range s.numU) = .ok Q ∧
      Curve.singlePoint ⟨s.degreeU, Q, s.kvU⟩ u = s.singlePoint u v := by
  set q : ℕ → ℕ → K := fun c i => curve (knotFn s.kvV) s.degreeV s.numV
    (fun j => coord s.ctrlpts c (i * s.numV + j)) v with hq
  set Q : List (List K) := (List.range s.numU).map fun i => [q 0 i, q 1 i, q 2 i] with hQ
  have hrow : ∀ i < s.numU, Curve.singlePoint ⟨s.degreeV, s.rowPts i, s.kvV⟩ v
      = .ok [q 0 i, q 1 i, q 2 i] := by
    intro i hi
    rw [single_point_bspline_sum hs.cv hs.dv (rowPts_shape hs hi) le_rfl hv.1 hv.2 rv]
    have : ∀ c, curve (knotFn s.kvV) s.degreeV s.numV (coord (s.rowPts i) c) v = q c i := fun c =>
      curve_congr (fun j hj => coord_rowPts s c i hj) v
    rw [this, this, this]
  refine ⟨Q, ?_, ?_⟩
  · rw [mapPy_ok_iff, List.forall₂_iff_get]
    refine ⟨by simp [hQ], fun i h1 h2 => ?_⟩
    have hi : i < s.numU := by simpa using h1
    simp only [hQ, List.get_eq_getElem, List.getElem_range, List.getElem_map]
    exact hrow i hi
  · have hsh : Shape Q s.numU 3 := by
      refine ⟨by simp [hQ], fun row hr => ?_⟩
      obtain ⟨i, -, rfl⟩ := List.mem_map.1 hr
      rfl
    rw [single_point_bspline_sum hs.cu hs.du hsh le_rfl hu.1 hu.2 ru,
      surface_point_tensor_sum hs hu hv ru rv]
    have : ∀ c < 3, curve (knotFn s.kvU) s.degreeU s.numU (coord Q c) u = s.value c u v := by
      intro c hc
      rw [value_eq_curve_u]
      refine curve_congr (fun i hi => ?_) u
      unfold coord
      have : Q.getD i [] = [q 0 i, q 1 i, q 2 i] := by
        rw [List.getD_eq_getElem?_getD, hQ, List.getElem?_map, List.getElem?_range hi]
        rfl
      rw [this]
      interval_cases c <;> rfl
    rw [this 0 (by omega), this 1 (by omega), this 2 (by omega)]

/-- **C94.** The same with the columns of the control net first. -/
theorem surface_point_by_columns {s : Surface K} (hs : ClampedSurface s) {u v : K}
    (hu : 0 ≤ u ∧ u ≤ 1) (hv : 0 ≤ v ∧ v ≤ 1) (ru : Regular s.degreeU s.numU s.kvU u)
    (rv : Regular s.degreeV s.numV s.kvV v) :
    ∃ Q, mapPy (fun j => Curve.singlePoint ⟨s.degreeU, s.columnPts j, s.kvU⟩ u) (List.range s.numV)
        = .ok Q ∧
      Curve.singlePoint ⟨s.degreeV, Q, s.kvV⟩ v = s.singlePoint u v := by
  set q : ℕ → ℕ → K := fun c j => curve (knotFn s.kvU) s.degreeU s.numU
    (fun i => coord s.ctrlpts c (i * s.numV + j)) u with hq
  set Q : List (List K) := (List.range s.numV).map fun i => [q 0 i, q 1 i, q 2 i] with hQ
  have hrow : ∀ j < s.numV, Curve.singlePoint ⟨s.degreeU, s.columnPts j, s.kvU⟩ u
      = .ok [q 0 j, q 1 j, q 2 j] := by
    intro j hj
    rw [single_point_bspline_sum hs.cu hs.du (columnPts_shape hs hj) le_rfl hu.1 hu.2 ru]
    have : ∀ c, curve (knotFn s.kvU) s.degreeU s.numU (coord (s.columnPts j) c) u = q c j := fun c =>
      curve_congr (fun i hi => coord_columnPts s c j hi) u
    rw [this, this, this]
  refine ⟨Q, ?_, ?_⟩
  · rw [mapPy_ok_iff, List.forall₂_iff_get]
    refine ⟨by simp [hQ], fun i h1 h2 => ?_⟩
    have hi : i < s.numV := by simpa using h1
    simp only [hQ, List.get_eq_getElem, List.getElem_range, List.getElem_map]
    exact hrow i hi
  · have hsh : Shape Q s.numV 3 := by
      refine ⟨by simp [hQ], fun row hr => ?_⟩
      obtain ⟨i, -, rfl⟩ := List.mem_map.1 hr
      rfl
    rw [single_point_bspline_sum hs.cv hs.dv hsh le_rfl hv.1 hv.2 rv,
      surface_point_tensor_sum hs hu hv ru rv]
    have : ∀ c < 3, curve (knotFn s.kvV) s.degreeV s.numV (coord Q c) v = s.value c u v := by
      intro c hc
      rw [value_eq_curve_v]
      refine curve_congr (fun i hi => ?_) v
      unfold coord
      have : Q.getD i [] = [q 0 i, q 1 i, q 2 i] := by
        rw [List.getD_eq_getElem?_getD, hQ, List.getElem?_map, List.getElem?_range hi]
        rfl
      rw [this]
      interval_cases c <;> rfl
    rw [this 0 (by omega), this 1 (by omega), this 2 (by omega)]

/-- **C95.** Surface evaluation commutes with affine maps of space. -/
theorem surface_point_affine {s : Surface K} (hs : ClampedSurface s) {u v : K}
    (hu : 0 ≤ u ∧ u ≤ 1) (hv : 0 ≤ v ∧ v ≤ 1) (ru : Regular s.degreeU s.numU s.kvU u)
    (rv : Regular s.degreeV s.numV s.kvV v) (A : ℕ → ℕ → K) (b : ℕ → K) :
    ∃ pt, s.singlePoint u v = .ok pt ∧
      ({ s with ctrlpts := s.ctrlpts.map (affineRow A b) } : Surface K).singlePoint u v
        = .ok (affineRow A b pt) := by
  refine ⟨_, surface_point_tensor_sum hs hu hv ru rv, ?_⟩
  have hs' : ClampedSurface ({ s with ctrlpts := s.ctrlpts.map (affineRow A b) } : Surface K) := by
    refine ⟨hs.cu, hs.cv, hs.du, hs.dv, by simpa using hs.shape.1, fun row hrow => ?_⟩
    obtain ⟨r, -, rfl⟩ := List.mem_map.1 hrow
    simp [affineRow]
  rw [surface_point_tensor_sum hs' hu hv ru rv]
  have key : ∀ c < 3, ({ s with ctrlpts := s.ctrlpts.map (affineRow A b) } : Surface K).value c u v
      = A c 0 * s.value 0 u v + A c 1 * s.value 1 u v + A c 2 * s.value 2 u v + b c := by
    intro c hc
    have one := surface_one hs ru rv
    have e : ∀ i < s.numU, ∀ j < s.numV, coord (s.ctrlpts.map (affineRow A b)) c (i * s.numV + j)
        = A c 0 * coord s.ctrlpts 0 (i * s.numV + j) + A c 1 * coord s.ctrlpts 1 (i * s.numV + j)
          + A c 2 * coord s.ctrlpts 2 (i * s.numV + j) + b c * 1 := by
      intro i hi j hj
      have hl : i * s.numV + j < s.ctrlpts.length := by rw [hs.shape.1]; exact index_lt hi hj
      unfold coord affineRow
      simp [List.getD_eq_getElem?_getD, List.getElem?_eq_getElem hl, hc]
    conv_rhs => rw [show b c = b c * 1 by ring, ← one]
    unfold Surface.value surface
    simp only [Finset.mul_sum, ← Finset.sum_add_distrib]
    refine Finset.sum_congr rfl fun i hi => Finset.sum_congr rfl fun j hj => ?_
    rw [e i (Finset.mem_range.1 hi) j (Finset.mem_range.1 hj)]
    ring
  rw [key 0 (by omega), key 1 (by omega), key 2 (by omega)]
  simp [affineRow, List.range_succ_eq_map]

/-- **C96.** Control point `(i, j)` of a surface acts only on `[U_i, U_{i+p+1}] × [V_j, V_{j+q+1}]`:
replacing it by any row of three numbers leaves every other point unchanged. -/
theorem surface_point_local {s : Surface K} (hs : ClampedSurface s) {u v : K}
    (hu : 0 ≤ u ∧ u ≤ 1) (hv : 0 ≤ v ∧ v ≤ 1) (ru : Regular s.degreeU s.numU s.kvU u)
    (rv : Regular s.degreeV s.numV s.kvV v) {i j : ℕ} (hj : j < s.numV)
    (hout : (u < knotFn s.kvU i ∨ knotFn s.kvU (i + s.degreeU + 1) < u) ∨
      (v < knotFn s.kvV j ∨ knotFn s.kvV (j + s.degreeV + 1) < v)) {row : List K}
    (hr : row.length = 3) :
    ({ s with ctrlpts := s.ctrlpts.set (i * s.numV + j) row } : Surface K).singlePoint u v
      = s.singlePoint u v := by
  have hs' : ClampedSurface ({ s with ctrlpts := s.ctrlpts.set (i * s.numV + j) row } : Surface K) := by
    refine ⟨hs.cu, hs.cv, hs.du, hs.dv, by simpa using hs.shape.1, fun r h => ?_⟩
    rcases List.mem_or_eq_of_mem_set h with h | rfl
    · exact hs.shape.2 r h
    · exact hr
  rw [surface_point_tensor_sum hs' hu hv ru rv, surface_point_tensor_sum hs hu hv ru rv]
  have key : ∀ c, ({ s with ctrlpts := s.ctrlpts.set (i * s.numV + j) row } : Surface K).value c u v
      = s.value c u v := by
    intro c
    unfold Surface.value surface
    refine Finset.sum_congr rfl fun i' hi' => Finset.sum_congr rfl fun j' hj' => ?_
    by_cases he : i' = i ∧ j' = j
    · obtain ⟨rfl, rfl⟩ := he
      have z : Nclosed (knotFn s.kvU) s.degreeU s.numU i' u = 0 ∨
          Nclosed (knotFn s.kvV) s.degreeV s.numV j' v = 0 := by
        rcases hout with h | h
        · left
          by_contra hc
          have := Nclosed_support (monotone_knotFn hs.cu.mono) hc
          rcases h with h | h
          · exact absurd this.1 (not_le.2 h)
          · exact absurd this.2 (not_le.2 h)
        · right
          by_contra hc
          have := Nclosed_support (monotone_knotFn hs.cv.mono) hc
          rcases h with h | h
          · exact absurd this.1 (not_le.2 h)
          · exact absurd this.2 (not_le.2 h)
      rcases z with z | z <;> rw [z] <;> ring
    · have hne : i * s.numV + j ≠ i' * s.numV + j' := fun e => he (by
        have h1 := Finset.mem_range.1 hj'
        have := index_inj hj h1 e
        exact ⟨this.1.symm, this.2.symm⟩)
      unfold coord
      dsimp only
      simp only [List.getD_eq_getElem?_getD]
      rw [List.getElem?_set_ne hne]
  rw [key, key, key]

end

example : ∃ Q, mapPy (fun i => Curve.singlePoint ⟨exS.degreeV, exS.rowPts i, exS.kvV⟩ (1/2))
    (List.range 4) = .ok Q ∧ Curve.singlePoint ⟨2, Q, exS.kvU⟩ (1/4) = .ok [7/8, 1, 19/8] := by
  refine ⟨[[0, 1, 1], [1, 1, 3], [2, 1, 2], [3, 1, 1]], ?_, ?_⟩ <;> decide +kernel

/-- The last control point does not act at `(1/4, 1/2)`, the second of the second row does. -/
example : ({ exS with ctrlpts := exS.ctrlpts.set (3 * 3 + 2) [9, 9, 9] } : Surface ℚ).singlePoint (1/4) (1/2)
    = exS.singlePoint (1/4) (1/2) ∧
  ({ exS with ctrlpts := exS.ctrlpts.set (1 * 3 + 1) [9, 9, 9] } : Surface ℚ).singlePoint (1/4) (1/2)
    ≠ exS.singlePoint (1/4) (1/2) := by decide +kernel

end PySpline
