import Verif.Lemmas.Polygon
import Verif.Props.Curve
import Verif.Props.Insertion

/-!
# C146: lengths of curves and control polygons
-/

set_option linter.unusedSectionVars false

namespace PySpline

open Spec

variable {K : Type} [Field K] [LinearOrder K] [IsStrictOrderedRing K]

/-- **C146.** The polygon through the points that `points` returns for increasing parameters is not longer than the
control polygon, however fine it is; so the length of the curve is at most that of the control polygon. -/
theorem points_length_le {norm : List K → K} (hn : IsSeminorm norm) {p n : ℕ} {U : List K} {P : List (List K)}
    (hU : Clamped p n U) (hp : 1 ≤ p) (hP : Shape P n 3) {us : List K} (hus : us.Pairwise (· ≤ ·))
    (h01 : ∀ u ∈ us, 0 ≤ u ∧ u ≤ 1) (hr : ∀ u ∈ us, Regular p n U u) :
    ∃ pts, Curve.points ⟨p, P, U⟩ us = .ok pts ∧ pts.length = us.length ∧
      polygonLength norm pts ≤ polygonLength norm P := by
  have hsz := hU.size
  obtain ⟨m, rfl⟩ : ∃ m, n = m + 1 := ⟨n - 1, by omega⟩
  refine ⟨us.map fun u => [curve (knotFn U) p (m + 1) (coord P 0) u, curve (knotFn U) p (m + 1) (coord P 1) u,
    curve (knotFn U) p (m + 1) (coord P 2) u], ?_, by rw [List.length_map], ?_⟩
  · refine mapPy_eq_ok _ _ us fun u hu => ?_
    exact single_point_bspline_sum hU hp hP le_rfl (h01 u hu).1 (h01 u hu).2 (hr u hu)
  rw [polygonLength_eq hP.1 (x := fun y => coord P y) fun _ _ _ _ => rfl]
  rcases hM : us.length with _ | M
  · rw [List.length_eq_zero_iff] at hM
    subst hM
    unfold polygonLength
    simp only [List.map_nil, List.length_nil, Nat.zero_sub, Finset.range_zero, Finset.sum_empty]
    exact Finset.sum_nonneg fun i _ => hn.nonneg _ _ _
  · have hget : ∀ j, j ≤ M → us.getD j 0 ∈ us := fun j hj => by
      rw [List.getD_eq_getElem?_getD, List.getElem?_eq_getElem (by omega)]
      exact List.getElem_mem _
    rw [polygonLength_eq (n := M) (by rw [List.length_map]; exact hM)
      (x := fun y j => curve (knotFn U) p (m + 1) (coord P y) (us.getD j 0))]
    · refine curve_polygon hn hU hp (fun y => coord P y) M (fun j => us.getD j 0) (fun j hj => ?_) fun j hj =>
        ⟨(hr _ (hget j hj)).lo, (hr _ (hget j hj)).hi⟩
      rw [List.getD_eq_getElem?_getD, List.getD_eq_getElem?_getD, List.getElem?_eq_getElem (show j < us.length by omega),
        List.getElem?_eq_getElem (show j + 1 < us.length by omega)]
      exact List.pairwise_iff_getElem.1 hus j (j + 1) _ _ (Nat.lt_succ_self j)
    · intro y hy j hj
      rw [List.getD_eq_getElem?_getD (l := us), List.getElem?_eq_getElem (show j < us.length by omega)]
      unfold coord
      rw [List.getD_eq_getElem?_getD (l := List.map _ us), List.getElem?_map,
        List.getElem?_eq_getElem (show j < us.length by omega)]
      interval_cases y <;> rfl

/-- **C146.** In particular any two points of the curve are at most the length of the control polygon apart. -/
theorem points_distance_le {norm : List K → K} (hn : IsSeminorm norm) {p n : ℕ} {U : List K} {P : List (List K)}
    (hU : Clamped p n U) (hp : 1 ≤ p) (hP : Shape P n 3) {s t : K} (hst : s ≤ t) (h0 : 0 ≤ s) (h1 : t ≤ 1)
    (hs : Regular p n U s) (ht : Regular p n U t) :
    ∃ x y z x' y' z', Curve.singlePoint ⟨p, P, U⟩ s = .ok [x, y, z] ∧ Curve.singlePoint ⟨p, P, U⟩ t = .ok [x', y', z'] ∧
      norm [x' - x, y' - y, z' - z] ≤ polygonLength norm P := by
  obtain ⟨pts, h, -, hl⟩ := points_length_le hn hU hp hP (us := [s, t]) (by simp [hst])
    (by simp [h0, h1, h0.trans hst, hst.trans h1]) (by simp [hs, ht])
  have e1 := single_point_bspline_sum hU hp hP le_rfl h0 (hst.trans h1) hs
  have e2 := single_point_bspline_sum hU hp hP le_rfl (h0.trans hst) h1 ht
  refine ⟨_, _, _, _, _, _, e1, e2, ?_⟩
  unfold Curve.points mapPy mapPy mapPy at h
  rw [e1, ok_bind, e2] at h
  obtain rfl := Except.ok.inj h
  generalize polygonLength norm P = L at hl ⊢
  unfold polygonLength at hl
  simpa [coord] using hl

/-- **C146.** Inserting a knot does not lengthen the control polygon. -/
theorem knot_insertion_polygon_length {norm : List K → K} (hn : IsSeminorm norm) {U : List K} {P : List (List K)}
    {k r n p : ℕ} {u : K} (hU : KnotVector p n U) (hP : Shape P n 3) (hpk : p ≤ k) (hk : k < n)
    (hfs : findSpan n p u U = .ok (k : ℤ)) (h1 : knotFn U k ≤ u) (h2 : u < knotFn U (k + 1)) (hnm : NoNearMiss u U)
    (hr : r + U.count u ≤ p) :
    ∃ U' P', curveKnotInsertion p U P u r = .ok (U', P') ∧ polygonLength norm P' ≤ polygonLength norm P := by
  obtain ⟨hrun, ⟨U', P'⟩, hret, hl', hfn, shP, vP⟩ := insertion_setup hU hP hpk hk hfs h1 h2 hnm hr
  refine ⟨U', P', hret, ?_⟩
  dsimp only at shP vP
  obtain ⟨m, rfl⟩ : ∃ m, n = m + 1 := ⟨n - 1, by omega⟩
  have hV := monotone_knotFn hU.mono
  rw [polygonLength_eq hP.1 (x := fun y => coord P y) fun _ _ _ _ => rfl,
    polygonLength_eq (n := m + r) (by rw [shP.1]; omega)
      (x := fun y => boehmIter (knotFn U) p k u (coord P y) r) fun y hy i hi => vP i (by omega) y hy]
  clear hret hl' hfn shP vP hr hfs
  induction r with
  | zero => exact le_rfl
  | succ r ih =>
    refine le_trans ?_ ih
    refine boehm_polygon hn (V := insKnots (knotFn U) k u r) (k := k + r) (n := m + r)
      (fun i => boehmA_bounds (insKnots_mono hV h1 h2.le r) ?_ ?_ i) (by omega) (by omega) _
    · unfold insKnots
      by_cases h : r = 0
      · subst h; rw [if_pos (by omega)]; exact h1
      · rw [if_neg (by omega), if_pos (by omega)]
    · unfold insKnots
      rw [if_neg (by omega), if_neg (by omega), show k + r + 1 - r = k + 1 by omega]
      exact h2

/-! ## Examples -/

/-- Five points on the example curve; lengths are measured with the sum of the absolute values of the coordinates. -/
example : ∃ pts, Curve.points ⟨2, exP, exU⟩ [0, 1/5, 2/5, 3/5, 1] = .ok pts ∧ pts.length = 5 ∧
    polygonLength (fun l : List ℚ => (l.map fun x => |x|).sum) pts
      ≤ polygonLength (fun l : List ℚ => (l.map fun x => |x|).sum) exP :=
  points_length_le isSeminorm_sum exU_clamped (by decide) exP_shape (by decide +kernel) (by decide +kernel)
    (by
      intro u hu
      have h : ∀ u ∈ ([0, 1/5, 2/5, 3/5, 1] : List ℚ), ∀ i, 2 ≤ i → i < 6 → u = knotFn exU i → knotFn exU i < knotFn exU (i + 1) := by
        decide +kernel
      exact ⟨by revert u; decide +kernel, by revert u; decide +kernel, h u hu, by revert u; decide +kernel⟩)

/-- The Euclidean length of curves with real coordinates. -/
example {p n : ℕ} {U : List ℝ} {P : List (List ℝ)} (hU : Clamped p n U) (hp : 1 ≤ p) (hP : Shape P n 3) {us : List ℝ}
    (hus : us.Pairwise (· ≤ ·)) (h01 : ∀ u ∈ us, 0 ≤ u ∧ u ≤ 1) (hr : ∀ u ∈ us, Regular p n U u) :
    ∃ pts, Curve.points ⟨p, P, U⟩ us = .ok pts ∧ pts.length = us.length ∧
      polygonLength euclid pts ≤ polygonLength euclid P :=
  points_length_le isSeminorm_euclid hU hp hP hus h01 hr

example : ∃ U' P', curveKnotInsertion 2 exU exP (3/10) 2 = .ok (U', P') ∧
    polygonLength (fun l : List ℚ => (l.map fun x => |x|).sum) P'
      ≤ polygonLength (fun l : List ℚ => (l.map fun x => |x|).sum) exP :=
  knot_insertion_polygon_length isSeminorm_sum (k := 3) exU_knotVector exP_shape (by decide) (by decide)
    (by decide +kernel) (by decide +kernel) (by decide +kernel) (by unfold NoNearMiss; decide +kernel) (by decide +kernel)

/-- **C146.** Insertions outside these conditions do lengthen the polygon: at the last knot (C14), and up to the full
multiplicity `degree + 1` (C130). -/
theorem knot_insertion_polygon_length_witness :
    polygonLength (fun l : List ℚ => (l.map fun x => |x|).sum) exP = 21 ∧
    (curveKnotInsertion 2 exU exP 1 1).map (fun x => polygonLength (fun l : List ℚ => (l.map fun x => |x|).sum) x.2)
      = .ok 27 ∧
    (curveKnotInsertion 2 exU exP (3/10) 3).map
      (fun x => polygonLength (fun l : List ℚ => (l.map fun x => |x|).sum) x.2) = .ok (124/5) := by
  decide +kernel

end PySpline
