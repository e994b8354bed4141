import Verif.Lemmas.SurfaceAux
import Verif.Lemmas.Surface
import Verif.Props.Curve

/-!
# C34–C37: surface evaluation
-/

set_option linter.unusedSectionVars false

namespace PySpline

open Spec Polynomial

variable {K : Type} [Field K] [LinearOrder K] [IsStrictOrderedRing K]

/-- A surface with clamped knot vectors of degree at least one and arrays of the declared sizes. -/
structure ClampedSurface (s : Surface K) : Prop where
  cu : Clamped s.degreeU s.numU s.kvU
  cv : Clamped s.degreeV s.numV s.kvV
  du : 1 ≤ s.degreeU
  dv : 1 ≤ s.degreeV
  shape : Shape s.ctrlpts (s.numU * s.numV) 3

theorem ClampedSurface.ok {s : Surface K} (h : ClampedSurface s) : SurfaceOk s :=
  ⟨h.cu.toKnotVector, h.cv.toKnotVector, h.shape⟩

/-- The tensor-product function of coordinate `c` of the control points. -/
abbrev Surface.value (s : Surface K) (c : ℕ) (u v : K) : K :=
  surface (knotFn s.kvU) s.degreeU s.numU (knotFn s.kvV) s.degreeV s.numV (coord s.ctrlpts c) u v

/-- **C34.** `single_point(u, v)` is the tensor-product sum
`∑_i ∑_j P[i * num_v + j] N_i(u) M_j(v)`. -/
theorem surface_point_tensor_sum {s : Surface K} (hs : ClampedSurface s) {u v : K}
    (hu : 0 ≤ u ∧ u ≤ 1) (hv : 0 ≤ v ∧ v ≤ 1) (ru : Regular s.degreeU s.numU s.kvU u)
    (rv : Regular s.degreeV s.numV s.kvV v) :
    s.singlePoint u v = .ok [s.value 0 u v, s.value 1 u v, s.value 2 u v] := by
  obtain ⟨m, hm, hm1, hm2, hm3, hm4, hm5⟩ := findSpan_regular hs.cu.toKnotVector ru
  obtain ⟨k, hk, hk1, hk2, hk3, hk4, hk5⟩ := findSpan_regular hs.cv.toKnotVector rv
  rw [surfacePoint_of_span hs.ok hu hv hm hm1 hm2 hm5 hk hk1 hk2 hk5]
  have z : ∀ (V : ℕ → K) (k p i : ℕ) (x : K), i + p < k ∨ k < i → (piece V k p i).eval x = 0 := by
    rintro V k p i x (h | h)
    · rw [piece_eq_zero_of_gt _ _ _ _ h, eval_zero]
    · rw [piece_eq_zero_of_lt _ _ _ _ h, eval_zero]
  have key : ∀ c, ∑ i ∈ Finset.range (s.degreeU + 1), ∑ j ∈ Finset.range (s.degreeV + 1),
        (piece (knotFn s.kvU) m s.degreeU (m - s.degreeU + i)).eval u
          * coord s.ctrlpts c ((m - s.degreeU + i) * s.numV + (k - s.degreeV + j))
          * (piece (knotFn s.kvV) k s.degreeV (k - s.degreeV + j)).eval v = s.value c u v := by
    intro c
    rw [sum_active2 hm1 hm2 hk1 hk2 (fun i j => coord s.ctrlpts c (i * s.numV + j))
      (fun i => (piece (knotFn s.kvU) m s.degreeU i).eval u)
      (fun j => (piece (knotFn s.kvV) k s.degreeV j).eval v) (fun i => z _ _ _ _ _)
      (fun i => z _ _ _ _ _)]
    unfold Surface.value surface
    refine Finset.sum_congr rfl fun i hi => Finset.sum_congr rfl fun j hj => ?_
    rw [piece_eq_Nclosed hs.cu hs.du ru hm2 hm1 hm3 hm4 hm5 i (Finset.mem_range.1 hi),
      piece_eq_Nclosed hs.cv hs.dv rv hk2 hk1 hk3 hk4 hk5 j (Finset.mem_range.1 hj)]
  simp only [List.range_succ_eq_map, List.range_zero, List.map_cons, List.map_nil, key]

/-- A surface point is a point of the curve whose control points are the curves in the other
direction: first combine in `v`, then in `u`. -/
theorem value_eq_curve_u (s : Surface K) (c : ℕ) (u v : K) :
    s.value c u v = curve (knotFn s.kvU) s.degreeU s.numU (fun i =>
      curve (knotFn s.kvV) s.degreeV s.numV (fun j => coord s.ctrlpts c (i * s.numV + j)) v) u := by
  unfold Surface.value surface curve
  refine Finset.sum_congr rfl fun i _ => ?_
  rw [Finset.sum_mul]
  exact Finset.sum_congr rfl fun j _ => by ring

theorem value_eq_curve_v (s : Surface K) (c : ℕ) (u v : K) :
    s.value c u v = curve (knotFn s.kvV) s.degreeV s.numV (fun j =>
      curve (knotFn s.kvU) s.degreeU s.numU (fun i => coord s.ctrlpts c (i * s.numV + j)) u) v := by
  unfold Surface.value surface curve
  rw [Finset.sum_comm]
  refine Finset.sum_congr rfl fun j _ => ?_
  rw [Finset.sum_mul]

/-- Control points `(i, j)`, `i = 0, 1, …`, of a fixed column `j` of the control grid. -/
def Surface.columnPts (s : Surface K) (j : ℕ) : List (List K) :=
  (List.range s.numU).map fun i => s.ctrlpts.getD (i * s.numV + j) []

/-- Control points `(i, j)`, `j = 0, 1, …`, of a fixed row `i` of the control grid. -/
def Surface.rowPts (s : Surface K) (i : ℕ) : List (List K) :=
  (List.range s.numV).map fun j => s.ctrlpts.getD (i * s.numV + j) []

theorem columnPts_shape {s : Surface K} (hs : ClampedSurface s) {j : ℕ} (hj : j < s.numV) :
    Shape (s.columnPts j) s.numU 3 := by
  refine ⟨by simp [Surface.columnPts], fun row hrow => ?_⟩
  obtain ⟨i, hi, rfl⟩ := List.mem_map.1 hrow
  exact hs.shape.row (index_lt (List.mem_range.1 hi) hj)

theorem rowPts_shape {s : Surface K} (hs : ClampedSurface s) {i : ℕ} (hi : i < s.numU) :
    Shape (s.rowPts i) s.numV 3 := by
  refine ⟨by simp [Surface.rowPts], fun row hrow => ?_⟩
  obtain ⟨j, hj, rfl⟩ := List.mem_map.1 hrow
  exact hs.shape.row (index_lt hi (List.mem_range.1 hj))

theorem coord_columnPts (s : Surface K) (c j : ℕ) {i : ℕ} (hi : i < s.numU) :
    coord (s.columnPts j) c i = coord s.ctrlpts c (i * s.numV + j) := by
  unfold coord Surface.columnPts
  simp [List.getD_eq_getElem?_getD, hi]

theorem coord_rowPts (s : Surface K) (c i : ℕ) {j : ℕ} (hj : j < s.numV) :
    coord (s.rowPts i) c j = coord s.ctrlpts c (i * s.numV + j) := by
  unfold coord Surface.rowPts
  simp [List.getD_eq_getElem?_getD, hj]

/-- A clamped knot vector on `[0, 1]` whose first and last spans are not empty. -/
structure UnitKnots (p n : ℕ) (U : List K) : Prop extends Clamped p n U where
  zero : knotFn U 0 = 0
  one : knotFn U (n + p) = 1
  first : knotFn U p < knotFn U (p + 1)
  last : knotFn U (n - 1) < knotFn U n

/-- **C35**, edges `v = 0` and `v = 1`: the surface is the curve of the first / last column. -/
theorem surface_edge_v {s : Surface K} (hs : ClampedSurface s)
    (kv : UnitKnots s.degreeV s.numV s.kvV) {u : K} (hu : 0 ≤ u ∧ u ≤ 1)
    (ru : Regular s.degreeU s.numU s.kvU u) :
    s.singlePoint u 0 = Curve.singlePoint ⟨s.degreeU, s.columnPts 0, s.kvU⟩ u ∧
    s.singlePoint u 1 = Curve.singlePoint ⟨s.degreeU, s.columnPts (s.numV - 1), s.kvU⟩ u := by
  have hsz := hs.cv.size
  constructor
  · rw [surface_point_tensor_sum hs hu ⟨le_rfl, zero_le_one⟩ ru
      (regular_zero hs.cv kv.zero kv.one kv.first),
      single_point_bspline_sum hs.cu hs.du (columnPts_shape hs (by omega)) le_rfl hu.1 hu.2 ru]
    have e : ∀ c, s.value c u 0 = curve (knotFn s.kvU) s.degreeU s.numU (coord (s.columnPts 0) c) u := by
      intro c
      rw [value_eq_curve_u]
      refine curve_congr (fun i hi => ?_) u
      have := curve_first hs.cv kv.first (fun j => coord s.ctrlpts c (i * s.numV + j))
      rw [kv.zero] at this
      rw [this, coord_columnPts s c 0 hi]
    rw [e, e, e]
  · rw [surface_point_tensor_sum hs hu ⟨zero_le_one, le_rfl⟩ ru (regular_one hs.cv kv.one kv.last),
      single_point_bspline_sum hs.cu hs.du (columnPts_shape hs (by omega)) le_rfl hu.1 hu.2 ru]
    have e : ∀ c, s.value c u 1
        = curve (knotFn s.kvU) s.degreeU s.numU (coord (s.columnPts (s.numV - 1)) c) u := by
      intro c
      rw [value_eq_curve_u]
      refine curve_congr (fun i hi => ?_) u
      have := curve_last hs.cv (fun j => coord s.ctrlpts c (i * s.numV + j))
      rw [kv.one] at this
      rw [this, coord_columnPts s c _ hi]
    rw [e, e, e]

/-- **C35**, edges `u = 0` and `u = 1`: the surface is the curve of the first / last row. -/
theorem surface_edge_u {s : Surface K} (hs : ClampedSurface s)
    (ku : UnitKnots s.degreeU s.numU s.kvU) {v : K} (hv : 0 ≤ v ∧ v ≤ 1)
    (rv : Regular s.degreeV s.numV s.kvV v) :
    s.singlePoint 0 v = Curve.singlePoint ⟨s.degreeV, s.rowPts 0, s.kvV⟩ v ∧
    s.singlePoint 1 v = Curve.singlePoint ⟨s.degreeV, s.rowPts (s.numU - 1), s.kvV⟩ v := by
  have hsz := hs.cu.size
  constructor
  · rw [surface_point_tensor_sum hs ⟨le_rfl, zero_le_one⟩ hv
      (regular_zero hs.cu ku.zero ku.one ku.first) rv,
      single_point_bspline_sum hs.cv hs.dv (rowPts_shape hs (by omega)) le_rfl hv.1 hv.2 rv]
    have e : ∀ c, s.value c 0 v = curve (knotFn s.kvV) s.degreeV s.numV (coord (s.rowPts 0) c) v := by
      intro c
      rw [value_eq_curve_v]
      refine curve_congr (fun j hj => ?_) v
      have := curve_first hs.cu ku.first (fun i => coord s.ctrlpts c (i * s.numV + j))
      rw [ku.zero] at this
      rw [this, coord_rowPts s c 0 hj]
    rw [e, e, e]
  · rw [surface_point_tensor_sum hs ⟨zero_le_one, le_rfl⟩ hv (regular_one hs.cu ku.one ku.last) rv,
      single_point_bspline_sum hs.cv hs.dv (rowPts_shape hs (by omega)) le_rfl hv.1 hv.2 rv]
    have e : ∀ c, s.value c 1 v
        = curve (knotFn s.kvV) s.degreeV s.numV (coord (s.rowPts (s.numU - 1)) c) v := by
      intro c
      rw [value_eq_curve_v]
      refine curve_congr (fun j hj => ?_) v
      have := curve_last hs.cu (fun i => coord s.ctrlpts c (i * s.numV + j))
      rw [ku.one] at this
      rw [this, coord_rowPts s c _ hj]
    rw [e, e, e]

theorem columnPts_getD (s : Surface K) (j : ℕ) {i : ℕ} (hi : i < s.numU) :
    (s.columnPts j).getD i [] = s.ctrlpts.getD (i * s.numV + j) [] := by
  unfold Surface.columnPts
  simp [List.getD_eq_getElem?_getD, hi]

/-- **C35**, corners: the four corners are the four corner control points of the grid. -/
theorem surface_corners {s : Surface K} (hs : ClampedSurface s)
    (ku : UnitKnots s.degreeU s.numU s.kvU) (kv : UnitKnots s.degreeV s.numV s.kvV) :
    s.singlePoint 0 0 = .ok (s.ctrlpts.getD 0 []) ∧
    s.singlePoint 0 1 = .ok (s.ctrlpts.getD (s.numV - 1) []) ∧
    s.singlePoint 1 0 = .ok (s.ctrlpts.getD ((s.numU - 1) * s.numV) []) ∧
    s.singlePoint 1 1 = .ok (s.ctrlpts.getD (s.numU * s.numV - 1) []) := by
  have hu := hs.cu.size
  have hv := hs.cv.size
  have r0 := regular_zero hs.cu ku.zero ku.one ku.first
  have r1 := regular_one hs.cu ku.one ku.last
  have i0 : (0 : K) ≤ 0 ∧ (0 : K) ≤ 1 := ⟨le_rfl, zero_le_one⟩
  have i1 : (0 : K) ≤ 1 ∧ (1 : K) ≤ 1 := ⟨zero_le_one, le_rfl⟩
  have f : ∀ j < s.numV, _ := fun j hj => single_point_first hs.cu hs.du (columnPts_shape hs hj)
    ku.zero ku.first ku.one.symm.le
  have l : ∀ j < s.numV, _ := fun j hj => single_point_last hs.cu hs.du (columnPts_shape hs hj)
    ku.one ku.last
  refine ⟨?_, ?_, ?_, ?_⟩
  · rw [(surface_edge_v hs kv i0 r0).1, f 0 (by omega), columnPts_getD s 0 (by omega)]
    simp
  · rw [(surface_edge_v hs kv i0 r0).2, f _ (by omega), columnPts_getD s _ (by omega)]
    simp
  · rw [(surface_edge_v hs kv i1 r1).1, l 0 (by omega), columnPts_getD s 0 (by omega)]
    simp
  · rw [(surface_edge_v hs kv i1 r1).2, l _ (by omega), columnPts_getD s _ (by omega)]
    have : (s.numU - 1) * s.numV + (s.numV - 1) = s.numU * s.numV - 1 := by
      obtain ⟨t, ht⟩ : ∃ t, s.numU = t + 1 := ⟨s.numU - 1, by omega⟩
      rw [ht, Nat.add_sub_cancel, Nat.succ_mul]
      omega
    rw [this]

/-- **C36.** `derivatives` at a regular parameter pair works on one patch of spans containing the
parameters; row `a * (max_order_v + 1) + b` is the mixed partial derivative of order `(a, b)` of
the polynomial of that patch, scaled to unit length when `normalize` is set, the row is not row 0
and its norm is not within `1e-8` of zero. -/
theorem surface_derivatives_layout (norm : List K → K) {s : Surface K} (hs : SurfaceOk s) {u v : K}
    (hu : 0 ≤ u ∧ u ≤ 1) (hv : 0 ≤ v ∧ v ≤ 1) (ru : Regular s.degreeU s.numU s.kvU u)
    (rv : Regular s.degreeV s.numV s.kvV v) (orderU orderV : ℕ) :
    ∃ m k, knotFn s.kvU m ≤ u ∧ u ≤ knotFn s.kvU (m + 1) ∧
      knotFn s.kvV k ≤ v ∧ v ≤ knotFn s.kvV (k + 1) ∧
      knotFn s.kvU m < knotFn s.kvU (m + 1) ∧ knotFn s.kvV k < knotFn s.kvV (k + 1) ∧
      ∀ normalize, ∃ rows, s.derivatives norm u v orderU orderV normalize = .ok rows ∧
        rows.length = (min orderU s.degreeU + 1) * (min orderV s.degreeV + 1) ∧
        ∀ a ≤ min orderU s.degreeU, ∀ b ≤ min orderV s.degreeV,
          rows.getD (a * (min orderV s.degreeV + 1) + b) [] =
            scaledRow norm normalize (a == 0 && b == 0) ((List.range 3).map fun c =>
              patchDeriv (knotFn s.kvU) m s.degreeU s.numU (knotFn s.kvV) k s.degreeV s.numV
                (coord s.ctrlpts c) a b u v) := by
  obtain ⟨m, hm, hm1, hm2, hm3, hm4, hm5⟩ := findSpan_regular hs.ku ru
  obtain ⟨k, hk, hk1, hk2, hk3, hk4, hk5⟩ := findSpan_regular hs.kv rv
  refine ⟨m, k, hm3, hm4, hk3, hk4, hm5, hk5, fun normalize => ⟨_,
    surfaceDerivatives_of_span norm hs hu hv hm hm1 hm2 hm5 hk hk1 hk2 hk5 orderU orderV normalize,
    by simp, fun a ha b hb => ?_⟩⟩
  have hlt := index_lt (n := min orderU s.degreeU + 1) (m := min orderV s.degreeV + 1)
    (Nat.lt_succ_of_le ha) (Nat.lt_succ_of_le hb)
  have hdiv : (a * (min orderV s.degreeV + 1) + b) / (min orderV s.degreeV + 1) = a := by
    rw [Nat.mul_comm, Nat.mul_add_div (by omega), Nat.div_eq_of_lt (by omega), Nat.add_zero]
  have hmod : (a * (min orderV s.degreeV + 1) + b) % (min orderV s.degreeV + 1) = b := by
    rw [Nat.mul_comm, Nat.mul_add_mod, Nat.mod_eq_of_lt (by omega)]
  rw [List.getD_eq_getElem?_getD, List.getElem?_map, List.getElem?_range hlt]
  simp only [Option.map_some, Option.getD_some]
  rw [hdiv, hmod]
  have hb0 : (a * (min orderV s.degreeV + 1) + b == 0) = (a == 0 && b == 0) := by
    rcases Nat.eq_zero_or_pos a with h | h
    · simp [h]
    · have : a * (min orderV s.degreeV + 1) ≠ 0 := Nat.mul_ne_zero (by omega) (by omega)
      have h1 : (a * (min orderV s.degreeV + 1) + b == 0) = false := by simp; omega
      have h2 : (a == 0) = false := by simp; omega
      rw [h1, h2]; rfl
  rw [hb0]
  congr 1
  refine List.map_congr_left fun c _ => ?_
  have z : ∀ (V : ℕ → K) (k p i t : ℕ) (x : K), i + p < k ∨ k < i →
      (deriv t (piece V k p i)).eval x = 0 := by
    rintro V k p i t x (h | h)
    · rw [piece_eq_zero_of_gt _ _ _ _ h, deriv_zero', eval_zero]
    · rw [piece_eq_zero_of_lt _ _ _ _ h, deriv_zero', eval_zero]
  exact sum_active2 hm1 hm2 hk1 hk2 (fun i j => coord s.ctrlpts c (i * s.numV + j))
      (fun i => (deriv a (piece (knotFn s.kvU) m s.degreeU i)).eval u)
      (fun j => (deriv b (piece (knotFn s.kvV) k s.degreeV j)).eval v) (fun i => z _ _ _ _ _ _)
      (fun i => z _ _ _ _ _ _)

/-- **C36**, row 0: the first row is `single_point`, whatever `normalize` is. -/
theorem surface_derivatives_row_zero (norm : List K → K) {s : Surface K} (hs : SurfaceOk s)
    {u v : K} (hu : 0 ≤ u ∧ u ≤ 1) (hv : 0 ≤ v ∧ v ≤ 1) (ru : Regular s.degreeU s.numU s.kvU u)
    (rv : Regular s.degreeV s.numV s.kvV v) (orderU orderV : ℕ) (normalize : Bool) :
    ∃ rows, s.derivatives norm u v orderU orderV normalize = .ok rows ∧
      s.singlePoint u v = .ok (rows.getD 0 []) := by
  obtain ⟨m, hm, hm1, hm2, hm3, hm4, hm5⟩ := findSpan_regular hs.ku ru
  obtain ⟨k, hk, hk1, hk2, hk3, hk4, hk5⟩ := findSpan_regular hs.kv rv
  refine ⟨_,
    surfaceDerivatives_of_span norm hs hu hv hm hm1 hm2 hm5 hk hk1 hk2 hk5 orderU orderV normalize,
    ?_⟩
  rw [surfacePoint_of_span hs hu hv hm hm1 hm2 hm5 hk hk1 hk2 hk5]
  have hlt := index_lt (n := min orderU s.degreeU + 1) (m := min orderV s.degreeV + 1)
    (i := 0) (j := 0) (by omega) (by omega)
  rw [List.getD_eq_getElem?_getD, List.getElem?_map, List.getElem?_range (by simp)]
  simp [scaledRow, deriv]

/-- With `normalize` and a norm that is absolutely homogeneous, every row except row 0 has norm
one or is a derivative of norm at most `1e-8`, returned as it is. -/
theorem surface_derivatives_unit_rows (norm : List K → K)
    (hom : ∀ (l : List K) (c : K), norm (l.map (· / c)) = norm l / |c|) (hpos : ∀ l, 0 ≤ norm l)
    {s : Surface K} {u v : K} {orderU orderV : ℕ} {rows : List (List K)} (hs : SurfaceOk s)
    (hu : 0 ≤ u ∧ u ≤ 1) (hv : 0 ≤ v ∧ v ≤ 1) (ru : Regular s.degreeU s.numU s.kvU u)
    (rv : Regular s.degreeV s.numV s.kvV v)
    (h : s.derivatives norm u v orderU orderV true = .ok rows) {t : ℕ} (ht0 : 0 < t)
    (ht : t < rows.length) :
    norm (rows.getD t []) = 1 ∨ norm (rows.getD t []) ≤ 1 / 10 ^ 8 := by
  obtain ⟨m, hm, hm1, hm2, hm3, hm4, hm5⟩ := findSpan_regular hs.ku ru
  obtain ⟨k, hk, hk1, hk2, hk3, hk4, hk5⟩ := findSpan_regular hs.kv rv
  rw [surfaceDerivatives_of_span norm hs hu hv hm hm1 hm2 hm5 hk hk1 hk2 hk5] at h
  have h' := Except.ok.inj h
  have ht' := ht
  rw [← h'] at ht' ⊢
  rw [List.length_map, List.length_range] at ht'
  rw [List.getD_eq_getElem?_getD, List.getElem?_map, List.getElem?_range ht']
  simp only [Option.map_some, Option.getD_some]
  generalize (List.range 3).map _ = val
  unfold scaledRow
  by_cases hc : 1 / 10 ^ 8 < |norm val|
  · left
    rw [if_pos ⟨rfl, by simp; omega, hc⟩, hom, abs_of_nonneg (hpos val)]
    refine div_self fun h0 => ?_
    rw [h0, abs_zero] at hc
    exact absurd hc (not_lt.2 (by positivity))
  · right
    rw [if_neg fun hh => hc hh.2.2]
    rw [abs_of_nonneg (hpos val)] at hc
    exact not_lt.1 hc

/-- **C37.** The point is in every half-space that contains the control points. -/
theorem surface_point_half_space {s : Surface K} (hs : ClampedSurface s) {u v : K}
    (hu : 0 ≤ u ∧ u ≤ 1) (hv : 0 ≤ v ∧ v ≤ 1) (ru : Regular s.degreeU s.numU s.kvU u)
    (rv : Regular s.degreeV s.numV s.kvV v) (α β γ b : K)
    (hb : ∀ t < s.numU * s.numV,
      α * coord s.ctrlpts 0 t + β * coord s.ctrlpts 1 t + γ * coord s.ctrlpts 2 t ≤ b) :
    ∃ x y z, s.singlePoint u v = .ok [x, y, z] ∧ α * x + β * y + γ * z ≤ b := by
  refine ⟨_, _, _, surface_point_tensor_sum hs hu hv ru rv, ?_⟩
  have nu : knotFn s.kvU s.numU = knotFn s.kvU (s.numU + s.degreeU) :=
    hs.cu.right _ le_rfl (by omega)
  have nv : knotFn s.kvV s.numV = knotFn s.kvV (s.numV + s.degreeV) :=
    hs.cv.right _ le_rfl (by omega)
  have lin : ∀ x y : K, ∀ c e : ℕ → K, surface (knotFn s.kvU) s.degreeU s.numU (knotFn s.kvV)
        s.degreeV s.numV (fun i => x * c i + y * e i) u v
      = x * surface (knotFn s.kvU) s.degreeU s.numU (knotFn s.kvV) s.degreeV s.numV c u v
        + y * surface (knotFn s.kvU) s.degreeU s.numU (knotFn s.kvV) s.degreeV s.numV e u v := by
    intro x y c e
    unfold surface
    simp only [Finset.mul_sum, ← Finset.sum_add_distrib]
    exact Finset.sum_congr rfl fun i _ => Finset.sum_congr rfl fun j _ => by ring
  have key : surface (knotFn s.kvU) s.degreeU s.numU (knotFn s.kvV) s.degreeV s.numV
      (fun t => 1 * (α * coord s.ctrlpts 0 t + β * coord s.ctrlpts 1 t) + γ * coord s.ctrlpts 2 t)
      u v ≤ b := by
    have e : ∀ c : ℕ → K, surface (knotFn s.kvU) s.degreeU s.numU (knotFn s.kvV) s.degreeV s.numV c
        u v = curve (knotFn s.kvU) s.degreeU s.numU (fun i =>
          curve (knotFn s.kvV) s.degreeV s.numV (fun j => c (i * s.numV + j)) v) u := by
      intro c
      unfold surface curve
      refine Finset.sum_congr rfl fun i _ => ?_
      rw [Finset.sum_mul]
      exact Finset.sum_congr rfl fun j _ => by ring
    rw [e]
    refine curve_le hs.cu ru.lo (nu ▸ ru.hi) fun i hi _ _ => ?_
    refine curve_le hs.cv rv.lo (nv ▸ rv.hi) fun j hj _ _ => ?_
    rw [one_mul]
    exact hb _ (index_lt hi hj)
  rwa [lin, lin, one_mul] at key

/-- **C30** for surfaces. -/
theorem surface_point_rejects (s : Surface K) {u v : K}
    (h : ¬ ((0 ≤ u ∧ u ≤ 1) ∧ 0 ≤ v ∧ v ≤ 1)) : s.singlePoint u v = .error .valueError := by
  unfold Surface.singlePoint
  by_cases h1 : validateKnot u = false
  · rw [if_pos h1]
  · rw [if_neg h1]
    rw [if_pos]
    by_contra h2
    exact h ⟨(validateKnot_iff u).1 (by simpa using h1), (validateKnot_iff v).1 (by simpa using h2)⟩

/-- **C30**, converse on well-formed surfaces: on clamped `[0,1]` knot vectors with distinct interior knots
`single_point` raises exactly outside the unit square. -/
theorem surface_point_raises_iff {s : Surface K} (hs : ClampedSurface s)
    (hdu : DistinctInterior s.degreeU s.numU s.kvU) (hdv : DistinctInterior s.degreeV s.numV s.kvV)
    (ku : knotFn s.kvU 0 = 0 ∧ knotFn s.kvU (s.numU + s.degreeU) = 1)
    (kv : knotFn s.kvV 0 = 0 ∧ knotFn s.kvV (s.numV + s.degreeV) = 1) (u v : K) :
    (∃ pt, s.singlePoint u v = .ok pt) ↔ (0 ≤ u ∧ u ≤ 1) ∧ 0 ≤ v ∧ v ≤ 1 := by
  refine ⟨?_, ?_⟩
  · rintro ⟨pt, h⟩
    by_contra hc
    rw [surface_point_rejects _ hc] at h
    cases h
  · rintro ⟨hu, hv⟩
    obtain ⟨m, hm, hm1, hm2, hm3⟩ := find_span_positive_span_distinct hs.cu.toKnotVector hdu
      (u := u) (by rw [hs.cu.left _ le_rfl, ku.1]; exact hu.1)
      (by rw [hs.cu.right _ le_rfl (by omega), ku.2]; exact hu.2)
    obtain ⟨k, hk, hk1, hk2, hk3⟩ := find_span_positive_span_distinct hs.cv.toKnotVector hdv
      (u := v) (by rw [hs.cv.left _ le_rfl, kv.1]; exact hv.1)
      (by rw [hs.cv.right _ le_rfl (by omega), kv.2]; exact hv.2)
    exact ⟨_, surfacePoint_of_span hs.ok hu hv hm hm1 hm2 hm3 hk hk1 hk2 hk3⟩

/-- **C31** for surfaces: one row per parameter pair, in order. -/
theorem surface_points_elementwise (s : Surface K) (uvs : List (K × K)) (ys : List (List K)) :
    s.points (uvs.map fun q => [q.1, q.2]) = .ok ys ↔
      ys.length = uvs.length ∧ ∀ i (h : i < uvs.length) (h' : i < ys.length),
        s.singlePoint uvs[i].1 uvs[i].2 = .ok ys[i] := by
  unfold Surface.points
  rw [mapPy_ok_iff, List.forall₂_iff_get]
  constructor
  · rintro ⟨h1, h2⟩
    refine ⟨by simpa using h1.symm, fun i a b => ?_⟩
    have := h2 i (by simpa using a) b
    simpa [pyGet, pyIdx] using this
  · rintro ⟨h1, h2⟩
    refine ⟨by simpa using h1.symm, fun i a b => ?_⟩
    have := h2 i (by simpa using a) b
    simpa [pyGet, pyIdx] using this

/-! ## Concrete cases -/

/-- Degree 2 × 1, 4 × 3 control points. -/
def exS : Surface ℚ where
  degreeU := 2
  degreeV := 1
  numU := 4
  numV := 3
  ctrlpts := [[0, 0, 0], [0, 1, 1], [0, 2, 0], [1, 0, 1], [1, 1, 3], [1, 2, 0],
    [2, 0, 0], [2, 1, 2], [2, 2, 1], [3, 0, 0], [3, 1, 1], [3, 2, 5]]
  kvU := [0, 0, 0, 1/2, 1, 1, 1]
  kvV := [0, 0, 1/2, 1, 1]

theorem exS_clamped : ClampedSurface exS where
  cu := ⟨⟨by decide +kernel, by decide +kernel, by decide⟩,
    by intro i hi; change i ≤ 2 at hi; interval_cases i <;> decide +kernel,
    by intro i h1 h2; change 4 ≤ i at h1; change i ≤ 6 at h2; interval_cases i <;> decide +kernel⟩
  cv := ⟨⟨by decide +kernel, by decide +kernel, by decide⟩,
    by intro i hi; change i ≤ 1 at hi; interval_cases i <;> decide +kernel,
    by intro i h1 h2; change 3 ≤ i at h1; change i ≤ 4 at h2; interval_cases i <;> decide +kernel⟩
  du := by decide
  dv := by decide
  shape := ⟨by decide, by decide +kernel⟩

theorem exS_unit : UnitKnots exS.degreeU exS.numU exS.kvU ∧ UnitKnots exS.degreeV exS.numV exS.kvV :=
  ⟨⟨exS_clamped.cu, by decide +kernel, by decide +kernel, by decide +kernel, by decide +kernel⟩,
    ⟨exS_clamped.cv, by decide +kernel, by decide +kernel, by decide +kernel, by decide +kernel⟩⟩

theorem exS_regular : Regular exS.degreeU exS.numU exS.kvU (1/4) ∧
    Regular exS.degreeV exS.numV exS.kvV (1/2) := by
  refine ⟨⟨by decide +kernel, by decide +kernel, ?_, by decide +kernel⟩,
    ⟨by decide +kernel, by decide +kernel, ?_, by decide +kernel⟩⟩
  · intro i h1 h2 _
    change 2 ≤ i at h1
    change i < 4 at h2
    interval_cases i <;> decide +kernel
  · intro i h1 h2 _
    change 1 ≤ i at h1
    change i < 3 at h2
    interval_cases i <;> decide +kernel

example : exS.singlePoint (1/4) (1/2) = .ok [exS.value 0 (1/4) (1/2), exS.value 1 (1/4) (1/2),
    exS.value 2 (1/4) (1/2)] :=
  surface_point_tensor_sum exS_clamped (by norm_num) (by norm_num) exS_regular.1 exS_regular.2

example : exS.singlePoint (1/4) (1/2) = .ok [7/8, 1, 19/8] := by decide +kernel

example : exS.singlePoint (1/4) 1 = Curve.singlePoint ⟨2, [[0, 2, 0], [1, 2, 0], [2, 2, 1], [3, 2, 5]],
    exS.kvU⟩ (1/4) :=
  (surface_edge_v exS_clamped exS_unit.2 (by norm_num) exS_regular.1).2

example : exS.singlePoint 1 1 = .ok [3, 2, 5] :=
  (surface_corners exS_clamped exS_unit.1 exS_unit.2).2.2.2

/-- One ulp-like step outside the square. -/
example : exS.singlePoint 1 (1 + 1 / 10 ^ 16) = .error .valueError := by decide +kernel

/-- Order (1, 1) without normalization: four rows, point, `∂v`, `∂u`, `∂u∂v`. -/
example : exS.derivatives (fun l => (l.map (|·|)).sum) (1/4) (3/4) 1 5 false
    = .ok [[7/8, 3/2, 5/4], [0, 2, -9/2], [3, 0, 2], [0, 0, -4]] := by decide +kernel

end PySpline
