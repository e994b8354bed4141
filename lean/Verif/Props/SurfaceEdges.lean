import Verif.Lemmas.SurfaceEdgesAux
import Verif.Lemmas.Edge

/-!
# C126: derivatives along the edges of a surface
-/

set_option linter.unusedSectionVars false

namespace PySpline

open Spec Finset Polynomial

variable {K : Type} [Field K] [LinearOrder K] [IsStrictOrderedRing K]

section
variable {s : Surface K} (norm : List K → K)

/-- **C126.** The derivatives across the edges `u = 0` and `u = 1`: the differences of the two outermost rows of control
points, scaled by `p` over the length of the outermost span, as a curve in `v`. -/
theorem surface_cross_derivative_u (hs : ClampedSurface s) (ku : UnitKnots s.degreeU s.numU s.kvU) {v : K}
    (hv : 0 ≤ v ∧ v ≤ 1) (rv : Regular s.degreeV s.numV s.kvV v) {orderU : ℕ} (hou : 1 ≤ orderU) (orderV : ℕ) :
    (∃ rows, s.derivatives norm 0 v orderU orderV false = .ok rows ∧ rows.getD (min orderV s.degreeV + 1) []
      = (List.range 3).map fun c => s.degreeU / knotFn s.kvU (s.degreeU + 1) * curve (knotFn s.kvV) s.degreeV s.numV
          (fun j => coord s.ctrlpts c (s.numV + j) - coord s.ctrlpts c j) v) ∧
    ∃ rows, s.derivatives norm 1 v orderU orderV false = .ok rows ∧ rows.getD (min orderV s.degreeV + 1) []
      = (List.range 3).map fun c => s.degreeU / (1 - knotFn s.kvU (s.numU - 1)) *
          curve (knotFn s.kvV) s.degreeV s.numV (fun j => coord s.ctrlpts c ((s.numU - 1) * s.numV + j)
            - coord s.ctrlpts c ((s.numU - 2) * s.numV + j)) v := by
  have h0 : knotFn s.kvU s.degreeU = 0 := by rw [ku.left _ le_rfl, ku.zero]
  have h1 : knotFn s.kvU s.numU = 1 := by rw [ku.right _ le_rfl (by omega), ku.one]
  have hdu := hs.du
  constructor
  · obtain ⟨m, k, ⟨m1, m2⟩, ⟨k1, k2⟩, a1, a2, a3, a4, a5, a6, h⟩ := surface_derivatives_spans norm hs.ok
      ⟨le_rfl, zero_le_one⟩ hv (regular_zero hs.cu ku.zero ku.one ku.first) rv hs.cu hs.cv orderU orderV
    obtain ⟨rows, hr, -, hrow⟩ := h false
    refine ⟨rows, hr, ?_⟩
    have := hrow 1 (by omega) 0 (by omega)
    rw [one_mul, add_zero, scaledRow_false] at this
    rw [this]
    obtain rfl := span_first hs.cu ku.first (by rw [h0]; exact a1) m1
    refine List.map_congr_left fun c _ => ?_
    rw [patchDeriv_u_first]
    have e : ∀ j, ∑ i ∈ range s.numU, coord s.ctrlpts c (i * s.numV + j)
        * (deriv 1 (piece (knotFn s.kvU) s.degreeU s.degreeU i)).eval 0
        = s.degreeU / knotFn s.kvU (s.degreeU + 1) * (coord s.ctrlpts c (s.numV + j) - coord s.ctrlpts c j) := by
      intro j
      have := sum_deriv_left hs.cu hs.du ku.first fun i => coord s.ctrlpts c (i * s.numV + j)
      rw [h0, sub_zero] at this
      rw [this, one_mul, zero_mul, zero_add]
    unfold curve
    rw [mul_sum]
    refine sum_congr rfl fun j hj => ?_
    rw [e, show (deriv 0 (piece (knotFn s.kvV) k s.degreeV j)) = piece (knotFn s.kvV) k s.degreeV j from rfl,
      piece_eq_Nclosed hs.cv hs.dv rv k2 k1 a3 a4 a6 j (mem_range.1 hj)]
    ring
  · obtain ⟨m, k, ⟨m1, m2⟩, ⟨k1, k2⟩, a1, a2, a3, a4, a5, a6, h⟩ := surface_derivatives_spans norm hs.ok
      ⟨zero_le_one, le_rfl⟩ hv (regular_one hs.cu ku.one ku.last) rv hs.cu hs.cv orderU orderV
    obtain ⟨rows, hr, -, hrow⟩ := h false
    refine ⟨rows, hr, ?_⟩
    have := hrow 1 (by omega) 0 (by omega)
    rw [one_mul, add_zero, scaledRow_false] at this
    rw [this]
    obtain rfl := span_last hs.cu ku.last (by rw [h1]; exact a2) m2
    refine List.map_congr_left fun c _ => ?_
    rw [patchDeriv_u_first]
    have e : ∀ j, ∑ i ∈ range s.numU, coord s.ctrlpts c (i * s.numV + j)
        * (deriv 1 (piece (knotFn s.kvU) (s.numU - 1) s.degreeU i)).eval 1
        = s.degreeU / (1 - knotFn s.kvU (s.numU - 1)) * (coord s.ctrlpts c ((s.numU - 1) * s.numV + j)
          - coord s.ctrlpts c ((s.numU - 2) * s.numV + j)) := by
      intro j
      have := sum_deriv_right hs.cu hs.du ku.last fun i => coord s.ctrlpts c (i * s.numV + j)
      rw [h1] at this
      exact this
    unfold curve
    rw [mul_sum]
    refine sum_congr rfl fun j hj => ?_
    rw [e, show (deriv 0 (piece (knotFn s.kvV) k s.degreeV j)) = piece (knotFn s.kvV) k s.degreeV j from rfl,
      piece_eq_Nclosed hs.cv hs.dv rv k2 k1 a3 a4 a6 j (mem_range.1 hj)]
    ring

/-- **C126.** The derivatives across the edges `v = 0` and `v = 1`. -/
theorem surface_cross_derivative_v (hs : ClampedSurface s) (kv : UnitKnots s.degreeV s.numV s.kvV) {u : K}
    (hu : 0 ≤ u ∧ u ≤ 1) (ru : Regular s.degreeU s.numU s.kvU u) (orderU : ℕ) {orderV : ℕ} (hov : 1 ≤ orderV) :
    (∃ rows, s.derivatives norm u 0 orderU orderV false = .ok rows ∧ rows.getD 1 []
      = (List.range 3).map fun c => s.degreeV / knotFn s.kvV (s.degreeV + 1) * curve (knotFn s.kvU) s.degreeU s.numU
          (fun i => coord s.ctrlpts c (i * s.numV + 1) - coord s.ctrlpts c (i * s.numV)) u) ∧
    ∃ rows, s.derivatives norm u 1 orderU orderV false = .ok rows ∧ rows.getD 1 []
      = (List.range 3).map fun c => s.degreeV / (1 - knotFn s.kvV (s.numV - 1)) *
          curve (knotFn s.kvU) s.degreeU s.numU (fun i => coord s.ctrlpts c (i * s.numV + (s.numV - 1))
            - coord s.ctrlpts c (i * s.numV + (s.numV - 2))) u := by
  have h0 : knotFn s.kvV s.degreeV = 0 := by rw [kv.left _ le_rfl, kv.zero]
  have h1 : knotFn s.kvV s.numV = 1 := by rw [kv.right _ le_rfl (by omega), kv.one]
  have hdv := hs.dv
  constructor
  · obtain ⟨m, k, ⟨m1, m2⟩, ⟨k1, k2⟩, a1, a2, a3, a4, a5, a6, h⟩ := surface_derivatives_spans norm hs.ok hu
      ⟨le_rfl, zero_le_one⟩ ru (regular_zero hs.cv kv.zero kv.one kv.first) hs.cu hs.cv orderU orderV
    obtain ⟨rows, hr, -, hrow⟩ := h false
    refine ⟨rows, hr, ?_⟩
    have := hrow 0 (by omega) 1 (by omega)
    rw [zero_mul, zero_add, scaledRow_false] at this
    rw [this]
    obtain rfl := span_first hs.cv kv.first (by rw [h0]; exact a3) k1
    refine List.map_congr_left fun c _ => ?_
    rw [patchDeriv_v_first]
    have e : ∀ i, ∑ j ∈ range s.numV, coord s.ctrlpts c (i * s.numV + j)
        * (deriv 1 (piece (knotFn s.kvV) s.degreeV s.degreeV j)).eval 0
        = s.degreeV / knotFn s.kvV (s.degreeV + 1)
          * (coord s.ctrlpts c (i * s.numV + 1) - coord s.ctrlpts c (i * s.numV)) := by
      intro i
      have := sum_deriv_left hs.cv hs.dv kv.first fun j => coord s.ctrlpts c (i * s.numV + j)
      rw [h0, sub_zero] at this
      exact this
    unfold curve
    rw [mul_sum]
    refine sum_congr rfl fun i hi => ?_
    rw [e, show (deriv 0 (piece (knotFn s.kvU) m s.degreeU i)) = piece (knotFn s.kvU) m s.degreeU i from rfl,
      piece_eq_Nclosed hs.cu hs.du ru m2 m1 a1 a2 a5 i (mem_range.1 hi)]
    ring
  · obtain ⟨m, k, ⟨m1, m2⟩, ⟨k1, k2⟩, a1, a2, a3, a4, a5, a6, h⟩ := surface_derivatives_spans norm hs.ok hu
      ⟨zero_le_one, le_rfl⟩ ru (regular_one hs.cv kv.one kv.last) hs.cu hs.cv orderU orderV
    obtain ⟨rows, hr, -, hrow⟩ := h false
    refine ⟨rows, hr, ?_⟩
    have := hrow 0 (by omega) 1 (by omega)
    rw [zero_mul, zero_add, scaledRow_false] at this
    rw [this]
    obtain rfl := span_last hs.cv kv.last (by rw [h1]; exact a4) k2
    refine List.map_congr_left fun c _ => ?_
    rw [patchDeriv_v_first]
    have e : ∀ i, ∑ j ∈ range s.numV, coord s.ctrlpts c (i * s.numV + j)
        * (deriv 1 (piece (knotFn s.kvV) (s.numV - 1) s.degreeV j)).eval 1
        = s.degreeV / (1 - knotFn s.kvV (s.numV - 1)) * (coord s.ctrlpts c (i * s.numV + (s.numV - 1))
          - coord s.ctrlpts c (i * s.numV + (s.numV - 2))) := by
      intro i
      have := sum_deriv_right hs.cv hs.dv kv.last fun j => coord s.ctrlpts c (i * s.numV + j)
      rw [h1] at this
      exact this
    unfold curve
    rw [mul_sum]
    refine sum_congr rfl fun i hi => ?_
    rw [e, show (deriv 0 (piece (knotFn s.kvU) m s.degreeU i)) = piece (knotFn s.kvU) m s.degreeU i from rfl,
      piece_eq_Nclosed hs.cu hs.du ru m2 m1 a1 a2 a5 i (mem_range.1 hi)]
    ring

/-- **C126.** At the corner `(0, 0)` the first derivatives are the two edges of the control net there, scaled, and the
mixed derivative is the twist of the four control points around the corner. -/
theorem surface_corner_derivatives (hs : ClampedSurface s) (ku : UnitKnots s.degreeU s.numU s.kvU)
    (kv : UnitKnots s.degreeV s.numV s.kvV) {orderU orderV : ℕ} (hou : 1 ≤ orderU) (hov : 1 ≤ orderV) :
    ∃ rows, s.derivatives norm 0 0 orderU orderV false = .ok rows ∧
      rows.getD (min orderV s.degreeV + 1) [] = (List.range 3).map (fun c => s.degreeU / knotFn s.kvU (s.degreeU + 1) *
        (coord s.ctrlpts c s.numV - coord s.ctrlpts c 0)) ∧
      rows.getD 1 [] = (List.range 3).map (fun c => s.degreeV / knotFn s.kvV (s.degreeV + 1) *
        (coord s.ctrlpts c 1 - coord s.ctrlpts c 0)) ∧
      rows.getD (min orderV s.degreeV + 1 + 1) [] = (List.range 3).map fun c =>
        s.degreeU / knotFn s.kvU (s.degreeU + 1) * (s.degreeV / knotFn s.kvV (s.degreeV + 1)) *
          (coord s.ctrlpts c (s.numV + 1) - coord s.ctrlpts c s.numV - coord s.ctrlpts c 1 + coord s.ctrlpts c 0) := by
  have hdu := hs.du
  have hdv := hs.dv
  have u0 : knotFn s.kvU s.degreeU = 0 := by rw [ku.left _ le_rfl, ku.zero]
  have v0 : knotFn s.kvV s.degreeV = 0 := by rw [kv.left _ le_rfl, kv.zero]
  have rz := regular_zero hs.cu ku.zero ku.one ku.first
  have rz' := regular_zero hs.cv kv.zero kv.one kv.first
  obtain ⟨⟨rows, hr, e1⟩, -⟩ := surface_cross_derivative_u norm hs ku ⟨le_rfl, zero_le_one⟩ rz' hou orderV
  obtain ⟨⟨rows', hr', e2⟩, -⟩ := surface_cross_derivative_v norm hs kv ⟨le_rfl, zero_le_one⟩ rz orderU hov
  cases Except.ok.inj (hr.symm.trans hr')
  refine ⟨rows, hr, ?_, ?_, ?_⟩
  · rw [e1]
    refine List.map_congr_left fun c _ => ?_
    have := curve_first hs.cv kv.first fun j => coord s.ctrlpts c (s.numV + j) - coord s.ctrlpts c j
    rw [kv.zero] at this
    rw [this, add_zero]
  · rw [e2]
    refine List.map_congr_left fun c _ => ?_
    have := curve_first hs.cu ku.first fun i => coord s.ctrlpts c (i * s.numV + 1) - coord s.ctrlpts c (i * s.numV)
    rw [ku.zero] at this
    rw [this, zero_mul, zero_add]
  · obtain ⟨m, k, ⟨m1, m2⟩, ⟨k1, k2⟩, a1, a2, a3, a4, a5, a6, h⟩ := surface_derivatives_spans norm hs.ok
      ⟨le_rfl, zero_le_one⟩ ⟨le_rfl, zero_le_one⟩ rz rz' hs.cu hs.cv orderU orderV
    obtain ⟨rows'', hr'', -, hrow⟩ := h false
    cases Except.ok.inj (hr.symm.trans hr'')
    have := hrow 1 (by omega) 1 (by omega)
    rw [one_mul, scaledRow_false] at this
    rw [this]
    obtain rfl := span_first hs.cu ku.first (by rw [u0]; exact a1) m1
    obtain rfl := span_first hs.cv kv.first (by rw [v0]; exact a3) k1
    refine List.map_congr_left fun c _ => ?_
    rw [patchDeriv_u_first]
    have e : ∀ j, ∑ i ∈ range s.numU, coord s.ctrlpts c (i * s.numV + j)
        * (deriv 1 (piece (knotFn s.kvU) s.degreeU s.degreeU i)).eval 0
        = s.degreeU / knotFn s.kvU (s.degreeU + 1) * (coord s.ctrlpts c (s.numV + j) - coord s.ctrlpts c j) := by
      intro j
      have := sum_deriv_left hs.cu hs.du ku.first fun i => coord s.ctrlpts c (i * s.numV + j)
      rw [u0, sub_zero] at this
      rw [this, one_mul, zero_mul, zero_add]
    have := sum_deriv_left hs.cv hs.dv kv.first fun j =>
      s.degreeU / knotFn s.kvU (s.degreeU + 1) * (coord s.ctrlpts c (s.numV + j) - coord s.ctrlpts c j)
    rw [v0, sub_zero] at this
    rw [sum_congr rfl fun j _ => by rw [e j], this, add_zero]
    ring

end

/-! ## Example -/

example : ∃ rows, exS.derivatives (fun _ => 1) 0 0 1 1 false = .ok rows ∧
    rows.getD 2 [] = [4, 0, 4] ∧ rows.getD 1 [] = [0, 2, 2] ∧ rows.getD 3 [] = [0, 0, 8] := by
  obtain ⟨rows, h, h1, h2, h3⟩ := surface_corner_derivatives (fun _ => 1) exS_clamped exS_unit.1 exS_unit.2
    (orderU := 1) (orderV := 1) le_rfl le_rfl
  refine ⟨rows, h, h1.trans ?_, h2.trans ?_, h3.trans ?_⟩ <;> decide +kernel

example : ∃ rows, exS.derivatives (fun _ => 1) 1 (1/4) 1 1 false = .ok rows ∧ rows.getD 2 [] = [4, 0, -2] := by
  obtain ⟨rows, h, h1⟩ := (surface_cross_derivative_u (fun _ => 1) exS_clamped exS_unit.1 (v := 1/4) (by norm_num)
    ⟨by decide +kernel, by decide +kernel, by
      intro i h1 h2 _
      change 1 ≤ i at h1
      change i < 3 at h2
      interval_cases i <;> decide +kernel, by decide +kernel⟩ (orderU := 1) le_rfl 1).2
  exact ⟨rows, h, h1.trans (by decide +kernel)⟩

end PySpline
