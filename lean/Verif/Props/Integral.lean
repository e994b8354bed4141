import Verif.Lemmas.Integral
import Verif.Props.Insertion
import Verif.Props.Smooth

/-!
# C184: means of curves and surfaces
-/

namespace PySpline

open Spec Set MeasureTheory

variable {p n : ℕ} {U : List ℝ}

/-- The weight of control point `i` in the mean of a curve. -/
noncomputable def meanWeight (U : List ℝ) (p i : ℕ) : ℝ := (knotFn U (i + p + 1) - knotFn U i) / ((p : ℝ) + 1)

/-- **C184.** The weights are positive and add up to one. -/
theorem meanWeight_sum (hU : Clamped p n U) (hdist : DistinctInterior p n U) (hz : knotFn U 0 = 0)
    (ho : knotFn U (n + p) = 1) : (∀ i < n, 0 < meanWeight U p i) ∧ ∑ i ∈ Finset.range n, meanWeight U p i = 1 := by
  have hV := monotone_knotFn hU.mono
  have hsz := hU.size
  have hp : (0 : ℝ) < (p : ℝ) + 1 := by positivity
  refine ⟨fun i hi => div_pos (sub_pos.2 ?_) hp, ?_⟩
  · rcases le_or_gt p i with h | h
    · exact (hdist i h hi).trans_le (hV (by omega))
    · rw [hU.left i h.le, ← hU.left p le_rfl]
      exact (hdist p le_rfl hsz).trans_le (hV (by omega))
  · unfold meanWeight
    rw [← Finset.sum_div, Finset.sum_sub_distrib, div_eq_one_iff_eq hp.ne']
    have e1 := Finset.sum_range_add (knotFn U) n (p + 1)
    have e2 := Finset.sum_range_add (knotFn U) (p + 1) n
    have e3 : ∑ j ∈ Finset.range (p + 1), knotFn U (n + j) = (p : ℝ) + 1 := by
      rw [Finset.sum_congr rfl fun j hj => (hU.right (n + j) (by omega) (by have := Finset.mem_range.1 hj; omega)).trans ho]
      simp
    have e4 : ∑ j ∈ Finset.range (p + 1), knotFn U j = 0 :=
      Finset.sum_eq_zero fun j hj => (hU.left j (by have := Finset.mem_range.1 hj; omega)).trans hz
    have e5 : ∑ i ∈ Finset.range n, knotFn U (i + p + 1) = ∑ i ∈ Finset.range n, knotFn U (p + 1 + i) :=
      Finset.sum_congr rfl fun i _ => by rw [show i + p + 1 = p + 1 + i by omega]
    rw [e3] at e1
    rw [e4, show p + 1 + n = n + (p + 1) by omega] at e2
    rw [e5]
    linarith

private theorem ends (hU : Clamped p n U) (hdist : DistinctInterior p n U) :
    knotFn U p < knotFn U (p + 1) ∧ knotFn U (n - 1) < knotFn U n := by
  have hsz := hU.size
  refine ⟨hdist p le_rfl hsz, ?_⟩
  have := hdist (n - 1) (by omega) (by omega)
  rwa [show n - 1 + 1 = n by omega] at this

private theorem mult (hU : Clamped p n U) (hdist : DistinctInterior p n U) (hp : 1 ≤ p) :
    MultAtMost (knotFn U) (knotFn U 0) (knotFn U (n + p)) p := by
  have hV := monotone_knotFn hU.mono
  intro i h1 h2
  refine (hdist i ?_ ?_).trans_le (hV (by omega))
  · by_contra hc
    exact h1.ne' (hU.left i (by omega))
  · by_contra hc
    have := hV (by omega : n ≤ i)
    rw [hU.right n le_rfl (by omega)] at this
    linarith

private theorem curve_integral (hU : Clamped p n U) (hfirst : knotFn U p < knotFn U (p + 1))
    (hlast : knotFn U (n - 1) < knotFn U n) (hmult : MultAtMost (knotFn U) (knotFn U 0) (knotFn U (n + p)) p)
    (c : ℕ → ℝ) : ∫ u in (knotFn U 0)..(knotFn U (n + p)), curve (knotFn U) p n c u
      = ∑ i ∈ Finset.range n, c i * meanWeight U p i := by
  have hV := monotone_knotFn hU.mono
  unfold curve
  rw [intervalIntegral.integral_finsetSum]
  · refine Finset.sum_congr rfl fun i hi => ?_
    rw [intervalIntegral.integral_const_mul, integral_Nclosed hU hfirst hlast hmult (Finset.mem_range.1 hi)]
    rfl
  · intro i hi
    refine ContinuousOn.intervalIntegrable ?_
    rw [uIcc_of_le (hV (Nat.zero_le _))]
    exact continuousOn_const.mul (Nclosed_continuousOn hU hfirst hlast hmult (Finset.mem_range.1 hi))

/-- **C184.** The mean of a curve over its parameters is the mean of its control points, with the weights
`(U[i+p+1] - U[i]) / (p + 1)`. -/
theorem single_point_mean {d : ℕ} {P : List (List ℝ)} (hU : Clamped p n U) (hdist : DistinctInterior p n U)
    (hz : knotFn U 0 = 0) (ho : knotFn U (n + p) = 1)
    (hgap : knotFn U (n - 1) ≤ 1 - (1 / 10 ^ 8 + 1 / 10 ^ 6)) (hp : 1 ≤ p) (hP : Shape P n d) (hd : 3 ≤ d) :
    ∃ f : ℕ → ℝ → ℝ, (∀ u ∈ Icc (0 : ℝ) 1, Curve.singlePoint ⟨p, P, U⟩ u = .ok [f 0 u, f 1 u, f 2 u]) ∧
      ∀ c < 3, ContinuousOn (f c) (Icc 0 1) ∧
        ∫ u in (0 : ℝ)..1, f c u = ∑ i ∈ Finset.range n, coord P c i * meanWeight U p i := by
  obtain ⟨hfirst, hlast⟩ := ends hU hdist
  have hm := mult hU hdist hp
  refine ⟨fun c => curve (knotFn U) p n (coord P c), fun u hu => ?_, fun c _ => ⟨?_, ?_⟩⟩
  · refine single_point_bspline_sum hU hp hP hd hu.1 hu.2 (regular_of_distinct hU hdist hz ho hu.1 hu.2 ?_)
    intro h
    rw [abs_of_nonpos (by linarith [hu.2])] at h
    linarith
  · rw [← hz, ← ho]
    exact continuousOn_finsetSum _ fun i hi => continuousOn_const.mul
      (Nclosed_continuousOn hU hfirst hlast hm (Finset.mem_range.1 hi))
  · have := curve_integral hU hfirst hlast hm (coord P c)
    rwa [hz, ho] at this

/-- **C184.** The same for surfaces. -/
theorem surface_point_mean {s : Surface ℝ} (hs : ClampedSurface s)
    (du : DistinctInterior s.degreeU s.numU s.kvU) (zu : knotFn s.kvU 0 = 0) (ou : knotFn s.kvU (s.numU + s.degreeU) = 1)
    (gu : knotFn s.kvU (s.numU - 1) ≤ 1 - (1 / 10 ^ 8 + 1 / 10 ^ 6))
    (dv : DistinctInterior s.degreeV s.numV s.kvV) (zv : knotFn s.kvV 0 = 0) (ov : knotFn s.kvV (s.numV + s.degreeV) = 1)
    (gv : knotFn s.kvV (s.numV - 1) ≤ 1 - (1 / 10 ^ 8 + 1 / 10 ^ 6)) :
    ∃ f : ℕ → ℝ → ℝ → ℝ, (∀ u ∈ Icc (0 : ℝ) 1, ∀ v ∈ Icc (0 : ℝ) 1,
        s.singlePoint u v = .ok [f 0 u v, f 1 u v, f 2 u v]) ∧
      ∀ c < 3, ∫ u in (0 : ℝ)..1, ∫ v in (0 : ℝ)..1, f c u v = ∑ i ∈ Finset.range s.numU, ∑ j ∈ Finset.range s.numV,
        coord s.ctrlpts c (i * s.numV + j) * meanWeight s.kvU s.degreeU i * meanWeight s.kvV s.degreeV j := by
  obtain ⟨fu, lu⟩ := ends hs.cu du
  obtain ⟨fv, lv⟩ := ends hs.cv dv
  have mu := mult hs.cu du hs.du
  have mv := mult hs.cv dv hs.dv
  have near : ∀ {x y : ℝ}, x ≤ 1 - (1 / 10 ^ 8 + 1 / 10 ^ 6) → y ≤ 1 → |y - 1| ≤ 1 / 10 ^ 8 + 1 / 10 ^ 6 → x ≤ y := by
    intro x y hx hy h
    rw [abs_of_nonpos (by linarith)] at h
    linarith
  refine ⟨s.value, fun u hu v hv => ?_, fun c _ => ?_⟩
  · exact surface_point_tensor_sum hs hu hv (regular_of_distinct hs.cu du zu ou hu.1 hu.2 (near gu hu.2))
      (regular_of_distinct hs.cv dv zv ov hv.1 hv.2 (near gv hv.2))
  · have e : ∀ u v, s.value c u v = curve (knotFn s.kvV) s.degreeV s.numV (fun j =>
        curve (knotFn s.kvU) s.degreeU s.numU (fun i => coord s.ctrlpts c (i * s.numV + j)) u) v := by
      intro u v
      unfold Surface.value surface curve
      rw [Finset.sum_comm]
      refine Finset.sum_congr rfl fun j _ => ?_
      rw [Finset.sum_mul]
    have iv : ∀ u, ∫ v in (0 : ℝ)..1, s.value c u v = ∑ j ∈ Finset.range s.numV,
        curve (knotFn s.kvU) s.degreeU s.numU (fun i => coord s.ctrlpts c (i * s.numV + j)) u
          * meanWeight s.kvV s.degreeV j := by
      intro u
      have := curve_integral hs.cv fv lv mv (fun j =>
        curve (knotFn s.kvU) s.degreeU s.numU (fun i => coord s.ctrlpts c (i * s.numV + j)) u)
      rw [zv, ov] at this
      rw [← this]
      simp only [e]
    simp only [iv]
    rw [Finset.sum_comm, intervalIntegral.integral_finsetSum]
    · refine Finset.sum_congr rfl fun j _ => ?_
      have := curve_integral hs.cu fu lu mu (fun i => coord s.ctrlpts c (i * s.numV + j))
      rw [zu, ou] at this
      rw [intervalIntegral.integral_mul_const, this, Finset.sum_mul]
    · intro j _
      refine ContinuousOn.intervalIntegrable ?_
      rw [uIcc_of_le zero_le_one, ← zu, ← ou]
      refine ContinuousOn.mul ?_ continuousOn_const
      exact continuousOn_finsetSum _ fun i hi => continuousOn_const.mul
        (Nclosed_continuousOn hs.cu fu lu mu (Finset.mem_range.1 hi))

/-- **C184.** Inserting a new knot up to `degree` times does not change the mean of the control points with these
weights. -/
theorem knot_insertion_mean {P : List (List ℝ)} {k r : ℕ} {u : ℝ} (hU : Clamped p n U) (hdist : DistinctInterior p n U)
    (hp : 1 ≤ p) (hP : Shape P n 3) (hpk : p ≤ k) (hk : k < n) (hfs : findSpan n p u U = .ok (k : ℤ))
    (h1 : knotFn U k < u) (h2 : u < knotFn U (k + 1)) (hnm : NoNearMiss u U) (hr : r + U.count u ≤ p) :
    ∃ U' P', curveKnotInsertion p U P u r = .ok (U', P') ∧ ∀ y < 3,
      ∑ i ∈ Finset.range (n + r), coord P' y i * meanWeight U' p i
        = ∑ i ∈ Finset.range n, coord P y i * meanWeight U p i := by
  obtain ⟨hrun, ⟨U', P'⟩, hret, hl', hfn, shP, vP⟩ := insertion_setup hU.toKnotVector hP hpk hk hfs h1.le h2 hnm hr
  obtain ⟨-, -, hcl⟩ := inserted_curve hU.toKnotVector hpk hk h1.le h2 hrun hr hl' hfn vP
  obtain ⟨hU', hcurve⟩ := hcl hU
  refine ⟨U', P', hret, fun y hy => ?_⟩
  obtain ⟨hfirst, hlast⟩ := ends hU hdist
  have hV := monotone_knotFn hU.mono
  have hsz := hU.size
  have ins : ∀ i, knotFn U' i = if i ≤ k then knotFn U i else if i ≤ k + r then u else knotFn U (i - r) := fun i => by
    rw [hfn]
    rfl
  have z' : knotFn U' 0 = knotFn U 0 := by rw [ins, if_pos (Nat.zero_le _)]
  have o' : knotFn U' (n + r + p) = knotFn U (n + p) := by
    rw [ins, if_neg (by omega), if_neg (by omega)]
    congr 1
    omega
  have first' : knotFn U' p < knotFn U' (p + 1) := by
    rw [ins, if_pos hpk, ins]
    split_ifs with a b
    · exact hfirst
    · exact (hV hpk).trans_lt h1
    · rwa [show p + 1 - r = p + 1 by omega]
  have last' : knotFn U' (n + r - 1) < knotFn U' (n + r) := by
    rw [ins (n + r), if_neg (by omega), if_neg (by omega), Nat.add_sub_cancel, ins]
    split_ifs with a b
    · rwa [show n + r - 1 = n - 1 by omega]
    · exact h2.trans_le (hV (by omega))
    · rwa [show n + r - 1 - r = n - 1 by omega]
  have mult' : MultAtMost (knotFn U') (knotFn U' 0) (knotFn U' (n + r + p)) p := by
    intro i i1 i2
    rw [z'] at i1
    rw [o'] at i2
    rw [ins] at i1 i2 ⊢
    rw [ins]
    by_cases a : i ≤ k
    · rw [if_pos a] at i1 i2 ⊢
      have hi : p ≤ i := by
        by_contra hc
        exact i1.ne' (hU.left i (by omega))
      have hik := hV a
      split_ifs with b c
      · exact (hdist i hi (by omega)).trans_le (hV (by omega))
      · linarith
      · have := hV (by omega : k + 1 ≤ i + p - r)
        linarith
    · rw [if_neg a] at i1 i2 ⊢
      rw [if_neg (by omega : ¬ i + p ≤ k)]
      by_cases b : i ≤ k + r
      · rw [if_pos b, if_neg (by omega)]
        exact h2.trans_le (hV (by omega))
      · rw [if_neg b] at i1 i2 ⊢
        rw [if_neg (by omega)]
        have hi : i - r < n := by
          by_contra hc
          have := hV (by omega : n ≤ i - r)
          rw [hU.right n le_rfl (by omega)] at this
          linarith
        exact (hdist (i - r) (by omega) hi).trans_le (hV (by omega))
  rw [← curve_integral hU' first' last' mult' (coord P' y), ← curve_integral hU hfirst hlast (mult hU hdist hp) (coord P y),
    z', o']
  simp only [hcurve y hy]

/-- **C184.** Without interior knots the mean is the plain mean of the control points. -/
theorem meanWeight_bezier (hU : Clamped p (p + 1) U) (hz : knotFn U 0 = 0) (ho : knotFn U (p + 1 + p) = 1) {i : ℕ}
    (hi : i ≤ p) : meanWeight U p i = 1 / ((p : ℝ) + 1) := by
  unfold meanWeight
  rw [hU.left i hi, hz, hU.right (i + p + 1) (by omega) (by omega), ho, sub_zero]

/-- **C184**, example: the mean of the curve with control points `(0,0,0), (1,2,0), (3,2,0), (4,0,0)` and knots
`0, 0, 0, 1/2, 1, 1, 1` is `(2, 4/3, 0)`: the inner control points count twice. -/
example : ∃ f : ℕ → ℝ → ℝ, (∀ u ∈ Icc (0 : ℝ) 1,
    Curve.singlePoint ⟨2, [[0, 0, 0], [1, 2, 0], [3, 2, 0], [4, 0, 0]], exR⟩ u = .ok [f 0 u, f 1 u, f 2 u]) ∧
    ∫ u in (0 : ℝ)..1, f 0 u = 2 ∧ ∫ u in (0 : ℝ)..1, f 1 u = 4 / 3 := by
  obtain ⟨f, h1, h2⟩ := single_point_mean (d := 3) (P := [[0, 0, 0], [1, 2, 0], [3, 2, 0], [4, 0, 0]]) exR_clamped
    (fun i h1 h2 => by interval_cases i <;> (simp [exR, knotFn]; try norm_num)) (by simp [exR, knotFn])
    (by simp [exR, knotFn]) (by simp [exR, knotFn]; norm_num) (by norm_num) ⟨rfl, by simp⟩ le_rfl
  refine ⟨f, h1, ?_, ?_⟩
  · rw [(h2 0 (by norm_num)).2]
    simp [Finset.sum_range_succ, meanWeight, coord, exR, knotFn]
    norm_num
  · rw [(h2 1 (by norm_num)).2]
    simp [Finset.sum_range_succ, meanWeight, coord, exR, knotFn]
    norm_num

/-- **C184**, example: two insertions of the knot `3/10` (in exact rational arithmetic). -/
example : ((List.range 6).map fun i => coord exP 1 i * ((knotFn exU (i + 3) - knotFn exU i) / 3)).sum = 5 / 4 ∧
    (curveKnotInsertion 2 exU exP (3/10) 2).map (fun x =>
      ((List.range 8).map fun i => coord x.2 1 i * ((knotFn x.1 (i + 3) - knotFn x.1 i) / 3)).sum) = .ok (5 / 4) := by
  decide +kernel

end PySpline
