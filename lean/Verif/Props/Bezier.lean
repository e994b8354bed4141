import Verif.Lemmas.Bezier
import Verif.Props.KnotFit
import Verif.Props.Surface

/-!
# C116, C117: curves and surfaces without interior knots, initial curves
-/

set_option linter.unusedSectionVars false

namespace PySpline

open Spec

variable {K : Type} [Field K] [LinearOrder K] [IsStrictOrderedRing K]

/-- **C116.** With the knots of `generate_uniform(p, p + 1)` a curve is the Bézier curve of its control points. -/
theorem single_point_bezier {p d : ℕ} {P : List (List K)} (hp : 1 ≤ p) (hP : Shape P (p + 1) d) (hd : 3 ≤ d) :
    ∃ U, generateUniform p (p + 1) = .ok U ∧ ∀ u : K, 0 ≤ u → u ≤ 1 →
      Curve.singlePoint ⟨p, P, U⟩ u = .ok ((List.range 3).map fun k =>
        ∑ i ∈ Finset.range (p + 1), coord P k i * ((p.choose i : K) * u ^ i * (1 - u) ^ (p - i))) := by
  obtain ⟨U, hU, hc, -, h0, h1, -, -⟩ := generate_uniform_valid (K := K) (Nat.lt_succ_self p)
  refine ⟨U, hU, fun u hu0 hu1 => ?_⟩
  rw [single_point_bspline_sum hc hp hP hd hu0 hu1 (regular_bernstein hc h0 h1 hu0 hu1)]
  have : ∀ k, curve (knotFn U) p (p + 1) (coord P k) u
      = ∑ i ∈ Finset.range (p + 1), coord P k i * ((p.choose i : K) * u ^ i * (1 - u) ^ (p - i)) := fun k =>
    Finset.sum_congr rfl fun i hi => by
      rw [Nclosed_bernstein hc h0 h1 hu0 hu1 (Nat.lt_succ_iff.1 (Finset.mem_range.1 hi))]
  rw [this, this, this]
  rfl

/-- **C116.** The same for surfaces. -/
theorem surface_point_bezier {p q : ℕ} {P : List (List K)} (hp : 1 ≤ p) (hq : 1 ≤ q)
    (hP : Shape P ((p + 1) * (q + 1)) 3) :
    ∃ U V, generateUniform p (p + 1) = .ok U ∧ generateUniform q (q + 1) = .ok V ∧
      ∀ u v : K, 0 ≤ u → u ≤ 1 → 0 ≤ v → v ≤ 1 →
      Surface.singlePoint ⟨p, q, p + 1, q + 1, P, U, V⟩ u v = .ok ((List.range 3).map fun k =>
        ∑ i ∈ Finset.range (p + 1), ∑ j ∈ Finset.range (q + 1), coord P k (i * (q + 1) + j)
          * ((p.choose i : K) * u ^ i * (1 - u) ^ (p - i)) * ((q.choose j : K) * v ^ j * (1 - v) ^ (q - j))) := by
  obtain ⟨U, hU, cU, -, U0, U1, -, -⟩ := generate_uniform_valid (K := K) (Nat.lt_succ_self p)
  obtain ⟨V, hV, cV, -, V0, V1, -, -⟩ := generate_uniform_valid (K := K) (Nat.lt_succ_self q)
  refine ⟨U, V, hU, hV, fun u v hu0 hu1 hv0 hv1 => ?_⟩
  rw [surface_point_tensor_sum (s := ⟨p, q, p + 1, q + 1, P, U, V⟩) ⟨cU, cV, hp, hq, hP⟩ ⟨hu0, hu1⟩ ⟨hv0, hv1⟩
    (regular_bernstein cU U0 U1 hu0 hu1) (regular_bernstein cV V0 V1 hv0 hv1)]
  have : ∀ k, Surface.value ⟨p, q, p + 1, q + 1, P, U, V⟩ k u v = ∑ i ∈ Finset.range (p + 1), ∑ j ∈ Finset.range (q + 1),
      coord P k (i * (q + 1) + j) * ((p.choose i : K) * u ^ i * (1 - u) ^ (p - i))
        * ((q.choose j : K) * v ^ j * (1 - v) ^ (q - j)) := fun k =>
    Finset.sum_congr rfl fun i hi => Finset.sum_congr rfl fun j hj => by
      rw [Nclosed_bernstein cU U0 U1 hu0 hu1 (Nat.lt_succ_iff.1 (Finset.mem_range.1 hi)),
        Nclosed_bernstein cV V0 V1 hv0 hv1 (Nat.lt_succ_iff.1 (Finset.mem_range.1 hj))]
  rw [this, this, this]
  rfl

/-- **C117.** The initial curve of an adaptive fit, which has one control point more than its degree, traverses the
segment with constant speed. -/
theorem initialize_curve_constant_speed {s e : List K} (hs : s.length = 3) (he : e.length = 3) {p : ℕ} (hp : 1 ≤ p) :
    ∃ c : Curve K, initializeCurve s e p (p + 1) = .ok c ∧ ∀ u : K, 0 ≤ u → u ≤ 1 →
      c.singlePoint u = .ok ((List.range 3).map fun k => s.getD k 0 + u * (e.getD k 0 - s.getD k 0)) := by
  obtain ⟨⟨p', P, U'⟩, hc, rfl, hP, hv, hk, -⟩ := initialize_curve_points hs he (Nat.lt_succ_self p) (by omega)
  dsimp only at *
  obtain ⟨U, hU, hpt⟩ := single_point_bezier hp hP le_rfl
  cases Except.ok.inj (hk.symm.trans hU)
  refine ⟨_, hc, fun u hu0 hu1 => ?_⟩
  rw [hpt u hu0 hu1]
  congr 1
  refine List.map_congr_left fun k hk => ?_
  rw [← sum_bernstein_affine p' hp]
  refine Finset.sum_congr rfl fun i hi => ?_
  rw [hv k (List.mem_range.1 hk) i (Finset.mem_range.1 hi)]
  push_cast
  rw [add_sub_cancel_right]

/-- **C117.** With more control points the speed is not constant. -/
theorem initialize_curve_not_constant_speed :
    ∃ c : Curve ℚ, initializeCurve [0, 0, 0] [3, 0, 0] 2 4 = .ok c ∧
      c.singlePoint (1/4) = .ok [7/8, 0, 0] := by
  refine ⟨_, rfl, ?_⟩
  decide +kernel

/-- **C117.** With as many control points as the degree `initialize_curve` passes its own check, but the knots that it
assigns are rejected by `check_knot_vector`. -/
theorem initialize_curve_degree {s e : List K} (hs : s.length = 3) (he : e.length = 3) {p : ℕ} (hp : 2 ≤ p) :
    ∃ c : Curve K, initializeCurve s e p p = .ok c ∧ c.degree = p ∧ c.ctrlpts.length = p ∧
      checkKnotVector p c.kv p = .ok false := by
  obtain ⟨U, hU, hc⟩ := (generate_uniform_too_few (K := K)).1 p
  have lin : ∀ a b : K, ∃ L, linspace a b (p : ℤ) = .ok L ∧ L.length = p := by
    intro a b
    unfold linspace
    rw [if_neg (by omega), if_neg (by omega)]
    exact ⟨_, rfl, by simp⟩
  obtain ⟨x, hx, lx⟩ := lin (s.getD 0 0) (e.getD 0 0)
  obtain ⟨y, hy, ly⟩ := lin (s.getD 1 0) (e.getD 1 0)
  obtain ⟨z, hz, lz⟩ := lin (s.getD 2 0) (e.getD 2 0)
  refine ⟨⟨p, (List.range x.length).map fun i => [x.getD i 0, y.getD i 0, z.getD i 0], U⟩, ?_, rfl, by simp [lx], hc⟩
  unfold initializeCurve
  rw [if_neg (by omega), pyGet_nat s 0 0 0 rfl (by omega), ok_bind, pyGet_nat e 0 0 0 rfl (by omega),
    ok_bind, hx, ok_bind, pyGet_nat s 1 1 0 rfl (by omega), ok_bind,
    pyGet_nat e 1 1 0 rfl (by omega), ok_bind, hy, ok_bind, pyGet_nat s 2 2 0 rfl (by omega),
    ok_bind, pyGet_nat e 2 2 0 rfl (by omega), ok_bind, hz, ok_bind]
  unfold columnStack3
  rw [if_pos ⟨by rw [lx, ly], by rw [ly, lz]⟩, ok_bind]
  rw [show ((List.range x.length).map fun i => [x.getD i 0, y.getD i 0, z.getD i 0]).length = p by simp [lx], hU, ok_bind]

/-- C116: a cubic. -/
example : Curve.singlePoint ⟨3, [[0, 0, 0], [1, 2, 0], [3, 2, 1], [4, 0, 1]], [0, 0, 0, 0, 1, 1, 1, 1]⟩ (1/2 : ℚ)
    = .ok [2, 3/2, 1/2] := by decide +kernel

/-- C117: degree 3, the point at a third of the parameter interval is a third of the way. -/
example : ∃ c : Curve ℚ, initializeCurve [0, 0, 3] [3, 6, 0] 3 4 = .ok c ∧ c.singlePoint (1/3) = .ok [1, 2, 2] := by
  refine ⟨_, rfl, ?_⟩
  decide +kernel

end PySpline
