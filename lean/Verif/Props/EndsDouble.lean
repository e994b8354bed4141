import Verif.Lemmas.EndsDoubleAux
import Verif.Lemmas.EndsDouble
import Verif.Props.KnotsDouble
import Verif.Props.Double
import Verif.Props.SurfaceInversion

/-!
# C133: end points that are interpolated exactly in double precision
-/

set_option linter.unusedSectionVars false

namespace PySpline

open Spec

section
variable {K : Type} [Field K] [LinearOrder K] [IsStrictOrderedRing K]

theorem BilinearFl.unit {fl : K → K} (h0 : fl 0 = 0) {a b i0 j0 : ℕ} {bu bv : List K} (g : ℕ → ℕ → K)
    (hbu : bu.length = a) (hbv : bv.length = b) (hi0 : i0 < a) (hj0 : j0 < b) (hu1 : bu.getD i0 0 = 1)
    (hu0 : ∀ i < a, i ≠ i0 → bu.getD i 0 = 0) (hv1 : bv.getD j0 0 = 1) (hv0 : ∀ j < b, j ≠ j0 → bv.getD j 0 = 0)
    (hd : fl (g i0 j0) = g i0 j0) {x : K}
    (hx : BilinearFl fl bu ((List.range a).map fun i => (List.range b).map (g i)) bv x) : x = g i0 j0 := by
  obtain ⟨w, -, hw1, hw2, hw3, hw4⟩ := hx
  have hcol : ((List.range a).map fun i => (List.range b).map (g i)).map (fun row => row.getD j0 0)
      = (List.range a).map fun i => g i j0 := by
    rw [List.map_map]
    refine List.map_congr_left fun i _ => ?_
    simp [List.getD_eq_getElem?_getD, hj0]
  have e : ((List.range a).map fun i => g i j0).getD i0 0 = g i0 j0 := by
    simp [List.getD_eq_getElem?_getD, hi0]
  have hw : w.getD j0 0 = g i0 j0 := by
    have := hw3 j0 (by omega)
    rw [hcol] at this
    rw [← e]
    exact this.unit h0 hbu (by simp) hi0 hu1 hu0 (by rw [e]; exact hd)
  have h4 := hw4.swap
  rw [List.zip_swap] at h4
  rw [← hw]
  exact h4.unit h0 hbv (by omega) hj0 hv1 hv0 (by rw [hw]; exact hd)

theorem UnitAt.surface {fl : K → K} (h0 : fl 0 = 0) {close : K → K → Bool} {s : Surface K} (hs : ClampedSurface s)
    {u v : K} {i j : ℕ} (h : UnitAt fl close s.degreeU s.numU s.kvU u i) (h' : UnitAt fl close s.degreeV s.numV s.kvV v j)
    (hu : 0 ≤ u ∧ u ≤ 1) (hv : 0 ≤ v ∧ v ≤ 1)
    (hdbl : ∀ c < 3, fl (coord s.ctrlpts c (i * s.numV + j)) = coord s.ctrlpts c (i * s.numV + j)) (pt : List K) :
    s.PointFl fl close u v pt ↔ pt = [coord s.ctrlpts 0 (i * s.numV + j), coord s.ctrlpts 1 (i * s.numV + j),
      coord s.ctrlpts 2 (i * s.numV + j)] := by
  have hok := hs.ok
  obtain ⟨m, r0, bu, hm, hm1, hm2, hbu, hbul, hr0, rfl, ha, ha'⟩ := h
  obtain ⟨k, t0, bv, hk, hk1, hk2, hbv, hbvl, ht0, rfl, hb, hb'⟩ := h'
  have hcol : ∀ c : ℕ, c < 3 → column s.ctrlpts (c : ℤ)
      = .ok ((List.range (s.numU * s.numV)).map (coord s.ctrlpts c)) := fun c h =>
    column_all hok.shape c c rfl h
  have hsl : ∀ c, slice2 ((List.range s.numU).map fun i => (List.range s.numV).map fun j =>
        coord s.ctrlpts c (i * s.numV + j)) ((m : ℤ) - s.degreeU) ((m : ℤ) + 1)
        ((k : ℤ) - s.degreeV) ((k : ℤ) + 1)
      = (List.range (s.degreeU + 1)).map fun i => (List.range (s.degreeV + 1)).map fun j =>
        coord s.ctrlpts c ((m - s.degreeU + i) * s.numV + (k - s.degreeV + j)) := fun c =>
    slice2_map_range (fun i j => coord s.ctrlpts c (i * s.numV + j)) (by omega) (by omega)
      (by omega) (by omega) (by omega) (by omega)
  have hval : ∀ c < 3, ∀ x, BilinearFl fl bu ((List.range (s.degreeU + 1)).map fun i =>
      (List.range (s.degreeV + 1)).map fun j =>
        coord s.ctrlpts c ((m - s.degreeU + i) * s.numV + (k - s.degreeV + j))) bv x →
      x = coord s.ctrlpts c ((m - s.degreeU + r0) * s.numV + (k - s.degreeV + t0)) := fun c hc x hx =>
    BilinearFl.unit h0 (fun i j => coord s.ctrlpts c ((m - s.degreeU + i) * s.numV + (k - s.degreeV + j)))
      hbul hbvl (by omega) (by omega) ha ha' hb hb' (hdbl c hc) hx
  constructor
  · rintro ⟨uS, vS, bu', bv', -, -, e1, e2, e3, e4, cx, cy, cz, xa, ya, za, x, y, z, c0, c1, c2,
      r0, r1, r2, dx, dy, dz, rfl⟩
    rw [hm] at e1
    cases e1
    rw [hk] at e2
    cases e2
    rw [hbu] at e3
    cases e3
    rw [hbv] at e4
    cases e4
    have a0 := (hcol 0 (by omega)).symm.trans c0
    have a1 := (hcol 1 (by omega)).symm.trans c1
    have a2 := (hcol 2 (by omega)).symm.trans c2
    cases a0
    cases a1
    cases a2
    rw [reshape2_map_range] at r0 r1 r2
    cases r0
    cases r1
    cases r2
    rw [hsl] at dx dy dz
    rw [hval 0 (by omega) x dx, hval 1 (by omega) y dy, hval 2 (by omega) z dz]
  · rintro rfl
    have hex := fun c => BilinearFl.exists fl (bu := bu) (bv := bv)
      (fun i j => coord s.ctrlpts c ((m - s.degreeU + i) * s.numV + (k - s.degreeV + j)))
      (a := s.degreeU + 1) (b := s.degreeV + 1) (by omega) (by omega) hbul hbvl
    obtain ⟨x, hx⟩ := hex 0
    obtain ⟨y, hy⟩ := hex 1
    obtain ⟨z, hz⟩ := hex 2
    obtain rfl := hval 0 (by omega) x hx
    obtain rfl := hval 1 (by omega) y hy
    obtain rfl := hval 2 (by omega) z hz
    rw [← hsl] at hx hy hz
    exact ⟨m, k, bu, bv, (validateKnot_iff u).2 hu, (validateKnot_iff v).2 hv, hm, hk, hbu, hbv,
      _, _, _, _, _, _, _, _, _, hcol 0 (by omega), hcol 1 (by omega), hcol 2 (by omega),
      reshape2_map_range _ _ _, reshape2_map_range _ _ _, reshape2_map_range _ _ _, hx, hy, hz, rfl⟩

end

/-- Knots on `[0, 1]` whose first and last span, as computed in double precision, times the computed reciprocal is
rounded to one. -/
structure ExactEnds (p n : ℕ) (U : List ℚ) : Prop where
  clamped : Clamped p n U
  zero : knotFn U 0 = 0
  one : knotFn U (n + p) = 1
  first : 0 < knotFn U (p + 1)
  last : knotFn U (n - 1) < 1
  recip_first : let x := fl64 (knotFn U (p + 1)); fl64 (x * fl64 (1 / x)) = 1
  recip_last : let x := fl64 (1 - knotFn U (n - 1)); fl64 (x * fl64 (1 / x)) = 1

theorem ExactEnds.unit {p n : ℕ} {U : List ℚ} (h : ExactEnds p n U) :
    UnitAt fl64 (endTestFl fl64) p n U 0 0 ∧ UnitAt fl64 (endTestFl fl64) p n U 1 (n - 1) := by
  constructor
  · have := unitAt_first rounding_fl64 accurate_fl64 endTestFl_refl h.clamped (by rw [h.zero]; exact h.first)
      (by
        rw [h.zero, h.clamped.right n le_rfl (by omega), h.one, Bool.eq_false_iff]
        intro ht
        have := endTestFl_one zero_le_one ht
        norm_num at this)
      (by rw [h.zero, sub_zero]; exact h.recip_first)
    rwa [h.zero] at this
  · have := unitAt_last rounding_fl64 accurate_fl64 endTestFl_refl h.clamped (by rw [h.one]; exact h.last)
      (by rw [h.one]; exact h.recip_last)
    rwa [h.one] at this

/-- **C133.** On such knots `single_point(0)` and `single_point(1)` return exactly the first and the last control
point, whatever the order of the sums. -/
theorem single_point_ends_double {p n d : ℕ} {U : List ℚ} {P : List (List ℚ)} (h : ExactEnds p n U)
    (hP : Shape P n d) (hd : 3 ≤ d) (hdbl : ∀ c < 3, ∀ i < n, fl64 (coord P c i) = coord P c i) (pt : List ℚ) :
    (Curve.PointFl fl64 (endTestFl fl64) ⟨p, P, U⟩ 0 pt ↔ pt = [coord P 0 0, coord P 1 0, coord P 2 0]) ∧
    (Curve.PointFl fl64 (endTestFl fl64) ⟨p, P, U⟩ 1 pt ↔
      pt = [coord P 0 (n - 1), coord P 1 (n - 1), coord P 2 (n - 1)]) := by
  have := h.clamped.size
  exact ⟨h.unit.1.curve fl64_zero hP hd le_rfl zero_le_one (fun c hc => hdbl c hc 0 (by omega)) pt,
    h.unit.2.curve fl64_zero hP hd zero_le_one le_rfl (fun c hc => hdbl c hc (n - 1) (by omega)) pt⟩

/-- **C133**, the four corners of a surface. -/
theorem surface_corners_double {s : Surface ℚ} (hu : ExactEnds s.degreeU s.numU s.kvU)
    (hv : ExactEnds s.degreeV s.numV s.kvV) (hdu : 1 ≤ s.degreeU) (hdv : 1 ≤ s.degreeV)
    (hP : Shape s.ctrlpts (s.numU * s.numV) 3)
    (hdbl : ∀ c < 3, ∀ i < s.numU * s.numV, fl64 (coord s.ctrlpts c i) = coord s.ctrlpts c i)
    {u v : ℚ} {i j : ℕ} (hui : (u = 0 ∧ i = 0) ∨ (u = 1 ∧ i = s.numU - 1))
    (hvj : (v = 0 ∧ j = 0) ∨ (v = 1 ∧ j = s.numV - 1)) (pt : List ℚ) :
    s.PointFl fl64 (endTestFl fl64) u v pt ↔ pt = [coord s.ctrlpts 0 (i * s.numV + j),
      coord s.ctrlpts 1 (i * s.numV + j), coord s.ctrlpts 2 (i * s.numV + j)] := by
  have hsu := hu.clamped.size
  have hsv := hv.clamped.size
  have hU : UnitAt fl64 (endTestFl fl64) s.degreeU s.numU s.kvU u i ∧ (0 ≤ u ∧ u ≤ 1) ∧ i + 1 ≤ s.numU := by
    rcases hui with ⟨rfl, rfl⟩ | ⟨rfl, rfl⟩
    · exact ⟨hu.unit.1, by norm_num, by omega⟩
    · exact ⟨hu.unit.2, by norm_num, by omega⟩
  have hV : UnitAt fl64 (endTestFl fl64) s.degreeV s.numV s.kvV v j ∧ (0 ≤ v ∧ v ≤ 1) ∧ j < s.numV := by
    rcases hvj with ⟨rfl, rfl⟩ | ⟨rfl, rfl⟩
    · exact ⟨hv.unit.1, by norm_num, by omega⟩
    · exact ⟨hv.unit.2, by norm_num, by omega⟩
  refine hU.1.surface fl64_zero ⟨hu.clamped, hv.clamped, hdu, hdv, hP⟩ hV.1 hU.2.1 hV.2.1 (fun c hc => hdbl c hc _ ?_) pt
  calc i * s.numV + j < i * s.numV + s.numV := by omega
    _ = (i + 1) * s.numV := by ring
    _ ≤ s.numU * s.numV := Nat.mul_le_mul_right _ hU.2.2

/-- **C133.** In particular if the first and the last span are powers of two, e.g. for Bézier curves and the knots
of curves fitted adaptively from there. -/
theorem exactEnds_dyadic {p n : ℕ} {U : List ℚ} (hU : Clamped p n U) (h0 : knotFn U 0 = 0) (h1 : knotFn U (n + p) = 1)
    {a b : ℕ} (ha : knotFn U (p + 1) = 1 / 2 ^ a) (hb : knotFn U (n - 1) = 1 - 1 / 2 ^ b) : ExactEnds p n U := by
  have key : ∀ a : ℕ, fl64 (fl64 (1 / 2 ^ a) * fl64 (1 / fl64 (1 / 2 ^ a))) = 1 := fun a => by
    rw [(fl64_two_pow a).1, one_div_one_div, (fl64_two_pow a).2, one_div, inv_mul_cancel₀ (by positivity),
      rounding_fl64.one]
  refine ⟨hU, h0, h1, ?_, ?_, ?_, ?_⟩
  · rw [ha]; positivity
  · rw [hb]
    have : (0 : ℚ) < 1 / 2 ^ b := by positivity
    linarith
  · rw [ha]; exact key a
  · rw [hb, sub_sub_cancel]; exact key b

/-- **C133.** And if the knots are those of `generate_uniform` with at most 20 spans. -/
theorem exactEnds_uniform {p n : ℕ} (h : p < n) (h20 : n - p ≤ 20) {U : List ℚ}
    (hU : generateUniformFl fl64 p n = .ok U) (hn : n ≤ 2 ^ 50) : ExactEnds p n U := by
  obtain ⟨U', e1, -, hc, hd, h0, h1, -, -⟩ := generate_uniform_double h hn
  rw [hU] at e1
  cases e1
  have e2 := generateUniformFl_eq h
  rw [hU] at e2
  cases e2
  set f : ℕ → ℚ := fun i => if i = n - p then 1 else vtkParam (n - p) i with hf
  have hm : (0 : ℕ) ≠ n - p := by omega
  have hk := fun {i : ℕ} hi => clampedFrom_knot (i := i) h f (by simp [hf, hm, vtkParam, fl64_zero]) (by simp [hf]) hi
  have hp0 := hc.left p le_rfl
  have hn0 := hc.right n le_rfl (by omega)
  have l1 := hd p le_rfl h
  have l2 := hd (n - 1) (by omega) (by omega)
  rw [hp0, h0] at l1
  rw [Nat.sub_add_cancel (by omega), hn0, h1] at l2
  by_cases hs : n = p + 1
  · refine exactEnds_dyadic hc h0 h1 (a := 0) (b := 0) ?_ ?_
    · rw [← hs, hn0, h1]; norm_num
    · rw [show n - 1 = p by omega, hp0, h0]; norm_num
  · obtain ⟨r1, r2⟩ := uniform_recips (n - p) (by omega) (by omega)
    have e1 : knotFn (zeros p ++ (List.range (n - p + 1)).map f ++ ones p) (p + 1) = vtkParam (n - p) 1 := by
      rw [hk (by omega), if_neg (by omega), if_pos (by omega)]
      simp only [hf, show p + 1 - p = 1 by omega, show (1 : ℕ) ≠ n - p by omega, if_false]
    have e2 : knotFn (zeros p ++ (List.range (n - p + 1)).map f ++ ones p) (n - 1) = vtkParam (n - p) (n - p - 1) := by
      rw [hk (by omega), if_neg (by omega), if_pos (by omega)]
      simp only [hf, show n - 1 - p = n - p - 1 by omega, show n - p - 1 ≠ n - p by omega, if_false]
    refine ⟨hc, h0, h1, l1, l2, ?_, ?_⟩
    · rw [e1]; exact r1
    · rw [e2]; exact r2

/-- **C133.** With 21 spans it is false: at the end of the cubic curve with uniform knots and all control points
`(1, 1, 1)` every point `single_point` can return is `(1 - 2^-53)(1, 1, 1)`. -/
theorem uniform_last_point_inexact {U : List ℚ} (hU : generateUniformFl fl64 3 24 = .ok U) (pt : List ℚ)
    (h : Curve.PointFl fl64 (endTestFl fl64) ⟨3, List.replicate 24 [1, 1, 1], U⟩ 1 pt) :
    pt = [1 - 1 / 2 ^ 53, 1 - 1 / 2 ^ 53, 1 - 1 / 2 ^ 53] := by
  have hV : ∃ V, generateUniformFl fl64 3 24 = .ok V ∧
      findSpanWith (endTestFl fl64) (spanFuel 24 3) 24 3 1 V = .ok 23 ∧
      basisFunctionsFl fl64 23 1 3 V = .ok [0, 0, 0, 1 - 1 / 2 ^ 53] :=
    ⟨_, generateUniformFl_eq (by norm_num), by decide +kernel, by decide +kernel⟩
  obtain ⟨V, e, hs', hb'⟩ := hV
  rw [hU] at e
  cases e
  obtain ⟨span, funs, -, hs, hb, c0, c1, c2, x, y, z, e0, e1, e2, -, dx, dy, dz, rfl⟩ := h
  simp only [List.length_replicate] at hs hb e0 e1 e2
  rw [hs'] at hs
  cases hs
  rw [hb'] at hb
  cases hb
  have hc : ∀ c : ℤ, 0 ≤ c ∧ c < 3 → column (pySlice (List.replicate 24 [(1 : ℚ), 1, 1]) (23 - ((3 : ℕ) : ℤ)) (23 + 1)) c
      = .ok [1, 1, 1, 1] := by
    rintro c ⟨h1, h2⟩
    interval_cases c <;> decide +kernel
  rw [hc 0 (by norm_num)] at e0
  rw [hc 1 (by norm_num)] at e1
  rw [hc 2 (by norm_num)] at e2
  cases e0
  cases e1
  cases e2
  have hr : fl64 (1 - 1 / 2 ^ 53) = 1 - 1 / 2 ^ 53 := by decide +kernel
  have hcnt : ([0, 0, 0, 1 - 1 / 2 ^ 53].zip [1, 1, 1, 1]).countP (fun x : ℚ × ℚ => x.1 * x.2 ≠ 0) = 1 := by
    decide +kernel
  have key : ∀ s, DotFl fl64 ([0, 0, 0, 1 - 1 / 2 ^ 53].zip [1, 1, 1, 1]) s → s = 1 - 1 / 2 ^ 53 := by
    intro s hs
    rcases hs.one_term fl64_zero hr (by decide +kernel) hcnt.le with ⟨-, h⟩ | ⟨h, -⟩
    · omega
    · exact h
  rw [key x dx, key y dy, key z dz]

/-! ## Witnesses -/

/-- There is such a point. -/
example : ∃ U pt, generateUniformFl fl64 3 24 = .ok U ∧
    Curve.PointFl fl64 (endTestFl fl64) ⟨3, List.replicate 24 [1, 1, 1], U⟩ 1 pt := by
  obtain ⟨U, h, -, c, d, h0, h1, -, -⟩ := generate_uniform_double (p := 3) (n := 24) (by norm_num) (by norm_num)
  have e := generateUniformFl_eq (p := 3) (n := 24) (by norm_num)
  obtain ⟨pt, hpt⟩ := (single_point_double (P := List.replicate 24 [1, 1, 1]) (u := 1) c d h0 h1
    (by rw [h] at e; cases e; decide +kernel) (by norm_num) (by norm_num) (d := 3) ⟨by simp, by decide +kernel⟩ le_rfl
    zero_le_one le_rfl).1
  exact ⟨U, pt, h, hpt⟩

/-- A cubic with 13 uniform spans, although the first inner knot is not `1/13`. -/
example {P : List (List ℚ)} (hP : Shape P 16 3) (hdbl : ∀ c < 3, ∀ i < 16, fl64 (coord P c i) = coord P c i) :
    ∃ U, generateUniformFl fl64 3 16 = .ok U ∧ knotFn U 4 ≠ 1 / 13 ∧
      ∀ pt, Curve.PointFl fl64 (endTestFl fl64) ⟨3, P, U⟩ 0 pt ↔ pt = [coord P 0 0, coord P 1 0, coord P 2 0] := by
  refine ⟨_, generateUniformFl_eq (by norm_num), by decide +kernel, fun pt => ?_⟩
  exact (single_point_ends_double (exactEnds_uniform (p := 3) (n := 16) (by norm_num) (by norm_num)
    (generateUniformFl_eq (by norm_num)) (by norm_num)) hP le_rfl hdbl pt).1

/-- Control points that are not exact decimals. -/
example (pt : List ℚ) : Curve.PointFl fl64 (endTestFl fl64)
    ⟨2, [[fl64 (1/10), fl64 (1/3), -7], [0, 1, 0], [3, 1, 0], [1, fl64 (2/7), 0]], [0, 0, 0, 1/2, 1, 1, 1]⟩ 1 pt
    ↔ pt = [1, fl64 (2/7), 0] :=
  (single_point_ends_double (d := 3) (exactEnds_dyadic (p := 2) (n := 4) (a := 1) (b := 1)
    ⟨⟨by decide +kernel, by decide +kernel, by decide⟩, by intro i hi; interval_cases i <;> decide +kernel,
      by intro i h1 h2; interval_cases i <;> decide +kernel⟩
    (by decide +kernel) (by decide +kernel) (by decide +kernel) (by decide +kernel))
    ⟨by decide, by decide +kernel⟩ le_rfl
    (by intro c hc i hi; interval_cases c <;> interval_cases i <;> decide +kernel) pt).2

/-- The corner `(1, 0)` of a patch. -/
example (pt : List ℚ) : exQuad.PointFl fl64 (endTestFl fl64) 1 0 pt ↔ pt = [1, 0, 0] :=
  have h : ExactEnds 2 3 [0, 0, 0, 1, 1, 1] := exactEnds_dyadic (a := 0) (b := 0) exQuad_clamped.cu
    (by decide +kernel) (by decide +kernel) (by decide +kernel) (by decide +kernel)
  surface_corners_double h h (by decide) (by decide) exQuad_clamped.shape
    (by intro c hc i hi
        change i < 9 at hi
        interval_cases c <;> interval_cases i <;> decide +kernel) (i := 2) (j := 0)
    (Or.inr ⟨rfl, rfl⟩) (Or.inl ⟨rfl, rfl⟩) pt

end PySpline
