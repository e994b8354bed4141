import Verif.Lemmas.RoundedAux
import Verif.Lemmas.Rounded
import Verif.Props.Surface
import Verif.Props.IO

/-!
# C98–C99: evaluation in rounded arithmetic
-/

set_option linter.unusedSectionVars false

namespace PySpline

open Polynomial Spec

section
variable {K : Type} [Field K] [LinearOrder K] [IsStrictOrderedRing K]

/-! ## With exact arithmetic the rounded model is the exact one -/

theorem basisFunctionsFl_id (span : ℤ) (u : K) (p : ℕ) (U : List K) :
    basisFunctionsFl id span u p U = basisFunctions span u p U := by
  unfold basisFunctionsFl basisFunctions
  simp only [pyDivFl_id, id]

/-! ## Basis functions -/

/-- **C98.** On a non-empty span, for a parameter of the closed span, `basis_functions` in rounded
arithmetic raises nothing, divides by nothing that is zero, and returns non-negative values that
differ from the exact ones by a factor of at most `(1 / ρ) ^ (6 * degree)`. -/
theorem basis_functions_rounded {ρ : K} {fl : K → K} (hf : Accurate ρ fl) {U : List K}
    (hU : U.Pairwise (· ≤ ·)) {k p : ℕ} {u : K} (hp : p ≤ k) (hk : k + p < U.length)
    (hs : knotFn U k < knotFn U (k + 1)) (h1 : knotFn U k ≤ u) (h2 : u ≤ knotFn U (k + 1)) :
    ∃ N N', basisFunctions (k : ℤ) u p U = .ok N ∧ basisFunctionsFl fl (k : ℤ) u p U = .ok N' ∧
      N'.length = p + 1 ∧ ∀ r ≤ p, 0 ≤ N'.getD r 0 ∧ N.getD r 0 * ρ ^ (6 * p) ≤ N'.getD r 0 ∧
        N'.getD r 0 * ρ ^ (6 * p) ≤ N.getD r 0 ∧
        |N'.getD r 0 - N.getD r 0| ≤ ((1 / ρ) ^ (6 * p) - 1) * N.getD r 0 := by
  obtain ⟨N', e, hl, hN⟩ := basisFunctionsFl_near hf (monotone_knotFn hU) hp hk hs h1 h2
  refine ⟨_, N', basis_functions_pieces hU u hp hk hs, e, hl, fun r hr => ?_⟩
  have h := hN r hr
  have e : ((List.range (p + 1)).map fun r => (piece (knotFn U) k p (k - p + r)).eval u).getD r 0
      = (piece (knotFn U) k p (k - p + r)).eval u := by
    simp [List.getD_eq_getElem?_getD, show r < p + 1 by omega]
  rw [e]
  exact ⟨h.nonneg hf.pos, h.2.1, h.2.2, h.abs_sub_le hf.pos hf.le_one⟩

/-- **C98.** The exact sum of the returned values differs from 1 by at most `(1 / ρ) ^ (6 p) - 1`. -/
theorem basis_functions_rounded_sum {ρ : K} {fl : K → K} (hf : Accurate ρ fl) {U : List K}
    (hU : U.Pairwise (· ≤ ·)) {k p : ℕ} {u : K} (hp : p ≤ k) (hk : k + p < U.length)
    (hs : knotFn U k < knotFn U (k + 1)) (h1 : knotFn U k ≤ u) (h2 : u ≤ knotFn U (k + 1)) :
    ∃ N, basisFunctionsFl fl (k : ℤ) u p U = .ok N ∧ |N.sum - 1| ≤ (1 / ρ) ^ (6 * p) - 1 := by
  obtain ⟨N', e, hl, hN⟩ := basisFunctionsFl_near hf (monotone_knotFn hU) hp hk hs h1 h2
  refine ⟨N', e, ?_⟩
  have := (Approx.sum (n := p + 1) (g := 1 / ρ) fun r hr =>
    (hN r (by omega)).approx hf.pos hf.le_one).2
  have e1 : ∑ r ∈ Finset.range (p + 1), (piece (knotFn U) k p (k - p + r)).eval u = 1 := by
    have := congrArg (eval u) (sum_pieces_range (monotone_knotFn hU) hp hs)
    rw [eval_finsetSum] at this
    simpa using this
  rw [e1, ← sum_map_range, ← eq_map_range hl fun r _ => rfl, mul_one] at this
  exact this

/-! ## Curves -/

/-- **C99.** Whatever the order of the summation: a point computed by `single_point` in rounded
arithmetic differs from the exact point, in each coordinate, by at most
`((1 / ρ) ^ (7 p + 1) - 1) ∑ |P_i| N_i(u)`; and a point is returned. -/
theorem single_point_rounded {ρ : K} {fl : K → K} (hr : Rounding fl) (hf : Accurate ρ fl)
    {close : K → K → Bool} (hrefl : ∀ x, close x x = true) {p n d : ℕ} {U : List K}
    {P : List (List K)} {u : K} (hU : Clamped p n U) (hp : 1 ≤ p) (hP : Shape P n d) (hd : 3 ≤ d)
    (h0 : 0 ≤ u) (h1 : u ≤ 1) (hreg : Regular p n U u)
    (hlast : close u (knotFn U n) = true → knotFn U (n - 1) ≤ u) :
    (∃ pt, Curve.PointFl fl close ⟨p, P, U⟩ u pt) ∧
    ∀ pt, Curve.PointFl fl close ⟨p, P, U⟩ u pt → pt.length = 3 ∧ ∀ c < 3,
      |pt.getD c 0 - curve (knotFn U) p n (coord P c) u| ≤ ((1 / ρ) ^ (7 * p + 1) - 1)
        * curve (knotFn U) p n (fun i => |coord P c i|) u := by
  obtain ⟨m, hm, hpm, hmn, hb1, hb2, hs⟩ := findSpanWith_regular hU.toKnotVector hrefl hreg.lo hreg.hi
    hreg.simple hlast
  have hlen := hU.len
  obtain ⟨N, hN, hNl, hnear⟩ := basisFunctionsFl_near hf (monotone_knotFn hU.mono) hpm (by omega) hs hb1 hb2
  have hPl := hP.1
  have hsl : pySlice P ((m : ℤ) - p) ((m : ℤ) + 1) = (List.range (p + 1)).map fun r => P.getD (m - p + r) [] :=
    pySlice_nat P _ _ (m - p) (p + 1) [] (by omega) (by omega) (by omega)
  have hc : ∀ c < 3, ∀ r < p + 1, c < (P.getD (m - p + r) []).length := fun c hc r hr => by
    rw [hP.row (by omega)]; omega
  have hcol : ∀ c < 3, column (pySlice P ((m : ℤ) - p) ((m : ℤ) + 1)) ((c : ℕ) : ℤ)
      = .ok ((List.range (p + 1)).map fun r => coord P c (m - p + r)) := fun c h => by
    rw [hsl]; exact column_rows P _ _ c c rfl (hc c h)
  have hval : ∀ c s, DotFl fl (N.zip ((List.range (p + 1)).map fun r => coord P c (m - p + r))) s →
      |s - curve (knotFn U) p n (coord P c) u| ≤ ((1 / ρ) ^ (7 * p + 1) - 1)
        * curve (knotFn U) p n (fun i => |coord P c i|) u := by
    intro c s h
    have hcur : ∀ e : ℕ → K, ∑ r ∈ Finset.range (p + 1),
        (piece (knotFn U) m p (m - p + r)).eval u * e (m - p + r) = curve (knotFn U) p n e u := by
      intro e
      rw [sum_active (n := n) (f := fun i => (piece (knotFn U) m p i).eval u) hpm hmn]
      · unfold curve
        refine Finset.sum_congr rfl fun i hi => ?_
        rw [piece_eq_Nclosed hU hp hreg hmn hpm hb1 hb2 hs i (Finset.mem_range.1 hi)]
      · rintro i (h | h)
        · rw [piece_eq_zero_of_gt _ _ _ _ h, eval_zero]
        · rw [piece_eq_zero_of_lt _ _ _ _ h, eval_zero]
    have := DotFl.approx hr hf (k := 6 * p) (n := p + 1)
      (y := fun r => (piece (knotFn U) m p (m - p + r)).eval u * coord P c (m - p + r))
      (B := fun r => (piece (knotFn U) m p (m - p + r)).eval u * |coord P c (m - p + r)|)
      hNl (by simp) (fun r hr' => by
        have e : ((List.range (p + 1)).map fun r => coord P c (m - p + r)).getD r 0 = coord P c (m - p + r) := by
          simp [List.getD_eq_getElem?_getD, hr']
        rw [e]
        exact ((hnear r (by omega)).approx hf.pos hf.le_one).mul hf.one_le
          (Approx.refl hf.one_le 0 (coord P c (m - p + r)))) h
    have h2 := this.2
    rw [hcur (coord P c), hcur fun i => |coord P c i|,
      show 6 * p + (p + 1) = 7 * p + 1 by omega] at h2
    exact h2
  constructor
  · have hne : ∀ c, N.zip ((List.range (p + 1)).map fun r => coord P c (m - p + r)) ≠ [] := by
      intro c h
      have := congrArg List.length h
      simp [hNl] at this
    obtain ⟨x, hx⟩ := DotFl.exists fl (hne 0)
    obtain ⟨y, hy⟩ := DotFl.exists fl (hne 1)
    obtain ⟨z, hz⟩ := DotFl.exists fl (hne 2)
    refine ⟨[x, y, z], m, N, (validateKnot_iff u).2 ⟨h0, h1⟩, ?_, hN, _, _, _, x, y, z,
      hcol 0 (by omega), hcol 1 (by omega), hcol 2 (by omega), ?_, hx, hy, hz, rfl⟩
    · simpa [hPl] using hm
    · show N.length = (pySlice P ((m : ℤ) - p) ((m : ℤ) + 1)).length
      rw [hsl]; simp [hNl]
  · rintro pt ⟨span, funs, -, hspan, hfuns, col0, col1, col2, x, y, z, c0, c1, c2, -, dx, dy, dz, rfl⟩
    simp only [hPl] at hspan hfuns c0 c1 c2
    rw [hm] at hspan
    cases hspan
    rw [hN] at hfuns
    cases hfuns
    have a0 := (hcol 0 (by omega)).symm.trans c0
    have a1 := (hcol 1 (by omega)).symm.trans c1
    have a2 := (hcol 2 (by omega)).symm.trans c2
    cases a0
    cases a1
    cases a2
    refine ⟨rfl, fun c hc => ?_⟩
    interval_cases c
    · exact hval 0 x dx
    · exact hval 1 y dy
    · exact hval 2 z dz

/-! ## Surfaces -/

/-- **C99** for surfaces: the error is at most `((1 / ρ) ^ (7 p + 7 q + 2) - 1) ∑ |P_ij| N_i(u) N_j(v)`
in each coordinate; and a point is returned. -/
theorem surface_point_rounded {ρ : K} {fl : K → K} (hr : Rounding fl) (hf : Accurate ρ fl)
    {close : K → K → Bool} (hrefl : ∀ x, close x x = true) {s : Surface K} (hs : ClampedSurface s) {u v : K}
    (hu : 0 ≤ u ∧ u ≤ 1) (hv : 0 ≤ v ∧ v ≤ 1) (hru : Regular s.degreeU s.numU s.kvU u)
    (hrv : Regular s.degreeV s.numV s.kvV v)
    (hlu : close u (knotFn s.kvU s.numU) = true → knotFn s.kvU (s.numU - 1) ≤ u)
    (hlv : close v (knotFn s.kvV s.numV) = true → knotFn s.kvV (s.numV - 1) ≤ v) :
    (∃ pt, s.PointFl fl close u v pt) ∧
    ∀ pt, s.PointFl fl close u v pt → pt.length = 3 ∧ ∀ c < 3,
      |pt.getD c 0 - surface (knotFn s.kvU) s.degreeU s.numU (knotFn s.kvV) s.degreeV s.numV
        (coord s.ctrlpts c) u v| ≤ ((1 / ρ) ^ (7 * s.degreeU + 7 * s.degreeV + 2) - 1)
        * surface (knotFn s.kvU) s.degreeU s.numU (knotFn s.kvV) s.degreeV s.numV
          (fun i => |coord s.ctrlpts c i|) u v := by
  have hok := hs.ok
  obtain ⟨m, hm, hm1, hm2, hm3, hm4, hm5⟩ := findSpanWith_regular hok.ku hrefl hru.lo hru.hi hru.simple hlu
  obtain ⟨k, hk, hk1, hk2, hk3, hk4, hk5⟩ := findSpanWith_regular hok.kv hrefl hrv.lo hrv.hi hrv.simple hlv
  have l1 := hok.ku.len
  have l2 := hok.kv.len
  obtain ⟨bu, hbu, hbul, hbun⟩ :=
    basisFunctionsFl_near hf (monotone_knotFn hok.ku.mono) hm1 (by omega) hm5 hm3 hm4
  obtain ⟨bv, hbv, hbvl, hbvn⟩ :=
    basisFunctionsFl_near hf (monotone_knotFn hok.kv.mono) hk1 (by omega) hk5 hk3 hk4
  have hcol : ∀ c : ℕ, c < 3 → column s.ctrlpts (c : ℤ)
      = .ok ((List.range (s.numU * s.numV)).map (coord s.ctrlpts c)) := fun c h =>
    column_all hok.shape c c rfl h
  have hsl : ∀ c, slice2 ((List.range s.numU).map fun i => (List.range s.numV).map fun j =>
        coord s.ctrlpts c (i * s.numV + j)) ((m : ℤ) - s.degreeU) ((m : ℤ) + 1)
        ((k : ℤ) - s.degreeV) ((k : ℤ) + 1)
      = (List.range (s.degreeU + 1)).map fun i => (List.range (s.degreeV + 1)).map fun j =>
        coord s.ctrlpts c ((m - s.degreeU + i) * s.numV + (k - s.degreeV + j)) := fun c =>
    slice2_map_range (fun i j => coord s.ctrlpts c (i * s.numV + j)) (by omega) (by omega)
      (by omega) (by omega) (by omega) (by omega)
  have hval : ∀ c x, BilinearFl fl bu ((List.range (s.degreeU + 1)).map fun i =>
      (List.range (s.degreeV + 1)).map fun j =>
        coord s.ctrlpts c ((m - s.degreeU + i) * s.numV + (k - s.degreeV + j))) bv x →
      |x - surface (knotFn s.kvU) s.degreeU s.numU (knotFn s.kvV) s.degreeV s.numV
        (coord s.ctrlpts c) u v| ≤ ((1 / ρ) ^ (7 * s.degreeU + 7 * s.degreeV + 2) - 1)
        * surface (knotFn s.kvU) s.degreeU s.numU (knotFn s.kvV) s.degreeV s.numV
          (fun i => |coord s.ctrlpts c i|) u v := by
    intro c x hx
    have hsum : ∀ e : ℕ → K, ∑ i ∈ Finset.range (s.degreeU + 1), ∑ j ∈ Finset.range (s.degreeV + 1),
        (piece (knotFn s.kvU) m s.degreeU (m - s.degreeU + i)).eval u
          * e ((m - s.degreeU + i) * s.numV + (k - s.degreeV + j))
          * (piece (knotFn s.kvV) k s.degreeV (k - s.degreeV + j)).eval v
        = surface (knotFn s.kvU) s.degreeU s.numU (knotFn s.kvV) s.degreeV s.numV e u v := by
      intro e
      rw [sum_active2 (c := fun i j => e (i * s.numV + j))
        (f := fun i => (piece (knotFn s.kvU) m s.degreeU i).eval u)
        (g := fun j => (piece (knotFn s.kvV) k s.degreeV j).eval v) hm1 hm2 hk1 hk2]
      · unfold surface
        refine Finset.sum_congr rfl fun i hi => Finset.sum_congr rfl fun j hj => ?_
        rw [piece_eq_Nclosed hs.cu hs.du hru hm2 hm1 hm3 hm4 hm5 i (Finset.mem_range.1 hi),
          piece_eq_Nclosed hs.cv hs.dv hrv hk2 hk1 hk3 hk4 hk5 j (Finset.mem_range.1 hj)]
      all_goals
        rintro i (h | h)
        · rw [piece_eq_zero_of_gt _ _ _ _ h, eval_zero]
        · rw [piece_eq_zero_of_lt _ _ _ _ h, eval_zero]
    have := (BilinearFl.approx hr hf (k := 6 * s.degreeU) (l := 6 * s.degreeV)
      (fun i j => coord s.ctrlpts c ((m - s.degreeU + i) * s.numV + (k - s.degreeV + j))) (by omega)
      hbul hbvl (fun i hi => hbun i (by omega)) (fun j hj => hbvn j (by omega)) hx).2
    rw [hsum (coord s.ctrlpts c), hsum fun i => |coord s.ctrlpts c i|] at this
    rwa [show 6 * s.degreeU + (s.degreeU + 1) + 6 * s.degreeV + (s.degreeV + 1)
      = 7 * s.degreeU + 7 * s.degreeV + 2 by omega] at this
  constructor
  · have hex := fun c => BilinearFl.exists fl (bu := bu) (bv := bv)
      (fun i j => coord s.ctrlpts c ((m - s.degreeU + i) * s.numV + (k - s.degreeV + j)))
      (a := s.degreeU + 1) (b := s.degreeV + 1) (by omega) (by omega) hbul hbvl
    obtain ⟨x, hx⟩ := hex 0
    obtain ⟨y, hy⟩ := hex 1
    obtain ⟨z, hz⟩ := hex 2
    rw [← hsl] at hx hy hz
    exact ⟨[x, y, z], m, k, bu, bv, (validateKnot_iff u).2 hu, (validateKnot_iff v).2 hv, hm, hk, hbu, hbv,
      _, _, _, _, _, _, x, y, z, hcol 0 (by omega), hcol 1 (by omega), hcol 2 (by omega),
      reshape2_map_range _ _ _, reshape2_map_range _ _ _, reshape2_map_range _ _ _, hx, hy, hz, rfl⟩
  · rintro pt ⟨uS, vS, bu', bv', -, -, e1, e2, e3, e4, cx, cy, cz, xa, ya, za, x, y, z, c0, c1, c2,
      r0, r1, r2, dx, dy, dz, rfl⟩
    rw [hm] at e1
    cases e1
    rw [hk] at e2
    cases e2
    rw [hbu] at e3
    cases e3
    rw [hbv] at e4
    cases e4
    have a0 := (hcol 0 (by omega)).symm.trans c0
    have a1 := (hcol 1 (by omega)).symm.trans c1
    have a2 := (hcol 2 (by omega)).symm.trans c2
    cases a0
    cases a1
    cases a2
    rw [reshape2_map_range] at r0 r1 r2
    cases r0
    cases r1
    cases r2
    rw [hsl] at dx dy dz
    refine ⟨rfl, fun c hc => ?_⟩
    interval_cases c
    · exact hval 0 x dx
    · exact hval 1 y dy
    · exact hval 2 z dz

/-! ## Exact arithmetic again -/

/-- With exact arithmetic the possible result is the result of the exact model. -/
theorem Curve.PointFl_id {p n d : ℕ} {U : List K} {P : List (List K)} {u : K} (hU : Clamped p n U) (hp : 1 ≤ p)
    (hP : Shape P n d) (hd : 3 ≤ d) (h0 : 0 ≤ u) (h1 : u ≤ 1) (hreg : Regular p n U u) (pt : List K) :
    Curve.PointFl id (endTestFl id) ⟨p, P, U⟩ u pt ↔ Curve.singlePoint ⟨p, P, U⟩ u = .ok pt := by
  obtain ⟨⟨q, hq⟩, hall⟩ := single_point_rounded rounding_id accurate_id
    (close := endTestFl id) (fun x => isclose_refl x (1 / 10 ^ 6) atolDefault (by positivity) (by unfold atolDefault; positivity))
    hU hp hP hd h0 h1 hreg
    (fun h => hreg.last (by simpa [endTestFl, iscloseFl, atolDefault] using h))
  have key : ∀ pt, Curve.PointFl id (endTestFl id) ⟨p, P, U⟩ u pt → pt = [curve (knotFn U) p n (coord P 0) u,
      curve (knotFn U) p n (coord P 1) u, curve (knotFn U) p n (coord P 2) u] := by
    intro pt hpt
    obtain ⟨hl, he⟩ := hall pt hpt
    have e : ∀ c < 3, pt.getD c 0 = curve (knotFn U) p n (coord P c) u := by
      intro c hc
      have := he c hc
      simpa [sub_eq_zero] using this
    match pt, hl with
    | [x, y, z], _ =>
      have e0 := e 0 (by omega)
      have e1 := e 1 (by omega)
      have e2 := e 2 (by omega)
      simp at e0 e1 e2
      rw [e0, e1, e2]
  rw [single_point_bspline_sum hU hp hP hd h0 h1 hreg]
  constructor
  · intro h; rw [key pt h]
  · intro h
    rw [← Except.ok.inj h, ← key q hq]
    exact hq

end

end PySpline
