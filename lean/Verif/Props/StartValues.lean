import Verif.Lemmas.StartValues
import Verif.Props.CurveMore
import Verif.Props.SurfaceInversion

/-!
# C132: the start values of the inversion are nearly closest
-/

set_option linter.unusedSectionVars false

namespace PySpline

open Spec Finset

section
variable {K : Type} [Field K] [LinearOrder K] [IsStrictOrderedRing K]

/-- **C132**, curves.  The point at the parameter returned by `initial_guess_curve` is at most by the norm of
`L / (2 (2n - 1))` farther from the given point than any point of the curve, `L k` being the Lipschitz constant of
coordinate `k` from C119, provided some point of the curve is closer than `1e6` by as much. -/
theorem initial_guess_curve_near (nm : Num K) (hnm : IsNorm nm.norm) {p n : ℕ} {U : List K} {P : List (List K)}
    (hU : Clamped p n U) (hp : 1 ≤ p) (hP : Shape P n 3) (hr : AllRegular p n U) {C : CurveLike K}
    (hC : C.numCtrl = n ∧ C.singlePoint = Curve.singlePoint ⟨p, P, U⟩) {x y z : K} {L : ℕ → K}
    (hL : ∀ k < 3, ∀ i, i + 1 < n →
      |coord P k (i + 1) - coord P k i| * p ≤ L k * (knotFn U (i + p + 1) - knotFn U (i + 1))) :
    let S : ℕ → K → K := fun k => curve (knotFn U) p n (coord P k)
    let e : ℕ → K := fun k => L k * (1 / (2 * (2 * n - 1)))
    (∃ u, 0 ≤ u ∧ u ≤ 1 ∧ nm.norm [x - S 0 u, y - S 1 u, z - S 2 u] + nm.norm [e 0, e 1, e 2] < 10 ^ 6) →
    ∃ u0, initialGuessCurve nm C [x, y, z] = .ok u0 ∧ 0 ≤ u0 ∧ u0 ≤ 1 ∧
      ∀ u, 0 ≤ u → u ≤ 1 → nm.norm [x - S 0 u0, y - S 1 u0, z - S 2 u0]
        ≤ nm.norm [x - S 0 u, y - S 1 u, z - S 2 u] + nm.norm [e 0, e 1, e 2] := by
  intro S e hclose
  obtain ⟨hC1, hC2⟩ := hC
  subst hC1
  have hn := (Nat.zero_le _).trans_lt hU.size
  have hg : ∀ a : ℕ, (a : K) / (((2 * C.numCtrl : ℕ) : K) - 1) = (a : K) / (2 * C.numCtrl - 1) := fun a => by
    push_cast; rfl
  obtain ⟨k, hk, h0, h1, -⟩ := initial_guess_curve_nearest nm C [x, y, z] hn
    (fun a => [S 0 ((a : K) / (2 * C.numCtrl - 1)), S 1 ((a : K) / (2 * C.numCtrl - 1)),
      S 2 ((a : K) / (2 * C.numCtrl - 1))]) fun a ha => ⟨by
        have A := grid_mem_unit (K := K) ha
        rw [hg] at A ⊢
        rw [hC2]
        exact single_point_bspline_sum hU hp hP le_rfl A.1 A.2 (hr _ A.1 A.2), by simp⟩
  -- every parameter has a near grid parameter
  have near : ∀ u, 0 ≤ u → u ≤ 1 → ∃ a < 2 * C.numCtrl,
      nm.norm [x - S 0 ((a : K) / (2 * C.numCtrl - 1)), y - S 1 ((a : K) / (2 * C.numCtrl - 1)),
        z - S 2 ((a : K) / (2 * C.numCtrl - 1))]
      ≤ nm.norm [x - S 0 u, y - S 1 u, z - S 2 u] + nm.norm [e 0, e 1, e 2] := by
    intro u hu0 hu1
    obtain ⟨a, ha, hd⟩ := nearest_grid (K := K) hn hu0 hu1
    refine ⟨a, ha, ?_⟩
    have A := grid_mem_unit (K := K) ha
    rw [hg] at A
    set g : K := (a : K) / (2 * C.numCtrl - 1) with hgdef
    have ru := hr u hu0 hu1
    have rg := hr g A.1 A.2
    have hLn : ∀ k < 3, 0 ≤ L k := by
      intro k hk
      have r0 := hr 0 le_rfl zero_le_one
      have r1 := hr 1 zero_le_one le_rfl
      simpa using (abs_nonneg _).trans (curve_lipschitz_abs hU hp (hL k hk) ⟨r0.lo, r0.hi⟩ ⟨r1.lo, r1.hi⟩)
    have hlip : ∀ k < 3, |S k u - S k g| ≤ e k := by
      intro k hk
      refine (curve_lipschitz_abs hU hp (hL k hk) ⟨rg.lo, rg.hi⟩ ⟨ru.lo, ru.hi⟩).trans ?_
      exact mul_le_mul_of_nonneg_left hd (hLn k hk)
    have t := hnm.triangle (x - S 0 u) (y - S 1 u) (z - S 2 u) (S 0 u - S 0 g) (S 1 u - S 1 g) (S 2 u - S 2 g)
    simp only [sub_add_sub_cancel] at t
    exact t.trans (add_le_add_right (hnm.mono (hlip 0 (by norm_num)) (hlip 1 (by norm_num)) (hlip 2 (by norm_num))) _)
  obtain ⟨u, hu0, hu1, hu⟩ := hclose
  obtain ⟨a, ha, hd⟩ := near u hu0 hu1
  have hmin := (h1 ⟨a, ha, lt_of_le_of_lt (by simpa using hd) hu⟩).1
  have A := grid_mem_unit (K := K) hk
  rw [hg] at h0 A
  refine ⟨_, h0, A.1, A.2, fun v hv0 hv1 => ?_⟩
  obtain ⟨b, hb, hd⟩ := near v hv0 hv1
  exact (by simpa using hmin b hb : _ ≤ _).trans hd

/-- **C132**, surfaces.  The same with the Lipschitz constants `L k`, `M k` of coordinate `k` in both directions. -/
theorem initial_guess_surf_near (nm : Num K) (hnm : IsNorm nm.norm) (norm : List K → K) {s : Surface K}
    (hs : ClampedSurface s) (ru : AllRegular s.degreeU s.numU s.kvU) (rv : AllRegular s.degreeV s.numV s.kvV)
    {x y z : K} {L M : ℕ → K}
    (hL : ∀ k < 3, ∀ i j, i + 1 < s.numU → j < s.numV →
      |coord s.ctrlpts k ((i + 1) * s.numV + j) - coord s.ctrlpts k (i * s.numV + j)| * s.degreeU
        ≤ L k * (knotFn s.kvU (i + s.degreeU + 1) - knotFn s.kvU (i + 1)))
    (hM : ∀ k < 3, ∀ i j, i < s.numU → j + 1 < s.numV →
      |coord s.ctrlpts k (i * s.numV + (j + 1)) - coord s.ctrlpts k (i * s.numV + j)| * s.degreeV
        ≤ M k * (knotFn s.kvV (j + s.degreeV + 1) - knotFn s.kvV (j + 1))) :
    let e : ℕ → K := fun k => L k * (1 / (2 * (2 * s.numU - 1))) + M k * (1 / (2 * (2 * s.numV - 1)))
    let dist : K → K → K := fun u v => nm.norm [x - s.value 0 u v, y - s.value 1 u v, z - s.value 2 u v]
    (∃ u v, (0 ≤ u ∧ u ≤ 1) ∧ (0 ≤ v ∧ v ≤ 1) ∧ dist u v + nm.norm [e 0, e 1, e 2] < 10 ^ 6) →
    ∃ u0 v0, initialGuessSurf nm (s.like norm) [x, y, z] = .ok (u0, v0) ∧ (0 ≤ u0 ∧ u0 ≤ 1) ∧ (0 ≤ v0 ∧ v0 ≤ 1) ∧
      ∀ u v, (0 ≤ u ∧ u ≤ 1) → (0 ≤ v ∧ v ≤ 1) → dist u0 v0 ≤ dist u v + nm.norm [e 0, e 1, e 2] := by
  intro e dist hclose
  have hnu := (Nat.zero_le _).trans_lt hs.cu.size
  have hnv := (Nat.zero_le _).trans_lt hs.cv.size
  have hg : ∀ n a : ℕ, (a : K) / (((2 * n : ℕ) : K) - 1) = (a : K) / (2 * n - 1) := fun n a => by push_cast; rfl
  obtain ⟨a, ha, b, hb, h0, h1⟩ := initial_guess_surf_bspline nm norm hs ru rv (x := x) (y := y) (z := z)
  have near : ∀ u v, (0 ≤ u ∧ u ≤ 1) → (0 ≤ v ∧ v ≤ 1) → ∃ i < 2 * s.numU, ∃ j < 2 * s.numV,
      dist ((i : K) / (2 * s.numU - 1)) ((j : K) / (2 * s.numV - 1)) ≤ dist u v + nm.norm [e 0, e 1, e 2] := by
    intro u v hu hv
    obtain ⟨i, hi, hdi⟩ := nearest_grid (K := K) hnu hu.1 hu.2
    obtain ⟨j, hj, hdj⟩ := nearest_grid (K := K) hnv hv.1 hv.2
    refine ⟨i, hi, j, hj, ?_⟩
    have A := grid_mem_unit (K := K) hi
    have B := grid_mem_unit (K := K) hj
    rw [hg] at A B
    set g : K := (i : K) / (2 * s.numU - 1) with hgdef
    set h : K := (j : K) / (2 * s.numV - 1) with hhdef
    have ru' := ru u hu.1 hu.2
    have rg := ru g A.1 A.2
    have rv' := rv v hv.1 hv.2
    have rh := rv h B.1 B.2
    have r0 := ru 0 le_rfl zero_le_one
    have r1 := ru 1 zero_le_one le_rfl
    have q0 := rv 0 le_rfl zero_le_one
    have q1 := rv 1 zero_le_one le_rfl
    have hlip : ∀ k < 3, |s.value k u v - s.value k g h| ≤ e k := by
      intro k hk
      have lip := fun {a b c d : K} => surface_lipschitz hs.cu hs.cv hs.du hs.dv (hL k hk) (hM k hk) (s := a) (t := b)
        (u := c) (v := d)
      have hLn : 0 ≤ L k := by
        simpa using (abs_nonneg _).trans (lip ⟨r1.lo, r1.hi⟩ ⟨r0.lo, r0.hi⟩ ⟨q0.lo, q0.hi⟩ ⟨q0.lo, q0.hi⟩)
      have hMn : 0 ≤ M k := by
        simpa using (abs_nonneg _).trans (lip ⟨r0.lo, r0.hi⟩ ⟨r0.lo, r0.hi⟩ ⟨q1.lo, q1.hi⟩ ⟨q0.lo, q0.hi⟩)
      exact (lip ⟨ru'.lo, ru'.hi⟩ ⟨rg.lo, rg.hi⟩ ⟨rv'.lo, rv'.hi⟩ ⟨rh.lo, rh.hi⟩).trans
        (add_le_add (mul_le_mul_of_nonneg_left hdi hLn) (mul_le_mul_of_nonneg_left hdj hMn))
    have t := hnm.triangle (x - s.value 0 u v) (y - s.value 1 u v) (z - s.value 2 u v)
      (s.value 0 u v - s.value 0 g h) (s.value 1 u v - s.value 1 g h) (s.value 2 u v - s.value 2 g h)
    simp only [sub_add_sub_cancel] at t
    exact t.trans (add_le_add_right (hnm.mono (hlip 0 (by norm_num)) (hlip 1 (by norm_num)) (hlip 2 (by norm_num))) _)
  obtain ⟨u, v, hu, hv, hd⟩ := hclose
  obtain ⟨i, hi, j, hj, hij⟩ := near u v hu hv
  have hmin := h1 ⟨i, hi, j, hj, lt_of_le_of_lt hij hd⟩
  have A := grid_mem_unit (K := K) ha
  have B := grid_mem_unit (K := K) hb
  rw [hg] at A B
  refine ⟨_, _, h0, A, B, fun u v hu hv => ?_⟩
  obtain ⟨i, hi, j, hj, hij⟩ := near u v hu hv
  exact (hmin i hi j hj).trans hij

end

/-! ## Witnesses -/

/-- The exact distance of the point returned first is at most `28/11` above the distance of the curve. -/
example : ∃ u0, initialGuessCurve exNum (Curve.like exNum.norm ⟨2, exP, exU⟩) [2, 3, 1] = .ok u0 ∧ 0 ≤ u0 ∧ u0 ≤ 1 ∧
    ∀ u, 0 ≤ u → u ≤ 1 →
      exNum.norm [2 - curve (knotFn exU) 2 6 (coord exP 0) u0, 3 - curve (knotFn exU) 2 6 (coord exP 1) u0,
        1 - curve (knotFn exU) 2 6 (coord exP 2) u0]
      ≤ exNum.norm [2 - curve (knotFn exU) 2 6 (coord exP 0) u, 3 - curve (knotFn exU) 2 6 (coord exP 1) u,
        1 - curve (knotFn exU) 2 6 (coord exP 2) u] + 28 / 11 := by
  have h := initial_guess_curve_near exNum isNorm_sum (L := fun k => if k = 0 then 8 else if k = 1 then 32 else 16)
    exU_clamped (by decide) exP_shape (fun _ h0 h1 => exU_regular h0 h1)
    (C := Curve.like exNum.norm ⟨2, exP, exU⟩) (x := 2) (y := 3) (z := 1) ⟨rfl, rfl⟩
    (by intro k hk i hi
        have : i < 5 := by omega
        interval_cases k <;> interval_cases i <;> decide +kernel)
    ⟨0, le_rfl, zero_le_one, by decide +kernel⟩
  have e : exNum.norm [(8 : ℚ) * (1 / (2 * (2 * ((6 : ℕ) : ℚ) - 1))), 32 * (1 / (2 * (2 * ((6 : ℕ) : ℚ) - 1))),
      16 * (1 / (2 * (2 * ((6 : ℕ) : ℚ) - 1)))] = 28 / 11 := by decide +kernel
  obtain ⟨u0, h0, hu0, hu1, h⟩ := h
  exact ⟨u0, h0, hu0, hu1, fun u h0 h1 => (h u h0 h1).trans (le_of_eq (congrArg _ e))⟩

example : initialGuessCurve exNum (Curve.like exNum.norm ⟨2, exP, exU⟩) [2, 3, 1] = .ok (9/11) := by decide +kernel

/-- On the flat patch the point is within `1/5` of closest. -/
example : ∃ u0 v0, initialGuessSurf exNum (exQuad.like exNum.norm) [1/3, 1/4, 1] = .ok (u0, v0) ∧
    (0 ≤ u0 ∧ u0 ≤ 1) ∧ (0 ≤ v0 ∧ v0 ≤ 1) ∧ ∀ u v, (0 ≤ u ∧ u ≤ 1) → (0 ≤ v ∧ v ≤ 1) →
      exNum.norm [1/3 - exQuad.value 0 u0 v0, 1/4 - exQuad.value 1 u0 v0, 1 - exQuad.value 2 u0 v0]
      ≤ exNum.norm [1/3 - exQuad.value 0 u v, 1/4 - exQuad.value 1 u v, 1 - exQuad.value 2 u v] + 1 / 5 := by
  have h := initial_guess_surf_near exNum isNorm_sum exNum.norm (x := 1/3) (y := 1/4) (z := 1)
    (L := fun k => if k = 0 then 1 else 0) (M := fun k => if k = 1 then 1 else 0) exQuad_clamped exQuad_regular
    exQuad_regular
    (by intro k hk i j hi hj
        change i + 1 < 3 at hi; change j < 3 at hj
        have : i < 2 := by omega
        interval_cases k <;> interval_cases i <;> interval_cases j <;> decide +kernel)
    (by intro k hk i j hi hj
        change i < 3 at hi; change j + 1 < 3 at hj
        have : j < 2 := by omega
        interval_cases k <;> interval_cases i <;> interval_cases j <;> decide +kernel)
    ⟨0, 0, by norm_num, by norm_num, by decide +kernel⟩
  have e : exNum.norm [(1 : ℚ) * (1 / (2 * (2 * ((3 : ℕ) : ℚ) - 1))) + 0 * (1 / (2 * (2 * ((3 : ℕ) : ℚ) - 1))),
      0 * (1 / (2 * (2 * ((3 : ℕ) : ℚ) - 1))) + 1 * (1 / (2 * (2 * ((3 : ℕ) : ℚ) - 1))),
      0 * (1 / (2 * (2 * ((3 : ℕ) : ℚ) - 1))) + 0 * (1 / (2 * (2 * ((3 : ℕ) : ℚ) - 1)))] = 1 / 5 := by decide +kernel
  obtain ⟨u0, v0, h0, hu, hv, h⟩ := h
  exact ⟨u0, v0, h0, hu, hv, fun u v hu hv => (h u v hu hv).trans (le_of_eq (congrArg _ e))⟩

example : initialGuessSurf exNum (exQuad.like exNum.norm) [1/3, 1/4, 1] = .ok (2/5, 1/5) := by decide +kernel

/-- `np.linalg.norm(r, 2)` is such a norm. -/
example : IsNorm euclid := isNorm_euclid

end PySpline
