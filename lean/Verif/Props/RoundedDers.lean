import Verif.Lemmas.RoundedDersAll
import Verif.Lemmas.RoundedDersSurf
import Verif.Props.Rounded
import Verif.Props.Ders

/-!
# C140–C141: derivatives in rounded arithmetic
-/

set_option linter.unusedSectionVars false

namespace PySpline

open Polynomial Spec

section
variable {K : Type} [Field K] [LinearOrder K] [IsStrictOrderedRing K]

/-! ## With exact arithmetic the rounded model is the exact one -/

theorem basisFunctionDersFl_id (span : ℤ) (u : K) (p : ℕ) (U : List K) (order : ℕ) :
    basisFunctionDersFl id span u p U order = basisFunctionDers span u p U order := by
  have h1 : nduTableFl id span u p U = nduTable span u p U := by
    unfold nduTableFl nduTable
    simp only [pyDivFl_id, id]
  have h2 : dersStepFl (id : K → K) = dersStep := by
    funext a b c d e
    unfold dersStepFl dersStep
    simp only [pyDivFl_id, id]
  unfold basisFunctionDersFl basisFunctionDers
  simp only [h1, h2, id]

/-! ## The basis functions and their derivatives -/

/-- **C140.** On a non-empty span of length `h`, for a parameter of the closed span,
`basis_function_ders` in rounded arithmetic raises nothing and divides by nothing that is zero.  The
values in column 0 are non-negative and accurate to `6 p` roundings.  The errors of the derivatives of
order `m` of all the basis functions together are at most
`((1 / ρ) ^ (6 p + 4) - 1) p (p - 1) ⋯ (p - m + 1) (2 / h) ^ m`. -/
theorem basis_function_ders_rounded {ρ : K} {fl : K → K} (hr : Rounding fl) (hf : Accurate ρ fl)
    {U : List K} (hU : U.Pairwise (· ≤ ·)) {k p : ℕ} {u : K} (hp : p ≤ k) (hk : k + p < U.length)
    (hs : knotFn U k < knotFn U (k + 1)) (h1 : knotFn U k ≤ u) (h2 : u ≤ knotFn U (k + 1)) (order : ℕ) :
    ∃ D D', basisFunctionDers (k : ℤ) u p U order = .ok D ∧
      basisFunctionDersFl fl (k : ℤ) u p U order = .ok D' ∧ Shape D' (p + 1) (order + 1) ∧
      (∀ r ≤ p, 0 ≤ at2 D' r 0 0 ∧
        |at2 D' r 0 0 - at2 D r 0 0| ≤ ((1 / ρ) ^ (6 * p) - 1) * at2 D r 0 0) ∧
      ∀ m ≤ order, ∑ r ∈ Finset.range (p + 1), |at2 D' r m 0 - at2 D r m 0| ≤
        ((1 / ρ) ^ (6 * p + 4) - 1) *
          (p.descFactorial m * (2 / (knotFn U (k + 1) - knotFn U k)) ^ m) := by
  have hV := monotone_knotFn hU
  obtain ⟨D, e, sh, hD⟩ := basisFunctionDers_correct hV u hp hk hs order
  obtain ⟨D', e', sh', hn, ha⟩ := basisFunctionDersFl_approx_all hr hf hV hp hk hs h1 h2 order
  refine ⟨D, D', e, e', sh', fun r hr => ?_, fun m hm => ?_⟩
  · have := hn r hr
    rw [hD r 0 hr (by omega)]
    exact ⟨this.nonneg hf.pos, this.abs_sub_le hf.pos hf.le_one⟩
  · have hg := sub_nonneg.2 (one_le_pow₀ hf.one_le (n := 6 * p + 4))
    calc ∑ r ∈ Finset.range (p + 1), |at2 D' r m 0 - at2 D r m 0|
        ≤ ∑ r ∈ Finset.range (p + 1), ((1 / ρ) ^ (6 * p + 4) - 1) *
            (p.descFactorial m * rawAbs (knotFn U) k p u r m) := by
          refine Finset.sum_le_sum fun r hr => ?_
          have hr := Finset.mem_range.1 hr
          rw [hD r m (by omega) hm]
          exact (ha r m (by omega) hm).2
      _ = ((1 / ρ) ^ (6 * p + 4) - 1) * (p.descFactorial m *
            ∑ r ∈ Finset.range (p + 1), rawAbs (knotFn U) k p u r m) := by
          rw [← Finset.mul_sum, ← Finset.mul_sum]
      _ ≤ _ := mul_le_mul_of_nonneg_left (mul_le_mul_of_nonneg_left
          (sum_rawAbs_le hV hp hs h1 h2) (Nat.cast_nonneg _)) hg

/-- **C140.** The sum of the computed derivatives of order `m ≥ 1`, which is `0` in exact arithmetic
(C18), is at most the bound of `basis_function_ders_rounded`; and derivatives of an order above the
degree are exactly `0`. -/
theorem basis_function_ders_rounded_sum {ρ : K} {fl : K → K} (hr : Rounding fl) (hf : Accurate ρ fl)
    {U : List K} (hU : U.Pairwise (· ≤ ·)) {k p : ℕ} {u : K} (hp : p ≤ k) (hk : k + p < U.length)
    (hs : knotFn U k < knotFn U (k + 1)) (h1 : knotFn U k ≤ u) (h2 : u ≤ knotFn U (k + 1)) (order : ℕ) :
    ∃ D', basisFunctionDersFl fl (k : ℤ) u p U order = .ok D' ∧
      (∀ m, 1 ≤ m → m ≤ order → |∑ r ∈ Finset.range (p + 1), at2 D' r m 0| ≤
        ((1 / ρ) ^ (6 * p + 4) - 1) *
          (p.descFactorial m * (2 / (knotFn U (k + 1) - knotFn U k)) ^ m)) ∧
      ∀ m, p < m → m ≤ order → ∀ r ≤ p, at2 D' r m 0 = 0 := by
  obtain ⟨D, D', e, e', sh', -, hb⟩ := basis_function_ders_rounded hr hf hU hp hk hs h1 h2 order
  obtain ⟨D2, e2, -, h0⟩ := basis_function_ders_columns hU u hp hk hs order
  have hD := basis_function_ders_derivatives hU u hp hk hs order
  rw [e] at e2 hD
  cases e2
  have hDe := Except.ok.inj hD
  have hat : ∀ r ≤ p, ∀ m ≤ order, at2 D r m 0
      = (deriv m (piece (knotFn U) k p (k - p + r))).eval u := by
    intro r hr m hm
    rw [hDe]
    simp [at2, List.getD_eq_getElem?_getD, show r < p + 1 by omega, show m < order + 1 by omega]
  refine ⟨D', e', fun m hm1 hm2 => ?_, fun m hm1 hm2 r hr' => ?_⟩
  · have z : ∑ r ∈ Finset.range (p + 1), at2 D r m 0 = 0 := by
      have := h0 m hm1 hm2
      rw [hDe, List.map_map, sum_map_range] at this
      refine Eq.trans (Finset.sum_congr rfl fun r hr => ?_) this
      rw [hat r (by have := Finset.mem_range.1 hr; omega) m hm2]
      simp [List.getD_eq_getElem?_getD, show m < order + 1 by omega]
    have e3 : ∑ r ∈ Finset.range (p + 1), at2 D' r m 0
        = ∑ r ∈ Finset.range (p + 1), (at2 D' r m 0 - at2 D r m 0) := by
      rw [Finset.sum_sub_distrib, z, sub_zero]
    rw [e3]
    exact (Finset.abs_sum_le_sum_abs _ _).trans (hb m hm2)
  · have h3 := hb m hm2
    rw [Nat.descFactorial_eq_zero_iff_lt.2 hm1, Nat.cast_zero, zero_mul, mul_zero] at h3
    have h4 := (Finset.single_le_sum (f := fun r => |at2 D' r m 0 - at2 D r m 0|)
      (fun i _ => abs_nonneg _) (Finset.mem_range.2 (Nat.lt_succ_of_le hr'))).trans h3
    have h5 := abs_nonpos_iff.1 h4
    rw [hat r hr' m hm2, deriv_piece_zero (monotone_knotFn hU) k p _ m hm1, eval_zero, sub_zero] at h5
    exact h5

/-! ## Surfaces -/

/-- **C141.** `derivatives` of a surface with `normalize=False` in rounded arithmetic, whatever the order
of the summations: an array is returned, it works on the patch of spans of lengths `hu` and `hv` that
`find_span` gives, and the mixed derivative of order `(a, b)` differs from the exact one of that patch,
in each coordinate, by at most
`((1 / ρ) ^ (7 p + 7 q + 10) - 1) p ⋯ (p - a + 1) (2 / hu) ^ a q ⋯ (q - b + 1) (2 / hv) ^ b R`, where `R`
bounds the coordinates of the control points. -/
theorem surface_derivatives_rounded {ρ : K} {fl : K → K} (hr : Rounding fl) (hf : Accurate ρ fl)
    {close : K → K → Bool} (hrefl : ∀ x, close x x = true) {s : Surface K} (hs : SurfaceOk s) {u v : K}
    (hu : 0 ≤ u ∧ u ≤ 1) (hv : 0 ≤ v ∧ v ≤ 1) (hru : Regular s.degreeU s.numU s.kvU u)
    (hrv : Regular s.degreeV s.numV s.kvV v)
    (hlu : close u (knotFn s.kvU s.numU) = true → knotFn s.kvU (s.numU - 1) ≤ u)
    (hlv : close v (knotFn s.kvV s.numV) = true → knotFn s.kvV (s.numV - 1) ≤ v) (orderU orderV : ℕ) :
    ∃ m k : ℕ,
      findSpanWith close (spanFuel s.numU s.degreeU) s.numU s.degreeU u s.kvU = .ok (m : ℤ) ∧
      findSpanWith close (spanFuel s.numV s.degreeV) s.numV s.degreeV v s.kvV = .ok (k : ℤ) ∧
      knotFn s.kvU m ≤ u ∧ u ≤ knotFn s.kvU (m + 1) ∧ knotFn s.kvU m < knotFn s.kvU (m + 1) ∧
      knotFn s.kvV k ≤ v ∧ v ≤ knotFn s.kvV (k + 1) ∧ knotFn s.kvV k < knotFn s.kvV (k + 1) ∧
      (∃ D, s.DerivativesFl fl close u v orderU orderV D) ∧
      ∀ D, s.DerivativesFl fl close u v orderU orderV D →
        D.length = (min orderU s.degreeU + 1) * (min orderV s.degreeV + 1) ∧
        ∀ a ≤ min orderU s.degreeU, ∀ b ≤ min orderV s.degreeV,
          (D.getD (a * (min orderV s.degreeV + 1) + b) []).length = 3 ∧
          ∀ c < 3, ∀ R, (∀ i < s.numU * s.numV, |coord s.ctrlpts c i| ≤ R) →
            |(D.getD (a * (min orderV s.degreeV + 1) + b) []).getD c 0
              - patchDeriv (knotFn s.kvU) m s.degreeU s.numU (knotFn s.kvV) k s.degreeV s.numV
                (coord s.ctrlpts c) a b u v| ≤ ((1 / ρ) ^ (7 * s.degreeU + 7 * s.degreeV + 10) - 1) *
              (s.degreeU.descFactorial a * (2 / (knotFn s.kvU (m + 1) - knotFn s.kvU m)) ^ a *
                (s.degreeV.descFactorial b * (2 / (knotFn s.kvV (k + 1) - knotFn s.kvV k)) ^ b) * R) := by
  obtain ⟨m, hm, hm1, hm2, hm3, hm4, hm5⟩ := findSpanWith_regular hs.ku hrefl hru.lo hru.hi hru.simple hlu
  obtain ⟨k, hk, hk1, hk2, hk3, hk4, hk5⟩ := findSpanWith_regular hs.kv hrefl hrv.lo hrv.hi hrv.simple hlv
  have l1 := hs.ku.len
  have l2 := hs.kv.len
  have mU := monotone_knotFn hs.ku.mono
  have mV := monotone_knotFn hs.kv.mono
  obtain ⟨du, hdu, shu, -, hau⟩ := basisFunctionDersFl_approx_all hr hf mU hm1 (by omega) hm5 hm3 hm4
    (min orderU s.degreeU)
  obtain ⟨dv, hdv, shv, -, hav⟩ := basisFunctionDersFl_approx_all hr hf mV hk1 (by omega) hk5 hk3 hk4
    (min orderV s.degreeV)
  refine ⟨m, k, hm, hk, hm3, hm4, hm5, hk3, hk4, hk5, ?_⟩
  have hcol : ∀ c : ℕ, c < 3 → column s.ctrlpts (c : ℤ)
      = .ok ((List.range (s.numU * s.numV)).map (coord s.ctrlpts c)) := fun c h =>
    column_all hs.shape c c rfl h
  have hsl : ∀ c, slice2 ((List.range s.numU).map fun i => (List.range s.numV).map fun j =>
        coord s.ctrlpts c (i * s.numV + j)) ((m : ℤ) - s.degreeU) ((m : ℤ) + 1)
        ((k : ℤ) - s.degreeV) ((k : ℤ) + 1)
      = (List.range (s.degreeU + 1)).map fun i => (List.range (s.degreeV + 1)).map fun j =>
        coord s.ctrlpts c ((m - s.degreeU + i) * s.numV + (k - s.degreeV + j)) := fun c =>
    slice2_map_range (fun i j => coord s.ctrlpts c (i * s.numV + j)) (by omega) (by omega)
      (by omega) (by omega) (by omega) (by omega)
  have cu : ∀ a ≤ min orderU s.degreeU, column du (a : ℤ) = .ok (du.map fun row => row.getD a 0) :=
    fun a ha => column_nat shu _ a rfl (by omega)
  have cv : ∀ b ≤ min orderV s.degreeV, column dv (b : ℤ) = .ok (dv.map fun row => row.getD b 0) :=
    fun b hb => column_nat shv _ b rfl (by omega)
  have lu : ∀ a, (du.map fun row => row.getD a 0).length = s.degreeU + 1 := fun a => by simp [shu.1]
  have lv : ∀ b, (dv.map fun row => row.getD b 0).length = s.degreeV + 1 := fun b => by simp [shv.1]
  have gu : ∀ a, ∀ i < s.degreeU + 1, (du.map fun row => row.getD a 0).getD i 0 = at2 du i a 0 := by
    intro a i hi
    have : i < du.length := by rw [shu.1]; exact hi
    simp [at2, List.getD_eq_getElem?_getD, List.getElem?_eq_getElem this]
  have gv : ∀ b, ∀ j < s.degreeV + 1, (dv.map fun row => row.getD b 0).getD j 0 = at2 dv j b 0 := by
    intro b j hj
    have : j < dv.length := by rw [shv.1]; exact hj
    simp [at2, List.getD_eq_getElem?_getD, List.getElem?_eq_getElem this]
  constructor
  · have hex := fun c a b => BilinearFl.exists fl (bu := du.map fun row => row.getD a 0)
      (bv := dv.map fun row => row.getD b 0)
      (fun i j => coord s.ctrlpts c ((m - s.degreeU + i) * s.numV + (k - s.degreeV + j)))
      (a := s.degreeU + 1) (b := s.degreeV + 1) (by omega) (by omega) (lu a) (lv b)
    choose X hX using hex
    refine ⟨(List.range ((min orderU s.degreeU + 1) * (min orderV s.degreeV + 1))).map fun t =>
      [X 0 (t / (min orderV s.degreeV + 1)) (t % (min orderV s.degreeV + 1)),
        X 1 (t / (min orderV s.degreeV + 1)) (t % (min orderV s.degreeV + 1)),
        X 2 (t / (min orderV s.degreeV + 1)) (t % (min orderV s.degreeV + 1))],
      m, k, du, dv, (validateKnot_iff u).2 hu, (validateKnot_iff v).2 hv, hm, hk, hdu, hdv,
      _, _, _, _, _, _, hcol 0 (by omega), hcol 1 (by omega), hcol 2 (by omega),
      reshape2_map_range _ _ _, reshape2_map_range _ _ _, reshape2_map_range _ _ _, by simp,
      fun a ha b hb => ?_⟩
    rw [hsl, hsl, hsl]
    refine ⟨_, _, X 0 a b, X 1 a b, X 2 a b, cu a ha, cv b hb, hX 0 a b, hX 1 a b, hX 2 a b, ?_⟩
    have hlt := index_lt (n := min orderU s.degreeU + 1) (m := min orderV s.degreeV + 1)
      (Nat.lt_succ_of_le ha) (Nat.lt_succ_of_le hb)
    have hdiv : (a * (min orderV s.degreeV + 1) + b) / (min orderV s.degreeV + 1) = a := by
      rw [Nat.mul_comm, Nat.mul_add_div (by omega), Nat.div_eq_of_lt (by omega), Nat.add_zero]
    have hmod : (a * (min orderV s.degreeV + 1) + b) % (min orderV s.degreeV + 1) = b := by
      rw [Nat.mul_comm, Nat.mul_add_mod, Nat.mod_eq_of_lt (by omega)]
    rw [List.getD_eq_getElem?_getD, List.getElem?_map, List.getElem?_range hlt]
    simp only [Option.map_some, Option.getD_some]
    rw [hdiv, hmod]
  · rintro D ⟨uS, vS, du', dv', -, -, e1, e2, e3, e4, cx, cy, cz, xa, ya, za, c0, c1, c2,
      r0, r1, r2, hlen, hrows⟩
    rw [hm] at e1
    cases e1
    rw [hk] at e2
    cases e2
    rw [hdu] at e3
    cases e3
    rw [hdv] at e4
    cases e4
    have a0 := (hcol 0 (by omega)).symm.trans c0
    have a1 := (hcol 1 (by omega)).symm.trans c1
    have a2 := (hcol 2 (by omega)).symm.trans c2
    cases a0
    cases a1
    cases a2
    rw [reshape2_map_range] at r0 r1 r2
    cases r0
    cases r1
    cases r2
    refine ⟨hlen, fun a ha b hb => ?_⟩
    obtain ⟨bu, bv, x, y, z, d1, d2, dx, dy, dz, hrow⟩ := hrows a ha b hb
    rw [cu a ha] at d1
    cases d1
    rw [cv b hb] at d2
    cases d2
    rw [hsl] at dx dy dz
    rw [hrow]
    refine ⟨rfl, fun c hc R hR => ?_⟩
    have key : ∀ x, BilinearFl fl (du.map fun row => row.getD a 0)
        ((List.range (s.degreeU + 1)).map fun i => (List.range (s.degreeV + 1)).map fun j =>
          coord s.ctrlpts c ((m - s.degreeU + i) * s.numV + (k - s.degreeV + j)))
        (dv.map fun row => row.getD b 0) x →
        |x - patchDeriv (knotFn s.kvU) m s.degreeU s.numU (knotFn s.kvV) k s.degreeV s.numV
          (coord s.ctrlpts c) a b u v| ≤ ((1 / ρ) ^ (7 * s.degreeU + 7 * s.degreeV + 10) - 1) *
          (s.degreeU.descFactorial a * (2 / (knotFn s.kvU (m + 1) - knotFn s.kvU m)) ^ a *
            (s.degreeV.descFactorial b * (2 / (knotFn s.kvV (k + 1) - knotFn s.kvV k)) ^ b) * R) := by
      intro x hx
      have happ := BilinearFl.approx_signed hr hf (k := 6 * s.degreeU + 4) (l := 6 * s.degreeV + 4)
        (fun i j => coord s.ctrlpts c ((m - s.degreeU + i) * s.numV + (k - s.degreeV + j))) (by omega)
        (lu a) (lv b) (fun i hi => by rw [gu a i hi]; exact hau i a (by omega) ha)
        (fun j hj => by rw [gv b j hj]; exact hav j b (by omega) hb) hx
      have hz : ∀ (V : ℕ → K) (k p i t : ℕ) (x : K), i + p < k ∨ k < i →
          (deriv t (piece V k p i)).eval x = 0 := by
        rintro V k p i t x (h | h)
        · rw [piece_eq_zero_of_gt _ _ _ _ h, deriv_zero', eval_zero]
        · rw [piece_eq_zero_of_lt _ _ _ _ h, deriv_zero', eval_zero]
      rw [sum_active2 (c := fun i j => coord s.ctrlpts c (i * s.numV + j))
        (f := fun i => (deriv a (piece (knotFn s.kvU) m s.degreeU i)).eval u)
        (g := fun j => (deriv b (piece (knotFn s.kvV) k s.degreeV j)).eval v) hm1 hm2 hk1 hk2
        (fun i => hz _ _ _ _ _ _) (fun i => hz _ _ _ _ _ _),
        show 6 * s.degreeU + 4 + (s.degreeU + 1) + (6 * s.degreeV + 4) + (s.degreeV + 1)
          = 7 * s.degreeU + 7 * s.degreeV + 10 by omega] at happ
      refine happ.2.trans (mul_le_mul_of_nonneg_left ?_ (sub_nonneg.2 (one_le_pow₀ hf.one_le)))
      have hidx : ∀ i < s.degreeU + 1, ∀ j < s.degreeV + 1,
          (m - s.degreeU + i) * s.numV + (k - s.degreeV + j) < s.numU * s.numV := fun i hi j hj =>
        index_lt (by omega) (by omega)
      refine sum_sum_mul_le
        (fun i _ => mul_nonneg (Nat.cast_nonneg _) (rawAbs_nonneg mU hm3 hm4))
        (fun j _ => mul_nonneg (Nat.cast_nonneg _) (rawAbs_nonneg mV hk3 hk4))
        (fun i hi j hj => hR _ (hidx i hi j hj))
        ((abs_nonneg _).trans (hR _ (hidx 0 (by omega) 0 (by omega)))) ?_ ?_
      · rw [← Finset.mul_sum]
        exact mul_le_mul_of_nonneg_left (sum_rawAbs_le mU hm1 hm5 hm3 hm4) (Nat.cast_nonneg _)
      · rw [← Finset.mul_sum]
        exact mul_le_mul_of_nonneg_left (sum_rawAbs_le mV hk1 hk5 hk3 hk4) (Nat.cast_nonneg _)
    interval_cases c
    · exact key x dx
    · exact key y dy
    · exact key z dz

end

end PySpline
