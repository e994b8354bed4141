import Verif.Lemmas.IeeeAux
import Verif.Lemmas.ExtendedMore
import Verif.Props.Double

/-!
# C160, C161: evaluation and the knot test in IEEE arithmetic with overflow and underflow
-/

set_option linter.unusedSectionVars false
set_option exponentiation.threshold 1100

namespace PySpline

open Polynomial Spec Ext

section
variable {K : Type} [Field K] [LinearOrder K]

/-! ## Agreement with the models without rounding and without overflow -/

/-- Without rounding the functions are those over the extended numbers. -/
theorem ieee_extended (span : ℤ) (u : Ext K) (p n : ℕ) (U : List (Ext K)) :
    basisFunctionsR fin span u p U = basisFunctionsE span u p U ∧
    checkKnotVectorR fin p U n = checkKnotVectorE p U n :=
  ⟨basisFunctionsR_fin span u p U, checkKnotVectorR_fin p U n⟩

/-- Without overflow the functions are those in rounded arithmetic, unless these divide by zero. -/
theorem ieee_rounded (fl : K → K) (span : ℤ) (u : K) (p : ℕ) (U : List K) :
    (basisFunctionsFl fl span u p U = .error .nonfinite ∨
      basisFunctionsR (fun x => fin (fl x)) span (fin u) p (U.map fin)
        = (basisFunctionsFl fl span u p U).map (List.map fin)) ∧
    (normalizeFl fl U = .error .nonfinite ∨
      normalizeR (fun x => fin (fl x)) (U.map fin) = (normalizeFl fl U).map (List.map fin)) :=
  ⟨(basisFunctionsR_follows fl span u p U).iff, (normalizeR_follows fl U).iff⟩

variable [IsStrictOrderedRing K]

/-! ## Basis functions -/

/-- **C160.** Let the knots and the parameter be stored numbers, the parameter in the closed non-empty
span `k`, let `H` be at least the distance of the knots that are used, and let the span not be so
short that its reciprocal comes near the overflow threshold `M`.  Then `basis_functions` in IEEE
arithmetic returns numbers (no infinity, no NaN), none of them negative, and each differs from the
exact value by at most `((1/ρ)^(6p) - 1) N_r` plus `(1/ρ)^(6p) (4^p - 1) (2H + 1) η`, the share of
underflow. -/
theorem basis_functions_ieee {ρ η M H : K} {rd : K → Ext K} (hr : IeeeRounding ρ η M rd) {U : List K}
    (hU : U.Pairwise (· ≤ ·)) {k p : ℕ} {u : K} (hp : p ≤ k) (hk : k + p < U.length)
    (hs : knotFn U k < knotFn U (k + 1)) (h1 : knotFn U k ≤ u) (h2 : u ≤ knotFn U (k + 1))
    (hrep : ∀ x ∈ U, rd x = fin x) (hu : rd u = fin u)
    (hH : knotFn U (k + p) - knotFn U (k + 1 - p) ≤ H) (hE : 4 ^ p * (2 * H + 1) * η ≤ 1)
    (hM : 8 ≤ M) (hMh : 8 ≤ M * (knotFn U (k + 1) - knotFn U k)) (hMH : 2 * H ≤ M)
    (hρ : 1 ≤ 2 * ρ ^ (6 * p)) :
    ∃ N N' : List K, basisFunctions (k : ℤ) u p U = .ok N ∧
      basisFunctionsR rd (k : ℤ) (fin u) p (U.map fin) = .ok (N'.map fin) ∧ N'.length = p + 1 ∧
      ∀ r ≤ p, 0 ≤ N'.getD r 0 ∧ |N'.getD r 0 - N.getD r 0| ≤
        ((1 / ρ) ^ (6 * p) - 1) * N.getD r 0 + (1 / ρ) ^ (6 * p) * ((4 ^ p - 1) * ((2 * H + 1) * η)) := by
  obtain ⟨L, e, hl, hL⟩ := basisFunctionsR_near hr (monotone_knotFn hU) hp hk hs h1 h2 hrep hu hH hE hM hMh hMH hρ
  refine ⟨_, L.map Ext.val, basis_functions_pieces hU u hp hk hs, ?_, by simpa using hl, fun r hr' => ?_⟩
  · rw [e, List.map_map]
    congr 1
    refine List.ext_getElem (by simp) fun r r1 r2 => ?_
    obtain ⟨a, ha, -⟩ := (hL r (by omega)).abs_sub_le hr
    rw [List.getD_eq_getElem?_getD, List.getElem?_eq_getElem r1] at ha
    rw [List.getElem_map]
    have ha' : L[r] = fin a := ha
    rw [ha']
    rfl
  · obtain ⟨a, ha, -, h3, h4⟩ := (hL r hr').abs_sub_le hr
    have e1 : (L.map Ext.val).getD r 0 = a := by
      rw [List.getD_eq_getElem?_getD, List.getElem?_map, List.getElem?_eq_getElem (by omega)]
      rw [List.getD_eq_getElem?_getD, List.getElem?_eq_getElem (by omega)] at ha
      have ha' : L[r] = fin a := ha
      simp [ha', Ext.val]
    have e2 : ((List.range (p + 1)).map fun r => (piece (knotFn U) k p (k - p + r)).eval u).getD r 0
        = (piece (knotFn U) k p (k - p + r)).eval u := by
      simp [List.getD_eq_getElem?_getD, show r < p + 1 by omega]
    rw [e1, e2]
    exact ⟨h3, h4⟩

/-! ## Curves -/

/-- **C160** for curves on `[0, 1]`, whatever the order of the summation: if the coordinates are at
most `C` and `C` is not so large that a sum could overflow, then every computed point consists of
three numbers, each with an error of at most
`((1/ρ)^(7p+1) - 1) ∑ |P_i| N_i(u) + (1/ρ)^(7p+1) (p+1) (3 (4^p - 1) C + 1) η`; and a point is
returned. -/
theorem single_point_ieee {ρ η M C : K} {rd : K → Ext K} (hr : IeeeRounding ρ η M rd)
    (hrefl : ∀ x, iscloseR rd (fin x) (fin x) (1 / 10 ^ 6) atolDefault = true) {p n d : ℕ} {U : List K}
    {P : List (List K)} {u : K} (hU : Clamped p n U) (hz : knotFn U 0 = 0) (ho : knotFn U (n + p) = 1)
    (hp : 1 ≤ p) (hP : Shape P n d) (hd : 3 ≤ d)
    (h0 : 0 ≤ u) (h1 : u ≤ 1) (hreg : Regular p n U u)
    (hlast : iscloseR rd (fin u) (fin (knotFn U n)) (1 / 10 ^ 6) atolDefault = true → knotFn U (n - 1) ≤ u)
    (hrep : ∀ x ∈ U, rd x = fin x) (hu : rd u = fin u)
    (hshort : ∀ i, p ≤ i → i < n → knotFn U i < knotFn U (i + 1) → 8 ≤ M * (knotFn U (i + 1) - knotFn U i))
    (hC : ∀ c < 3, ∀ i < n, |coord P c i| ≤ C) (hρ : 1 ≤ 2 * ρ ^ (6 * p)) (hE : 4 ^ p * 3 * η ≤ 1)
    (hM8 : 8 ≤ M)
    (hM : (1 / ρ) ^ (7 * p + 1) * (C + (p + 1) * ((3 * (4 ^ p - 1) * C + 1) * η)) ≤ M) :
    (∃ pt, Curve.PointR rd (Curve.mk p P U).lift (fin u) pt) ∧
    ∀ pt, Curve.PointR rd (Curve.mk p P U).lift (fin u) pt → ∃ q : List K, pt = q.map fin ∧ q.length = 3 ∧
      ∀ c < 3, |q.getD c 0 - curve (knotFn U) p n (coord P c) u| ≤
        ((1 / ρ) ^ (7 * p + 1) - 1) * curve (knotFn U) p n (fun i => |coord P c i|) u
        + (1 / ρ) ^ (7 * p + 1) * ((p + 1) * ((3 * (4 ^ p - 1) * C + 1) * η)) := by
  obtain ⟨m, hm, hpm, hmn, hb1, hb2, hs⟩ := findSpanWith_regular
    (close := fun a b => iscloseR rd (fin a) (fin b) (1 / 10 ^ 6) atolDefault) hU.toKnotVector hrefl hreg.lo hreg.hi
    hreg.simple hlast
  rw [← findSpanR_lift] at hm
  have hlen := hU.len
  have hV := monotone_knotFn hU.mono
  have hg1 : 1 ≤ 1 / ρ := hr.one_le
  obtain ⟨N, hN, hNl, hnear⟩ := basisFunctionsR_near hr (H := 1) hV hpm (by omega) hs hb1 hb2 hrep hu
    (by
      have a1 : knotFn U (m + p) ≤ knotFn U (n + p) := hV (by omega)
      have a2 : knotFn U 0 ≤ knotFn U (m + 1 - p) := hV (by omega)
      linarith) (by norm_num; exact hE) hM8 (hshort m hpm hmn hs) (by linarith) hρ
  have hPl := hP.1
  have hsl : pySlice P ((m : ℤ) - p) ((m : ℤ) + 1) = (List.range (p + 1)).map fun r => P.getD (m - p + r) [] :=
    pySlice_nat P _ _ (m - p) (p + 1) [] (by omega) (by omega) (by omega)
  have hc : ∀ c < 3, ∀ r < p + 1, c < (P.getD (m - p + r) []).length := fun c hc r hr => by
    rw [hP.row (by omega)]; omega
  have hcol : ∀ c < 3, columnE (pySlice (lift2 P) ((m : ℤ) - p) ((m : ℤ) + 1)) ((c : ℕ) : ℤ)
      = .ok ((List.range (p + 1)).map fun r => fin (coord P c (m - p + r))) := fun c h => by
    have h1 : column (pySlice P ((m : ℤ) - p) ((m : ℤ) + 1)) ((c : ℕ) : ℤ)
        = .ok ((List.range (p + 1)).map fun r => coord P c (m - p + r)) := by
      rw [hsl]; exact column_rows P _ _ c c rfl (hc c h)
    have h2 := (Follows.mapPy (f := List.map fin) (g := fin) (G := fun r : List (Ext K) => pyGet r ((c : ℕ) : ℤ))
      (fun r : List K => Follows.get r ((c : ℕ) : ℤ)) (pySlice P ((m : ℤ) - p) ((m : ℤ) + 1))).value h1
    rw [lift2, pySlice_map]
    rw [List.map_map] at h2
    exact h2
  have hcur : ∀ e : ℕ → K, ∑ r ∈ Finset.range (p + 1),
      (piece (knotFn U) m p (m - p + r)).eval u * e (m - p + r) = curve (knotFn U) p n e u := by
    intro e
    rw [sum_active (n := n) (f := fun i => (piece (knotFn U) m p i).eval u) hpm hmn]
    · unfold curve
      refine Finset.sum_congr rfl fun i hi => ?_
      rw [piece_eq_Nclosed hU hp hreg hmn hpm hb1 hb2 hs i (Finset.mem_range.1 hi)]
    · rintro i (h | h)
      · rw [piece_eq_zero_of_gt _ _ _ _ h, eval_zero]
      · rw [piece_eq_zero_of_lt _ _ _ _ h, eval_zero]
  have hval : ∀ c < 3, ∀ e, DotR rd (N.zip ((List.range (p + 1)).map fun r => fin (coord P c (m - p + r)))) e →
      ∃ s, e = fin s ∧ |s - curve (knotFn U) p n (coord P c) u| ≤
        ((1 / ρ) ^ (7 * p + 1) - 1) * curve (knotFn U) p n (fun i => |coord P c i|) u
        + (1 / ρ) ^ (7 * p + 1) * ((p + 1) * ((3 * (4 ^ p - 1) * C + 1) * η)) := by
    intro c hc3 e h
    have hb : ∀ r < p + 1, |coord P c (m - p + r)| ≤ C := fun r hr' => hC c hc3 _ (by omega)
    have hle : ∑ r ∈ Finset.range (p + 1), (piece (knotFn U) m p (m - p + r)).eval u * |coord P c (m - p + r)|
        ≤ C := by
      have e1 : ∑ r ∈ Finset.range (p + 1), (piece (knotFn U) m p (m - p + r)).eval u = 1 := by
        have := congrArg (eval u) (sum_pieces_range hV hpm hs)
        rw [eval_finsetSum] at this
        simpa using this
      calc _ ≤ ∑ r ∈ Finset.range (p + 1), (piece (knotFn U) m p (m - p + r)).eval u * C :=
            Finset.sum_le_sum fun r hr' => mul_le_mul_of_nonneg_left (hb r (Finset.mem_range.1 hr'))
              (piece_nonneg hV hb1 hb2 p _)
        _ = C := by rw [← Finset.sum_mul, e1, one_mul]
    have := DotR.approx hr (k := 6 * p) (n := p + 1) (C := C) hNl (fun r hr' => hnear r (by omega))
      (c := fun r => coord P c (m - p + r)) hb h (by
        have g0 : 0 ≤ (1 / ρ) ^ (7 * p + 1) := le_trans zero_le_one (one_le_pow₀ hg1)
        rw [show 6 * p + (p + 1) = 7 * p + 1 by omega]
        refine le_trans (mul_le_mul_of_nonneg_left ?_ g0) hM
        refine add_le_add hle (le_of_eq ?_)
        push_cast
        ring)
    obtain ⟨s, hs1, -, hs2⟩ := this
    refine ⟨s, hs1, ?_⟩
    rw [hcur (coord P c), hcur fun i => |coord P c i|, show 6 * p + (p + 1) = 7 * p + 1 by omega] at hs2
    refine hs2.trans (le_of_eq ?_)
    push_cast
    ring
  constructor
  · have hne : ∀ c, N.zip ((List.range (p + 1)).map fun r => fin (coord P c (m - p + r))) ≠ [] := by
      intro c h
      have := congrArg List.length h
      simp [hNl] at this
    obtain ⟨x, hx⟩ := DotR.exists rd (hne 0)
    obtain ⟨y, hy⟩ := DotR.exists rd (hne 1)
    obtain ⟨z, hz⟩ := DotR.exists rd (hne 2)
    refine ⟨[x, y, z], m, N, ?_, ?_, hN, _, _, _, x, y, z,
      hcol 0 (by omega), hcol 1 (by omega), hcol 2 (by omega), ?_, hx, hy, hz, rfl⟩
    · show (le 0 (fin u) && le (fin u) 1) = true
      rw [Bool.and_eq_true]
      exact ⟨(le_lift 0 u).2 h0, (le_lift u 1).2 h1⟩
    · show findSpanR rd (lift2 P).length p (fin u) (lift1 U) = _
      rw [lift2, List.length_map, hPl]
      exact hm
    · show N.length = (pySlice (lift2 P) ((m : ℤ) - p) ((m : ℤ) + 1)).length
      rw [lift2, pySlice_map, hsl]; simp [hNl]
  · rintro pt ⟨span, funs, -, hspan, hfuns, col0, col1, col2, x, y, z, c0, c1, c2, -, dx, dy, dz, rfl⟩
    have hspan : findSpanR rd (lift2 P).length p (fin u) (lift1 U) = .ok span := hspan
    rw [lift2, List.length_map, hPl, hm] at hspan
    cases hspan
    have hfuns : basisFunctionsR rd (m : ℤ) (fin u) p (lift1 U) = .ok funs := hfuns
    rw [hN] at hfuns
    cases hfuns
    have a0 := (hcol 0 (by omega)).symm.trans c0
    have a1 := (hcol 1 (by omega)).symm.trans c1
    have a2 := (hcol 2 (by omega)).symm.trans c2
    cases a0
    cases a1
    cases a2
    obtain ⟨x, rfl, hx⟩ := hval 0 (by omega) x dx
    obtain ⟨y, rfl, hy⟩ := hval 1 (by omega) y dy
    obtain ⟨z, rfl, hz⟩ := hval 2 (by omega) z dz
    refine ⟨[x, y, z], rfl, rfl, fun c hc => ?_⟩
    interval_cases c
    · exact hx
    · exact hy
    · exact hz

end

/-! ## Double precision -/

/-- `bin64` returns a double: the result is stored exactly, and every double is stored as itself. -/
theorem bin64_idem {x y : ℚ} (h : bin64 x = fin y) : bin64 y = fin y := ieeeRounding_bin64.idem x y h

theorem two_pow_1075 : (1 : ℚ) / 2 ^ 1075 = 1 / 2 ^ 1050 * (1 / 2 ^ 25) := by
  rw [show (1075 : ℕ) = 1050 + 25 from rfl, pow_add]
  ring

theorem two_pow_1023 : (2 : ℚ) ^ 1023 = 2 ^ 1000 * 2 ^ 23 := by
  rw [← pow_add]

theorem pow_rho (k : ℕ) (hk : k ≤ 72) : (1 : ℚ) ≤ 2 * (1 - 1 / 2 ^ 53) ^ k := by
  have h := pow_error k hk
  rw [one_div_pow] at h
  have hp : (0 : ℚ) < (1 - 1 / 2 ^ 53) ^ k := pow_pos (by norm_num) _
  have h2 : 1 / (1 - 1 / 2 ^ 53 : ℚ) ^ k ≤ 2 := by linarith
  rw [div_le_iff₀ hp] at h2
  exact h2

/-- **C160** in double precision with gradual underflow and overflow, for degrees up to 10: if the
knots and the parameter are doubles, the knots in use lie within a distance `H` of at most `2^1000`, and
the span is at least `2^-1000` long, then `basis_functions` returns non-negative numbers that agree with
the exact values up to `1e-14 N_r + (2H + 1) 2^-1050`. -/
theorem basis_functions_binary64 {U : List ℚ} (hU : U.Pairwise (· ≤ ·)) {k p : ℕ} {u H : ℚ} (hp10 : p ≤ 10)
    (hp : p ≤ k) (hk : k + p < U.length) (hs : 1 / 2 ^ 1000 ≤ knotFn U (k + 1) - knotFn U k)
    (h1 : knotFn U k ≤ u) (h2 : u ≤ knotFn U (k + 1)) (hrep : ∀ x ∈ U, bin64 x = fin x)
    (hu : bin64 u = fin u) (hH : knotFn U (k + p) - knotFn U (k + 1 - p) ≤ H) (h0H : 0 ≤ H) (hHM : H ≤ 2 ^ 1000) :
    ∃ N N' : List ℚ, basisFunctions (k : ℤ) u p U = .ok N ∧
      basisFunctionsR bin64 (k : ℤ) (fin u) p (U.map fin) = .ok (N'.map fin) ∧ N'.length = p + 1 ∧
      ∀ r ≤ p, 0 ≤ N'.getD r 0 ∧
        |N'.getD r 0 - N.getD r 0| ≤ 1 / 10 ^ 14 * N.getD r 0 + (2 * H + 1) * (1 / 2 ^ 1050) := by
  have hB : (1 : ℚ) ≤ 2 ^ 1000 := one_le_pow₀ (by norm_num)
  have hQ : (2 : ℚ) ^ 1000 * (1 / 2 ^ 1050) = 1 / 2 ^ 50 := by
    rw [show (1050 : ℕ) = 1000 + 50 from rfl, pow_add]
    have : (2 : ℚ) ^ 1000 ≠ 0 := (pow_pos (by norm_num) _).ne'
    field_simp
  have hQ0 : (0 : ℚ) < 1 / 2 ^ 1050 := one_div_pos.2 (pow_pos (by norm_num) _)
  have h4 : (4 : ℚ) ^ p ≤ 2 ^ 20 := (pow_le_pow_right₀ (by norm_num) hp10).trans (by norm_num)
  have h4' : (1 : ℚ) ≤ 4 ^ p := one_le_pow₀ (by norm_num)
  have hg := pow_error (6 * p) (by omega)
  have hg1 : 1 ≤ (1 / (1 - 1 / 2 ^ 53 : ℚ)) ^ (6 * p) := one_le_pow₀ (by norm_num)
  have hgap : knotFn U k < knotFn U (k + 1) := by
    have : (0 : ℚ) < 1 / 2 ^ 1000 := one_div_pos.2 (pow_pos (by norm_num) _)
    linarith
  have hK0 : 0 ≤ (2 * H + 1) * (1 / 2 ^ 1050) := mul_nonneg (by linarith) hQ0.le
  have hK1 : (2 * H + 1) * (1 / 2 ^ 1050) ≤ 1 := by
    calc (2 * H + 1) * (1 / 2 ^ 1050) ≤ (3 * 2 ^ 1000) * (1 / 2 ^ 1050) :=
          mul_le_mul_of_nonneg_right (by linarith) hQ0.le
      _ = 3 * (1 / 2 ^ 50) := by rw [mul_assoc, hQ]
      _ ≤ 1 := by norm_num
  obtain ⟨N, N', e1, e2, e3, e4⟩ := basis_functions_ieee ieeeRounding_bin64 (H := H) hU hp hk hgap h1 h2 hrep hu hH
    (by
      rw [two_pow_1075]
      calc (4 : ℚ) ^ p * (2 * H + 1) * (1 / 2 ^ 1050 * (1 / 2 ^ 25))
          = 4 ^ p * (1 / 2 ^ 25) * ((2 * H + 1) * (1 / 2 ^ 1050)) := by ring
        _ ≤ 1 * 1 := mul_le_mul (by linarith) hK1 hK0 zero_le_one
        _ = 1 := one_mul 1)
    (by rw [two_pow_1023]; linarith)
    (by
      rw [two_pow_1023]
      calc (8 : ℚ) ≤ 2 ^ 23 * 1 := by norm_num
        _ = 2 ^ 23 * (2 ^ 1000 * (1 / 2 ^ 1000)) := by rw [mul_one_div_cancel (by positivity)]
        _ = 2 ^ 1000 * 2 ^ 23 * (1 / 2 ^ 1000) := by ring
        _ ≤ _ := mul_le_mul_of_nonneg_left hs (by positivity))
    (by rw [two_pow_1023]; linarith) (pow_rho _ (by omega))
  refine ⟨N, N', e1, e2, e3, fun r hr => ⟨(e4 r hr).1, (e4 r hr).2.trans ?_⟩⟩
  have hN0 : 0 ≤ N.getD r 0 := by
    rw [basis_functions_pieces hU u hp hk hgap] at e1
    cases e1
    have e2 : ((List.range (p + 1)).map fun r => (piece (knotFn U) k p (k - p + r)).eval u).getD r 0
        = (piece (knotFn U) k p (k - p + r)).eval u := by
      simp [List.getD_eq_getElem?_getD, show r < p + 1 by omega]
    rw [e2]
    exact piece_nonneg (monotone_knotFn hU) h1 h2 p _
  refine add_le_add (mul_le_mul_of_nonneg_right hg hN0) ?_
  rw [two_pow_1075]
  calc (1 / (1 - 1 / 2 ^ 53 : ℚ)) ^ (6 * p) * ((4 ^ p - 1) * ((2 * H + 1) * (1 / 2 ^ 1050 * (1 / 2 ^ 25))))
      = (1 / (1 - 1 / 2 ^ 53 : ℚ)) ^ (6 * p) * ((4 ^ p - 1) * (1 / 2 ^ 25)) * ((2 * H + 1) * (1 / 2 ^ 1050)) := by
        ring
    _ ≤ 1 * ((2 * H + 1) * (1 / 2 ^ 1050)) := by
        refine mul_le_mul_of_nonneg_right ?_ hK0
        calc _ ≤ (2 : ℚ) * (1 / 2) := mul_le_mul (by linarith) (by linarith) (by
                exact mul_nonneg (by linarith) (by norm_num)) (by norm_num)
          _ = 1 := by norm_num
    _ = _ := one_mul _

/-- **C160** in double precision with gradual underflow and overflow: on `[0, 1]` with distinct interior
knots at least `2^-1000` apart, the last interior knot being away from `1`, every point computed for a
degree of at most 10 and for coordinates of at most `C ≤ 2^1000` consists of numbers with an error of at
most `1e-14 ∑ |P_i| N_i(u) + (C + 1) 2^-1045`. -/
theorem single_point_binary64 {p n d : ℕ} {U : List ℚ} {P : List (List ℚ)} {u C : ℚ} (hU : Clamped p n U)
    (hdist : ∀ i, p ≤ i → i < n → 1 / 2 ^ 1000 ≤ knotFn U (i + 1) - knotFn U i)
    (hz : knotFn U 0 = 0) (ho : knotFn U (n + p) = 1)
    (hgap : knotFn U (n - 1) ≤ 1 - 102 / 10 ^ 8) (hp : 1 ≤ p) (hp10 : p ≤ 10) (hP : Shape P n d)
    (hd : 3 ≤ d) (h0 : 0 ≤ u) (h1 : u ≤ 1) (hrep : ∀ x ∈ U, bin64 x = fin x) (hu : bin64 u = fin u)
    (hC : ∀ c < 3, ∀ i < n, |coord P c i| ≤ C) (hCM : C ≤ 2 ^ 1000) :
    (∃ pt, Curve.PointR bin64 (Curve.mk p P U).lift (fin u) pt) ∧
    ∀ pt, Curve.PointR bin64 (Curve.mk p P U).lift (fin u) pt → ∃ q : List ℚ, pt = q.map fin ∧ q.length = 3 ∧
      ∀ c < 3, |q.getD c 0 - curve (knotFn U) p n (coord P c) u| ≤
        1 / 10 ^ 14 * curve (knotFn U) p n (fun i => |coord P c i|) u + (C + 1) * (1 / 2 ^ 1045) := by
  have hn : knotFn U n = 1 := by rw [hU.right n le_rfl (by omega), ho]
  have hB : (1 : ℚ) ≤ 2 ^ 1000 := one_le_pow₀ (by norm_num)
  have hQ0 : (0 : ℚ) < 1 / 2 ^ 1045 := one_div_pos.2 (pow_pos (by norm_num) _)
  have hQ1 : (1 : ℚ) / 2 ^ 1045 ≤ 1 / 2 := one_div_le_one_div_of_le (by norm_num)
    (le_self_pow₀ (by norm_num) (by norm_num))
  have hη : (1 : ℚ) / 2 ^ 1075 = 1 / 2 ^ 1045 * (1 / 2 ^ 30) := by
    rw [show (1075 : ℕ) = 1045 + 30 from rfl, pow_add]
    ring
  have h4 : (4 : ℚ) ^ p ≤ 2 ^ 20 := (pow_le_pow_right₀ (by norm_num) hp10).trans (by norm_num)
  have h4' : (1 : ℚ) ≤ 4 ^ p := one_le_pow₀ (by norm_num)
  have hpq : (p : ℚ) ≤ 10 := by exact_mod_cast hp10
  have hpq0 : (0 : ℚ) ≤ p := Nat.cast_nonneg p
  have hC0 : 0 ≤ C := (abs_nonneg _).trans (hC 0 (by omega) 0 (by have := hU.size; omega))
  have hsm : (0 : ℚ) < 1 / 2 ^ 1000 := one_div_pos.2 (pow_pos (by norm_num) _)
  have hreg := regular_of_distinct hU (fun i a b => by linarith [hdist i a b]) hz ho h0 h1 (fun h => by
    rw [abs_of_nonpos (by linarith)] at h
    norm_num at h hgap
    linarith)
  -- the share of underflow
  have hshare : ((p : ℚ) + 1) * ((3 * (4 ^ p - 1) * C + 1) * (1 / 2 ^ 1075)) ≤ (C + 1) * (1 / 2 ^ 1045) * (1 / 2) := by
    rw [hη]
    have x1 : 3 * (4 ^ p - 1) * C + 1 ≤ 2 ^ 22 * (C + 1) := by
      have : (3 * (4 ^ p - 1) : ℚ) * C ≤ 2 ^ 22 * C := mul_le_mul_of_nonneg_right (by linarith) hC0
      linarith
    have x2 : ((p : ℚ) + 1) * (3 * (4 ^ p - 1) * C + 1) ≤ 2 ^ 4 * (2 ^ 22 * (C + 1)) :=
      mul_le_mul (by linarith) x1 (add_nonneg (mul_nonneg (by linarith) hC0) zero_le_one) (by norm_num)
    calc ((p : ℚ) + 1) * ((3 * (4 ^ p - 1) * C + 1) * (1 / 2 ^ 1045 * (1 / 2 ^ 30)))
        = ((p : ℚ) + 1) * (3 * (4 ^ p - 1) * C + 1) * (1 / 2 ^ 30) * (1 / 2 ^ 1045) := by ring
      _ ≤ ((C + 1) * (1 / 2)) * (1 / 2 ^ 1045) := mul_le_mul_of_nonneg_right (by linarith) hQ0.le
      _ = _ := by ring
  have hshare0 : 0 ≤ ((p : ℚ) + 1) * ((3 * (4 ^ p - 1) * C + 1) * (1 / 2 ^ 1075)) := by
    refine mul_nonneg (by linarith) (mul_nonneg (add_nonneg (mul_nonneg (by linarith) hC0) zero_le_one) ?_)
    exact (one_div_pos.2 (pow_pos (by norm_num) _)).le
  have hg := pow_error (7 * p + 1) (by omega)
  have hg1 : 1 ≤ (1 / (1 - 1 / 2 ^ 53 : ℚ)) ^ (7 * p + 1) := one_le_pow₀ (by norm_num)
  have hCQ : (C + 1) * (1 / 2 ^ 1045) ≤ C + 1 := mul_le_of_le_one_right (by linarith) (by linarith)
  obtain ⟨he, hall⟩ := single_point_ieee ieeeRounding_bin64 (C := C) iscloseR_bin64_refl hU hz ho hp hP hd h0 h1 hreg
    (fun h => by
      rw [hn] at h
      exact hgap.trans (iscloseR_bin64_one h0 h1 h)) hrep hu
    (fun i a b _ => by
      rw [two_pow_1023]
      calc (8 : ℚ) ≤ 2 ^ 23 * 1 := by norm_num
        _ = 2 ^ 23 * (2 ^ 1000 * (1 / 2 ^ 1000)) := by rw [mul_one_div_cancel (by positivity)]
        _ = 2 ^ 1000 * 2 ^ 23 * (1 / 2 ^ 1000) := by ring
        _ ≤ _ := mul_le_mul_of_nonneg_left (hdist i a b) (by positivity)) hC (pow_rho _ (by omega))
    (by
      rw [hη]
      calc (4 : ℚ) ^ p * 3 * (1 / 2 ^ 1045 * (1 / 2 ^ 30)) = (4 ^ p * 3 * (1 / 2 ^ 30)) * (1 / 2 ^ 1045) := by ring
        _ ≤ 1 * 1 := mul_le_mul (by linarith) (by linarith) hQ0.le zero_le_one
        _ = 1 := one_mul 1)
    (by rw [two_pow_1023]; linarith)
    (by
      rw [two_pow_1023]
      calc _ ≤ (2 : ℚ) * (C + (C + 1)) := mul_le_mul (by linarith) (by linarith) (by linarith) (by norm_num)
        _ ≤ _ := by linarith)
  refine ⟨he, fun pt hpt => ?_⟩
  obtain ⟨q, e1, e2, e3⟩ := hall pt hpt
  refine ⟨q, e1, e2, fun c hc => (e3 c hc).trans (add_le_add (mul_le_mul_of_nonneg_right hg ?_) ?_)⟩
  · refine Finset.sum_nonneg fun i _ => mul_nonneg (abs_nonneg _) ?_
    exact Nclosed_nonneg (monotone_knotFn hU.mono) p n i u
  · calc _ ≤ (2 : ℚ) * ((C + 1) * (1 / 2 ^ 1045) * (1 / 2)) :=
          mul_le_mul (by linarith) hshare hshare0 (by norm_num)
      _ = _ := by ring

/-- A quadratic with a knot of `2^-900`, large and small coordinates, evaluated at `2^-901`. -/
example : (∃ pt, Curve.PointR bin64 (Curve.mk 2 [[1, 2 ^ 990, 0], [2, -2 ^ 990, 1 / 2 ^ 1060], [3, 1, 0], [4, 0, 1]]
      [0, 0, 0, 1 / 2 ^ 900, 1, 1, 1]).lift (fin (1 / 2 ^ 901)) pt) ∧
    ∀ pt, Curve.PointR bin64 (Curve.mk 2 [[1, 2 ^ 990, 0], [2, -2 ^ 990, 1 / 2 ^ 1060], [3, 1, 0], [4, 0, 1]]
      [0, 0, 0, 1 / 2 ^ 900, 1, 1, 1]).lift (fin (1 / 2 ^ 901)) pt → ∃ q : List ℚ, pt = q.map fin ∧ q.length = 3 ∧
      ∀ c < 3, |q.getD c 0 - curve (knotFn [0, 0, 0, 1 / 2 ^ 900, 1, 1, 1]) 2 4
          (coord [[1, 2 ^ 990, 0], [2, -2 ^ 990, 1 / 2 ^ 1060], [3, 1, 0], [4, 0, 1]] c) (1 / 2 ^ 901)| ≤
        1 / 10 ^ 14 * curve (knotFn [0, 0, 0, 1 / 2 ^ 900, 1, 1, 1]) 2 4
          (fun i => |coord [[1, 2 ^ 990, 0], [2, -2 ^ 990, 1 / 2 ^ 1060], [3, 1, 0], [4, 0, 1]] c i|) (1 / 2 ^ 901)
        + (2 ^ 990 + 1) * (1 / 2 ^ 1045) :=
  single_point_binary64 (p := 2) (n := 4) (d := 3)
    (hU := ⟨⟨by decide +kernel, by decide +kernel, by decide⟩,
      by intro i hi; interval_cases i <;> decide +kernel,
      by intro i h1 h2; interval_cases i <;> decide +kernel⟩)
    (by intro i h1 h2; interval_cases i <;> decide +kernel)
    (by decide +kernel) (by decide +kernel) (by decide +kernel) (by norm_num) (by norm_num)
    ⟨by decide, by decide +kernel⟩ le_rfl (by decide +kernel) (by decide +kernel) (by decide +kernel)
    (by decide +kernel) (by decide +kernel) (by decide +kernel)

/-! ## The knot test -/

/-- **C161.** `check_knot_vector` in double precision rejects every array of doubles whose range is
`2^1024` or more (the range overflows) or at most `2^-1024` (its reciprocal overflows), whether or not
its knots are clamped and sorted. -/
theorem check_knot_vector_binary64 (p n : ℕ) {U : List ℚ} {lo hi : ℚ} (hlo : lo ∈ U) (hhi : hi ∈ U)
    (hmin : ∀ x ∈ U, lo ≤ x) (hmax : ∀ x ∈ U, x ≤ hi) (hrep : ∀ x ∈ U, bin64 x = fin x)
    (h : 2 ^ 1024 ≤ hi - lo ∨ hi - lo ≤ 1 / 2 ^ 1024) :
    checkKnotVectorR bin64 p (U.map fin) n = .ok false := by
  have hz : bin64 0 = fin 0 := ieeeRounding_bin64.zero
  have hclose : iscloseR bin64 1 0 rtolDefault atolDefault = false := by decide +kernel
  refine checkKnotVectorR_false hz hclose p n hlo hhi hmin hmax (s := false) ?_
  rcases h with h | h
  · exact Or.inl (bin64_overflow h)
  · right
    have h0 : lo ≤ hi := hmin hi hhi
    have e : (1 : ℚ) / 2 ^ 1024 = 2 ^ (-1024 : ℤ) := by
      rw [zpow_neg, one_div]; norm_cast
    have hlt : hi - lo < (2 : ℚ) ^ (-1022 : ℤ) := by
      rw [e] at h
      exact h.trans_lt (zpow_lt_zpow_right₀ (by norm_num) (by norm_num))
    rw [bin64_sub_tiny (hrep hi hhi) (hrep lo hlo) h0 hlt]
    rcases (sub_nonneg.2 h0).lt_or_eq with hp | hp
    · rw [show (1 : Ext ℚ) = fin 1 from rfl, fin_div _ hp.ne']
      refine bin64_overflow ?_
      rw [le_div_iff₀ hp]
      have : (0 : ℚ) < 2 ^ 1024 := pow_pos (by norm_num) _
      calc (2 : ℚ) ^ 1024 * (hi - lo) ≤ 2 ^ 1024 * (1 / 2 ^ 1024) := mul_le_mul_of_nonneg_left h this.le
        _ = 1 := mul_one_div_cancel this.ne'
    · rw [← hp]
      decide +kernel

/-- The bounds are the exact ones for these clamped arrays: the range `2^-1024` is rejected and the next
power of two accepted; the range `2^1023` is accepted and `2^1024` rejected.  In exact and in rounded
arithmetic without overflow all of them are accepted. -/
example : checkKnotVectorR bin64 2 (([0, 0, 0, 1, 1, 1] : List ℚ).map fun x => fin (x / 2 ^ 1024)) 3 = .ok false ∧
    checkKnotVectorR bin64 2 (([0, 0, 0, 1, 1, 1] : List ℚ).map fun x => fin (x / 2 ^ 1023)) 3 = .ok true ∧
    checkKnotVectorR bin64 2 (([0, 0, 0, 1, 1, 1] : List ℚ).map fun x => fin (x * 2 ^ 1023)) 3 = .ok true ∧
    checkKnotVectorR bin64 2 (([-1, -1, -1, 1, 1, 1] : List ℚ).map fun x => fin (x * 2 ^ 1023)) 3 = .ok false ∧
    checkKnotVector 2 (([0, 0, 0, 1, 1, 1] : List ℚ).map fun x => x / 2 ^ 1024) 3 = .ok true ∧
    checkKnotVector 2 (([-1, -1, -1, 1, 1, 1] : List ℚ).map fun x => x * 2 ^ 1023) 3 = .ok true := by
  decide +kernel

/-! ## What the hypotheses exclude -/

/-- On a span of length `2^-1030` the quotients overflow: the basis functions come out infinite, though
they are between 0 and 1, and the arithmetic without overflow computes them exactly. -/
example : basisFunctionsR bin64 2 (fin (1 / 2 ^ 1031)) 2 (([0, 0, 0, 1, 1, 1] : List ℚ).map fun x => fin (x / 2 ^ 1030))
      = .ok [inf false, inf false, inf false] ∧
    basisFunctionsFl fl64 2 (1 / 2 ^ 1031) 2 (([0, 0, 0, 1, 1, 1] : List ℚ).map fun x => x / 2 ^ 1030)
      = .ok [1 / 4, 1 / 2, 1 / 4] := by decide +kernel

/-- Underflow makes the relative error large: at `u = 2^-538` the last quadratic basis function `u²` is
`2^-1076`, and is computed as `0`; the other two are right. -/
example : basisFunctions 2 (1 / 2 ^ 538) 2 ([0, 0, 0, 1, 1, 1] : List ℚ)
      = .ok [(1 - 1 / 2 ^ 538) ^ 2, 2 * (1 / 2 ^ 538) * (1 - 1 / 2 ^ 538), 1 / 2 ^ 1076] ∧
    basisFunctionsR bin64 2 (fin (1 / 2 ^ 538)) 2 (([0, 0, 0, 1, 1, 1] : List ℚ).map fin)
      = .ok [fin 1, fin (1 / 2 ^ 537), fin 0] := by decide +kernel

/-- Overflow in `normalize`: from finite knots it makes NaN. -/
example : normalizeR bin64 (([-1, -1, 0, 1, 1] : List ℚ).map fun x => fin (x * 2 ^ 1023))
    = .ok [fin 0, fin 0, fin 0, nan, nan] := by decide +kernel

/-- The theorem on `basis_functions` for a cubic whose knots are the doubles nearest to thirds. -/
example : ∃ N N' : List ℚ, basisFunctions 4 (1 / 2) 3 [0, 0, 0, 0, fl64 (1 / 3), fl64 (2 / 3), 1, 1, 1, 1] = .ok N ∧
    basisFunctionsR bin64 4 (fin (1 / 2)) 3
      (([0, 0, 0, 0, fl64 (1 / 3), fl64 (2 / 3), 1, 1, 1, 1] : List ℚ).map fin) = .ok (N'.map fin) ∧
    ∀ r ≤ 3, 0 ≤ N'.getD r 0 ∧
      |N'.getD r 0 - N.getD r 0| ≤ 1 / 10 ^ 14 * N.getD r 0 + (2 * 1 + 1) * (1 / 2 ^ 1050) := by
  obtain ⟨N, N', e1, e2, -, e4⟩ := basis_functions_binary64
    (U := [0, 0, 0, 0, fl64 (1 / 3), fl64 (2 / 3), 1, 1, 1, 1]) (k := 4) (p := 3) (u := 1 / 2) (H := 1)
    (by decide +kernel) (by norm_num) (by norm_num) (by decide) (by decide +kernel) (by decide +kernel)
    (by decide +kernel) (by decide +kernel) (by decide +kernel) (by decide +kernel) (by norm_num)
    (one_le_pow₀ (by norm_num))
  exact ⟨N, N', e1, e2, e4⟩

end PySpline
