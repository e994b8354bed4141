import Verif.Lemmas.DoubleAux
import Verif.Lemmas.EndsDouble
import Verif.Props.Rounded
import Verif.Props.VtkDouble

/-!
# C98–C101 in double precision
-/

set_option linter.unusedSectionVars false

namespace PySpline

open Polynomial Spec

/-! ## Error bounds -/

/-- **C98** in double precision, degree at most 10: every value of `basis_functions` has 14 correct
digits, and the values sum to 1 up to `1e-14`. -/
theorem basis_functions_double {U : List ℚ} (hU : U.Pairwise (· ≤ ·)) {k p : ℕ} {u : ℚ} (hp10 : p ≤ 10)
    (hp : p ≤ k) (hk : k + p < U.length) (hs : knotFn U k < knotFn U (k + 1)) (h1 : knotFn U k ≤ u)
    (h2 : u ≤ knotFn U (k + 1)) :
    ∃ N N', basisFunctions (k : ℤ) u p U = .ok N ∧ basisFunctionsFl fl64 (k : ℤ) u p U = .ok N' ∧
      N'.length = p + 1 ∧ (∀ r ≤ p, 0 ≤ N'.getD r 0 ∧
        |N'.getD r 0 - N.getD r 0| ≤ 1 / 10 ^ 14 * N.getD r 0) ∧ |N'.sum - 1| ≤ 1 / 10 ^ 14 := by
  obtain ⟨N, N', e1, e2, e3, e4⟩ := basis_functions_rounded accurate_fl64 hU hp hk hs h1 h2
  obtain ⟨N'', e5, e6⟩ := basis_functions_rounded_sum accurate_fl64 hU hp hk hs h1 h2
  rw [e2] at e5
  cases e5
  have hb := pow_error (6 * p) (by omega)
  refine ⟨N, N', e1, e2, e3, fun r hr => ⟨(e4 r hr).1, (e4 r hr).2.2.2.trans ?_⟩, e6.trans hb⟩
  refine mul_le_mul_of_nonneg_right hb ?_
  have := (e4 r hr).2.2.1
  refine le_trans (mul_nonneg (e4 r hr).1 (by positivity)) this

/-- Cubic, at a parameter which is not a double; the computed values differ from the exact ones. -/
example : ∃ N N', basisFunctions 3 (1 / 10) 3 ([0, 0, 0, 0, 1 / 3, 1, 1, 1, 1] : List ℚ) = .ok N ∧
    basisFunctionsFl fl64 3 (1 / 10) 3 [0, 0, 0, 0, 1 / 3, 1, 1, 1, 1] = .ok N' ∧ N' ≠ N ∧
    ∀ r ≤ 3, |N'.getD r 0 - N.getD r 0| ≤ 1 / 10 ^ 14 * N.getD r 0 := by
  obtain ⟨N, N', h1, h2, -, h3, -⟩ := basis_functions_double
    (U := [0, 0, 0, 0, 1 / 3, 1, 1, 1, 1]) (by decide +kernel) (k := 3) (p := 3) (u := 1 / 10)
    (by norm_num) le_rfl (by decide) (by decide +kernel) (by decide +kernel) (by decide +kernel)
  refine ⟨N, N', h1, h2, ?_, fun r hr => (h3 r hr).2⟩
  rintro rfl
  have : basisFunctionsFl fl64 3 (1 / 10) 3 [0, 0, 0, 0, 1 / 3, 1, 1, 1, 1]
    ≠ basisFunctions 3 (1 / 10) 3 ([0, 0, 0, 0, 1 / 3, 1, 1, 1, 1] : List ℚ) := by decide +kernel
  exact this (h2.trans h1.symm)

/-- **C99** in double precision: on `[0, 1]` with distinct interior knots, the last interior knot being
away from `1`, every point computed for a degree of at most 10 has an error of at most
`1e-14 ∑ |P_i| N_i(u)` in each coordinate. -/
theorem single_point_double {p n d : ℕ} {U : List ℚ} {P : List (List ℚ)} {u : ℚ} (hU : Clamped p n U)
    (hdist : DistinctInterior p n U) (hz : knotFn U 0 = 0) (ho : knotFn U (n + p) = 1)
    (hgap : knotFn U (n - 1) ≤ 1 - 102 / 10 ^ 8) (hp : 1 ≤ p) (hp10 : p ≤ 10) (hP : Shape P n d)
    (hd : 3 ≤ d) (h0 : 0 ≤ u) (h1 : u ≤ 1) :
    (∃ pt, Curve.PointFl fl64 (endTestFl fl64) ⟨p, P, U⟩ u pt) ∧
    ∀ pt, Curve.PointFl fl64 (endTestFl fl64) ⟨p, P, U⟩ u pt → pt.length = 3 ∧ ∀ c < 3,
      |pt.getD c 0 - curve (knotFn U) p n (coord P c) u| ≤ 1 / 10 ^ 14
        * curve (knotFn U) p n (fun i => |coord P c i|) u := by
  have hn : knotFn U n = 1 := by rw [hU.right n le_rfl (by omega), ho]
  have hreg := regular_of_distinct hU hdist hz ho h0 h1 (fun h => by
    rw [abs_of_nonpos (by linarith)] at h
    norm_num at h hgap
    linarith)
  obtain ⟨he, hall⟩ := single_point_rounded rounding_fl64 accurate_fl64 endTestFl_refl hU hp hP hd h0 h1 hreg
    (fun h => by
      rw [hn] at h
      exact hgap.trans (endTestFl_one h1 h))
  refine ⟨he, fun pt hpt => ⟨(hall pt hpt).1, fun c hc => ((hall pt hpt).2 c hc).trans ?_⟩⟩
  refine mul_le_mul_of_nonneg_right (pow_error _ (by omega)) ?_
  refine Finset.sum_nonneg fun i _ => mul_nonneg (abs_nonneg _) ?_
  exact Nclosed_nonneg (monotone_knotFn hU.mono) p n i u

/-- **C99** in double precision for surfaces of degrees at most 5. -/
theorem surface_point_double {s : Surface ℚ} (hs : ClampedSurface s) {u v : ℚ}
    (hpu : s.degreeU ≤ 5) (hpv : s.degreeV ≤ 5)
    (hdu : DistinctInterior s.degreeU s.numU s.kvU) (hdv : DistinctInterior s.degreeV s.numV s.kvV)
    (hku : UnitKnots s.degreeU s.numU s.kvU) (hkv : UnitKnots s.degreeV s.numV s.kvV)
    (hgu : knotFn s.kvU (s.numU - 1) ≤ 1 - 102 / 10 ^ 8)
    (hgv : knotFn s.kvV (s.numV - 1) ≤ 1 - 102 / 10 ^ 8)
    (hu : 0 ≤ u ∧ u ≤ 1) (hv : 0 ≤ v ∧ v ≤ 1) :
    (∃ pt, s.PointFl fl64 (endTestFl fl64) u v pt) ∧
    ∀ pt, s.PointFl fl64 (endTestFl fl64) u v pt → pt.length = 3 ∧ ∀ c < 3,
      |pt.getD c 0 - surface (knotFn s.kvU) s.degreeU s.numU (knotFn s.kvV) s.degreeV s.numV
        (coord s.ctrlpts c) u v| ≤ 1 / 10 ^ 14
        * surface (knotFn s.kvU) s.degreeU s.numU (knotFn s.kvV) s.degreeV s.numV
          (fun i => |coord s.ctrlpts c i|) u v := by
  have hnu : knotFn s.kvU s.numU = 1 := by rw [hs.cu.right s.numU le_rfl (by omega), hku.one]
  have hnv : knotFn s.kvV s.numV = 1 := by rw [hs.cv.right s.numV le_rfl (by omega), hkv.one]
  have hru := regular_of_distinct hs.cu hdu hku.zero hku.one hu.1 hu.2 (fun h => by
    rw [abs_of_nonpos (by linarith)] at h
    norm_num at h hgu
    linarith)
  have hrv := regular_of_distinct hs.cv hdv hkv.zero hkv.one hv.1 hv.2 (fun h => by
    rw [abs_of_nonpos (by linarith)] at h
    norm_num at h hgv
    linarith)
  obtain ⟨he, hall⟩ := surface_point_rounded rounding_fl64 accurate_fl64 endTestFl_refl hs hu hv hru hrv
    (fun h => by rw [hnu] at h; exact hgu.trans (endTestFl_one hu.2 h))
    (fun h => by rw [hnv] at h; exact hgv.trans (endTestFl_one hv.2 h))
  refine ⟨he, fun pt hpt => ⟨(hall pt hpt).1, fun c hc => ((hall pt hpt).2 c hc).trans ?_⟩⟩
  refine mul_le_mul_of_nonneg_right (pow_error _ (by omega)) ?_
  refine Finset.sum_nonneg fun i _ => Finset.sum_nonneg fun j _ => mul_nonneg (mul_nonneg (abs_nonneg _) ?_) ?_
  · exact Nclosed_nonneg (monotone_knotFn hs.cu.mono) _ _ i u
  · exact Nclosed_nonneg (monotone_knotFn hs.cv.mono) _ _ j v

example : (∃ pt, exS.PointFl fl64 (endTestFl fl64) (1/3) (2/3) pt) ∧
    ∀ pt, exS.PointFl fl64 (endTestFl fl64) (1/3) (2/3) pt → pt.length = 3 ∧ ∀ c < 3,
      |pt.getD c 0 - exS.value c (1/3) (2/3)| ≤ 1 / 10 ^ 14
        * surface (knotFn exS.kvU) 2 4 (knotFn exS.kvV) 1 3 (fun i => |coord exS.ctrlpts c i|) (1/3) (2/3) :=
  surface_point_double exS_clamped (by decide) (by decide)
    (by intro i h1 h2; change 2 ≤ i at h1; change i < 4 at h2; interval_cases i <;> decide +kernel)
    (by intro i h1 h2; change 1 ≤ i at h1; change i < 3 at h2; interval_cases i <;> decide +kernel)
    exS_unit.1 exS_unit.2 (by decide +kernel) (by decide +kernel) (by norm_num) (by norm_num)

/-! ## End points -/

/-- A degree 1 curve through `(1, 1, 1)` whose interior knot is the double nearest to `0.82`. -/
def exEnd : Curve ℚ := ⟨1, [[1, 1, 1], [2, 0, 0], [3, 1, 0]], [0, 0, fl64 (82 / 100), 1, 1]⟩

/-- **C100.** In double precision a clamped curve need not start at its first control point: every point
`single_point` can return at `0` for this curve is `(1 - 2^-53)` times the first control point.  (The
bound of C99 still holds.) -/
theorem first_point_double_inexact (pt : List ℚ) (h : exEnd.PointFl fl64 (endTestFl fl64) 0 pt) :
    pt = [1 - 1 / 2 ^ 53, 1 - 1 / 2 ^ 53, 1 - 1 / 2 ^ 53] := by
  obtain ⟨span, funs, -, hs, hb, c0, c1, c2, x, y, z, e0, e1, e2, -, dx, dy, dz, rfl⟩ := h
  have hs' : findSpanWith (endTestFl fl64) (spanFuel exEnd.ctrlpts.length exEnd.degree) exEnd.ctrlpts.length
      exEnd.degree 0 exEnd.kv = .ok 1 := by decide +kernel
  rw [hs'] at hs
  cases hs
  have hb' : basisFunctionsFl fl64 1 0 exEnd.degree exEnd.kv = .ok [1 - 1 / 2 ^ 53, 0] := by decide +kernel
  rw [hb'] at hb
  cases hb
  have hc0 : column (pySlice exEnd.ctrlpts ((1 : ℤ) - exEnd.degree) (1 + 1)) 0 = .ok [1, 2] := by
    decide +kernel
  have hc1 : column (pySlice exEnd.ctrlpts ((1 : ℤ) - exEnd.degree) (1 + 1)) 1 = .ok [1, 0] := by
    decide +kernel
  have hc2 : column (pySlice exEnd.ctrlpts ((1 : ℤ) - exEnd.degree) (1 + 1)) 2 = .ok [1, 0] := by
    decide +kernel
  rw [hc0] at e0
  rw [hc1] at e1
  rw [hc2] at e2
  cases e0
  cases e1
  cases e2
  have hr : fl64 (1 - 1 / 2 ^ 53) = 1 - 1 / 2 ^ 53 := by decide +kernel
  have key : ∀ b s, DotFl fl64 ([1 - 1 / 2 ^ 53, 0].zip [1, b]) s → s = 1 - 1 / 2 ^ 53 := by
    intro b s hs
    have hne : (1 - 1 / 2 ^ 53 : ℚ) ≠ 0 := by norm_num
    have hcnt : ([1 - 1 / 2 ^ 53, 0].zip [1, b]).countP (fun x : ℚ × ℚ => x.1 * x.2 ≠ 0) = 1 := by
      show [(1 - 1 / 2 ^ 53, 1), (0, b)].countP (fun x : ℚ × ℚ => x.1 * x.2 ≠ 0) = 1
      rw [List.countP_cons_of_pos (by rw [mul_one]; exact decide_eq_true hne),
        List.countP_cons_of_neg (by rw [zero_mul]; simp), List.countP_nil]
    rcases hs.one_term fl64_zero hr (by simp) hcnt.le with ⟨-, h⟩ | ⟨h, -⟩
    · omega
    · exact h
  rw [key 2 x dx, key 0 y dy, key 0 z dz]

/-- There is such a point. -/
example : ∃ pt, exEnd.PointFl fl64 (endTestFl fl64) 0 pt :=
  (single_point_double (p := 1) (n := 3) (d := 3)
    (hU := ⟨⟨by decide +kernel, by decide +kernel, by decide⟩,
      by intro i hi; interval_cases i <;> decide +kernel,
      by intro i h1 h2; interval_cases i <;> decide +kernel⟩)
    (hdist := by intro i h1 h2; interval_cases i <;> decide +kernel)
    (by decide +kernel) (by decide +kernel) (by decide +kernel) le_rfl (by norm_num)
    ⟨by decide, by decide +kernel⟩ le_rfl le_rfl (by norm_num)).1

/-! ## Knot vectors -/

/-- **C101.** `normalize` in double precision on an array of doubles with two different entries: all
values are in `[0, 1]`, the order is kept, the smallest knot becomes `0` and the largest becomes `1` or
`1 - 2^-53`. -/
theorem normalize_double {U : List ℚ} (hfl : ∀ x ∈ U, fl64 x = x) {lo hi : ℚ} (hlo : lo ∈ U) (hhi : hi ∈ U)
    (hb : ∀ x ∈ U, lo ≤ x ∧ x ≤ hi) (hlt : lo < hi) :
    ∃ g : ℚ → ℚ, normalizeFl fl64 U = .ok (U.map g) ∧ Monotone g ∧ g lo = 0 ∧
      (g hi = 1 ∨ g hi = 1 - 1 / 2 ^ 53) ∧ (∀ x ∈ U, 0 ≤ g x ∧ g x ≤ 1) := by
  have hd : 0 < fl64 (hi - lo) := fl64_pos (sub_pos.2 hlt)
  have hf := fl64_pos (one_div_pos.2 hd)
  have hmono : Monotone fun x => fl64 (fl64 (x - lo) * fl64 (1 / fl64 (hi - lo))) := fun x y h =>
    rounding_fl64.mono (mul_le_mul_of_nonneg_right (rounding_fl64.mono (by linarith)) hf.le)
  refine ⟨fun x => fl64 (fl64 (x - lo) * fl64 (1 / fl64 (hi - lo))), ?_, hmono, ?_, ?_, ?_⟩
  · unfold normalizeFl pyDivFl
    rw [npMax_eq hhi fun x hx => (hb x hx).2, ok_bind, npMin_eq hlo fun x hx => (hb x hx).1, ok_bind]
    dsimp only
    rw [pyDiv_ok hd.ne', ok_bind, ok_bind, mul_one, hfl lo hlo, List.map_map]
    rfl
  · simp [fl64_zero]
  · have h1 := fl64_lower (x := 1 / fl64 (hi - lo)) (one_div_pos.2 hd).le
    have h2 : 1 - 1 / 2 ^ 53 ≤ fl64 (hi - lo) * fl64 (1 / fl64 (hi - lo)) := by
      calc (1 - 1 / 2 ^ 53 : ℚ) = fl64 (hi - lo) * ((1 - 1 / 2 ^ 53) * (1 / fl64 (hi - lo))) := by
            field_simp
        _ ≤ _ := mul_le_mul_of_nonneg_left h1 hd.le
    have h3 : fl64 (1 - 1 / 2 ^ 53) = 1 - 1 / 2 ^ 53 := by decide +kernel
    exact double_near_one (h3.symm.trans_le (rounding_fl64.mono h2))
      (fl64_recip_mul_le hd hd.le le_rfl) (rounding_fl64.idem _)
  · intro x hx
    have h1 : 0 ≤ fl64 (x - lo) := fl64_nonneg (sub_nonneg.2 (hb x hx).1)
    exact ⟨fl64_nonneg (mul_nonneg h1 hf.le), fl64_recip_mul_le hd h1
      (rounding_fl64.mono (by linarith [(hb x hx).2]))⟩

example : normalizeFl fl64 [2, 2, 3, 5, 5] = .ok [0, 0, fl64 (1 / 3), 1, 1] := by decide +kernel

/-- **C101.** The largest knot need not become `1`, and `normalize` is not idempotent: of `[0, 49]` the
last value becomes `1 - 2^-53`, after a second call `1`. -/
theorem normalize_double_inexact : normalizeFl fl64 [0, 49] = .ok [0, 1 - 1 / 2 ^ 53] ∧
    normalizeFl fl64 [0, 1 - 1 / 2 ^ 53] = .ok [0, 1] := by decide +kernel

/-- **C101.** In double precision `check_knot_vector` accepts every clamped knot vector of doubles. -/
theorem check_knot_vector_double {p n : ℕ} {U : List ℚ} (hfl : ∀ x ∈ U, fl64 x = x) (hU : Clamped p n U)
    (hne : knotFn U 0 ≠ knotFn U (n + p)) : checkKnotVectorFl fl64 p U n = .ok true := by
  have hlen := hU.len
  have hV := monotone_knotFn hU.mono
  have h0 : knotFn U 0 ∈ U := by rw [knotFn_eq (by omega)]; exact List.getElem_mem _
  have h1 : knotFn U (n + p) ∈ U := by rw [knotFn_eq (by omega)]; exact List.getElem_mem _
  have hb : ∀ x ∈ U, knotFn U 0 ≤ x ∧ x ≤ knotFn U (n + p) := by
    intro x hx
    obtain ⟨i, hi, rfl⟩ := List.mem_iff_getElem.1 hx
    rw [← knotFn_eq hi]
    exact ⟨hV (by omega), hV (by omega)⟩
  have hlt := lt_of_le_of_ne (hV (by omega : 0 ≤ n + p)) hne
  obtain ⟨g, hg, hm, g0, g1', g01⟩ := normalize_double hfl h0 h1 hb hlt
  have g1 : 1 - 1 / 2 ^ 53 ≤ g (knotFn U (n + p)) := by
    rcases g1' with h | h <;> rw [h] <;> norm_num
  clear g1'
  unfold checkKnotVectorFl
  rw [hg]
  dsimp only
  unfold checkNormalizedFl
  have e : ∀ i, i < U.length → knotFn (U.map g) i = g (knotFn U i) := by
    intro i hi
    rw [knotFn_eq (by simpa using hi), List.getElem_map, ← knotFn_eq hi]
  rw [if_neg (by simp [hlen]), pySlice_nat _ 0 _ 0 (p + 1) 0 rfl (by push_cast; ring) (by simp; omega)]
  have hz : iscloseFl fl64 0 0 rtolDefault atolDefault = true := by decide +kernel
  rw [if_neg, pyGet_neg (U.map g) _ n 0 (by omega) (by simp; omega), ok_bind]
  swap
  · rw [not_not, List.all_eq_true]
    intro x hx
    obtain ⟨r, hr, rfl⟩ := List.mem_map.1 hx
    have hr' := List.mem_range.1 hr
    have e2 : (U.map g).getD (0 + r) 0 = knotFn (U.map g) r := by
      rw [zero_add, knotFn_eq (by simp; omega), List.getD_eq_getElem?_getD,
        List.getElem?_eq_getElem (by simp; omega)]
      rfl
    rw [e2, e r (by omega), hU.left r (by omega), g0]
    exact hz
  have e3 : (U.map g).getD n 0 = g (knotFn U (n + p)) := by
    have : (U.map g).getD n 0 = knotFn (U.map g) n := by
      rw [knotFn_eq (by simp; omega), List.getD_eq_getElem?_getD, List.getElem?_eq_getElem (by simp; omega)]
      rfl
    rw [this, e n (by omega), hU.right n le_rfl (by omega)]
  rw [e3, if_neg]
  · rw [pyGet_nat (U.map g) 0 0 0 rfl (by simp; omega), ok_bind]
    congr 1
    have hsort : (U.map g).Pairwise (· ≤ ·) := by
      rw [List.pairwise_map]
      exact hU.mono.imp fun h => hm h
    cases hW : U.map g with
    | nil => have := congrArg List.length hW; simp at this; rw [this] at hlen; simp at hlen
    | cons a l =>
      rw [hW] at hsort
      simp only [List.getD_cons_zero]
      exact (increasingFrom_head a l).2 hsort
  · rw [not_not]
    have hle := (g01 _ h1).2
    set x := g (knotFn U (n + p))
    unfold iscloseFl
    rw [decide_eq_true_eq]
    have a1 : |fl64 (1 - x)| ≤ 1 / 2 ^ 53 := by
      rw [abs_of_nonneg (fl64_nonneg (by linarith))]
      have h3 : fl64 (1 / 2 ^ 53) = 1 / 2 ^ 53 := by decide +kernel
      rw [← h3]
      exact rounding_fl64.mono (by linarith)
    have a2 : fl64 (fl64 atolDefault) ≤ fl64 (fl64 atolDefault + fl64 (fl64 rtolDefault * |x|)) := by
      refine rounding_fl64.mono (le_add_of_nonneg_right (fl64_nonneg (mul_nonneg (fl64_nonneg ?_) (abs_nonneg _))))
      unfold rtolDefault; positivity
    have a3 : (1 / 2 ^ 53 : ℚ) ≤ fl64 (fl64 atolDefault) := by decide +kernel
    exact a1.trans (a3.trans a2)

/-- The largest normalised knot is not `1` and the vector is accepted all the same. -/
example : checkKnotVectorFl fl64 1 [0, 0, 7, 49, 49] 3 = .ok true ∧
    checkKnotVectorFl fl64 1 [0, 7, 7, 49, 49] 3 = .ok false := by decide +kernel

end PySpline
