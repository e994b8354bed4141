import Verif.Lemmas.FittingAux
import Verif.Lemmas.Fitting
import Verif.Props.Surface

/-!
# Least-squares fits: C47–C52, C56, C57, C81
-/

set_option linter.unusedSectionVars false

namespace PySpline

open Spec Finset

section
variable {K : Type} [Field K] [LinearOrder K]

/-! ## C47 -/

/-- **C47.** Whenever `linear_fit_fixed` returns, for whatever matrix, right-hand side, mask and
least-squares solver, the result has the length of `P` and agrees with `P` on the fixed entries. -/
theorem linear_fit_fixed_keeps (ls : ℕ → List (List K) → List K → List K) (R : List (List K))
    (Q P : List K) (fixed : List Bool) (x : List K) (h : linearFitFixed ls R Q P fixed = .ok x) :
    x.length = P.length ∧ ∀ i < P.length, fixed.getD i false = true → x.getD i 0 = P.getD i 0 :=
  linearFitFixed_ok h

/-- **C47**, all entries fixed: `P` is returned and the solver is not asked. -/
theorem linear_fit_fixed_all (ls : ℕ → List (List K) → List K → List K) (R : List (List K))
    (Q P : List K) (fixed : List Bool) (hlen : P.length ≤ fixed.length)
    (h : ∀ i < P.length, fixed.getD i false = true) : linearFitFixed ls R Q P fixed = .ok P := by
  unfold linearFitFixed
  have : Returns (forN 0 P.length 0 fun i nfixed => do
      let f ← pyGet fixed i
      .ok (if f then nfixed + 1 else nfixed)) fun n => n = P.length := by
    refine Returns.forN (fun i (c : ℕ) => c = i) (Nat.zero_le _) rfl ?_
    rintro i c - hi rfl
    rw [pyGet_nat _ _ c false rfl (by omega), ok_bind, h c hi]
    exact Returns.ok rfl
  rw [this.eq_ok, ok_bind, if_pos rfl]

end

section
variable {K : Type} [Field K] [LinearOrder K] [IsStrictOrderedRing K]

/-! ## C48 -/

/-- **C48.** `linear_fit_fixed` returns a vector that minimizes the squared residual among all
vectors with the given fixed entries. -/
theorem linear_fit_fixed_optimal {ls : ℕ → List (List K) → List K → List K} (hls : IsLstsq ls)
    {R : List (List K)} {Q P : List K} {fixed : List Bool} (hR : Shape R Q.length P.length)
    (hf : fixed.length = P.length) :
    ∃ x, linearFitFixed ls R Q P fixed = .ok x ∧ x.length = P.length ∧
      (∀ i < P.length, fixed.getD i false = true → x.getD i 0 = P.getD i 0) ∧
      ∀ z : ℕ → K, (∀ i < P.length, fixed.getD i false = true → z i = P.getD i 0) →
        sqResid R P.length (fun i => x.getD i 0) Q ≤ sqResid R P.length z Q :=
  linearFitFixed_spec hls hR hf

/-! ## C49 -/

/-- **C49.** Whenever `single_fit_curve` returns: degree, knots, number of control points and the
end control points are unchanged. -/
theorem single_fit_curve_keeps (ls : ℕ → List (List K) → List K → List K) (c c' : Curve K)
    (data : List (List K)) (h : singleFitCurve ls c data = .ok c')
    (h3 : ∀ row ∈ c.ctrlpts, row.length = 3) :
    c'.degree = c.degree ∧ c'.kv = c.kv ∧ Shape c'.ctrlpts c.ctrlpts.length 3 ∧
      c'.ctrlpts.getD 0 [] = c.ctrlpts.getD 0 [] ∧
      c'.ctrlpts.getD (c.ctrlpts.length - 1) [] = c.ctrlpts.getD (c.ctrlpts.length - 1) [] := by
  obtain ⟨h1, h2, hn, hs, he⟩ := singleFitCurve_ok h
  refine ⟨h1, h2, hs, ?_, ?_⟩
  · exact getD_eq_of_at2 hs ⟨rfl, h3⟩ hn fun k hk => (he k hk).1
  · exact getD_eq_of_at2 hs ⟨rfl, h3⟩ (by omega) fun k hk => (he k hk).2

/-! ## C50 -/

/-- **C50.** On a clamped knot vector with a non-empty first span, with all parameters in the closed
domain, the matrix holds the basis functions at the parameters, its rows sum to one, and the
partition-of-unity check passes. -/
theorem single_fit_curve_unity {c : Curve K} {data : List (List K)} {m n : ℕ}
    (hU : Clamped c.degree n c.kv) (hfirst : knotFn c.kv c.degree < knotFn c.kv (c.degree + 1))
    (hn : c.ctrlpts.length = n) (hd : Shape data m 4)
    (hdom : ∀ r < m, knotFn c.kv c.degree ≤ at2 data r 3 0 ∧ at2 data r 3 0 ≤ knotFn c.kv n) :
    ∃ M, curveMatrix c data = .ok M ∧ Shape M m n ∧
      (∀ r < m, ∀ i < n, at2 M r i 0 = Nclosed (knotFn c.kv) c.degree n i (at2 data r 3 0)) ∧
      checkUnity M data.length = .ok () := by
  obtain ⟨M, hM, hs, hv⟩ := curveMatrix_of_clamped hU hfirst hn hd
  refine ⟨M, hM, hs, hv, ?_⟩
  rw [hd.1]
  refine checkUnity_ok hs fun r hr => ?_
  rw [← sum_Nclosed hU (hdom r hr).1 (hdom r hr).2]
  exact sum_congr rfl fun i hi => hv r hr i (mem_range.1 hi)

/-- **C50.** The check has a meaning: if `k` of the `m` parameters are outside the domain and
`k > 1e-8 + 1e-5 m` (so a single one, for less than `99999` data points), `single_fit_curve` raises;
with fewer than that it passes (`np.isclose` compares the sum over *all* rows with `m`). -/
theorem single_fit_curve_outside_raises {ls : ℕ → List (List K) → List K → List K} {c : Curve K}
    {data : List (List K)} {m n : ℕ}
    (hU : Clamped c.degree n c.kv) (hfirst : knotFn c.kv c.degree < knotFn c.kv (c.degree + 1))
    (hn : c.ctrlpts.length = n) (hd : Shape data m 4) (out : Finset ℕ)
    (hout : out = (range m).filter fun r => at2 data r 3 0 < knotFn c.kv 0 ∨
      knotFn c.kv (n + c.degree) < at2 data r 3 0) :
    ∃ M, curveMatrix c data = .ok M ∧
      (checkUnity M data.length = .error .valueError ↔
        (1 : K) / 10 ^ 8 + 1 / 10 ^ 5 * m < out.card) ∧
      ((1 : K) / 10 ^ 8 + 1 / 10 ^ 5 * m < out.card → singleFitCurve ls c data = .error .valueError) := by
  obtain ⟨M, hM, hs, hv⟩ := curveMatrix_of_clamped hU hfirst hn hd
  have key := checkUnity_out hs (P := fun r => at2 data r 3 0 < knotFn c.kv 0 ∨
      knotFn c.kv (n + c.degree) < at2 data r 3 0) fun r hr => by
    rw [← sum_Nclosed_ite hU]
    exact sum_congr rfl fun i hi => hv r hr i (mem_range.1 hi)
  rw [← hout, ← hd.1] at key
  rw [hd.1] at key ⊢
  refine ⟨M, hM, key, fun h => ?_⟩
  unfold singleFitCurve
  rw [hM, ok_bind, hd.1, key.2 h]
  rfl

/-! ## C51 -/

/-- **C51.** `single_fit_curve` returns the curve that minimizes, in every coordinate, the sum of
the squared distances between the data and the curve at the given parameters among all curves with
the same knots and the same first and last control point. -/
theorem single_fit_curve_optimal {ls : ℕ → List (List K) → List K → List K} (hls : IsLstsq ls)
    {c : Curve K} {data : List (List K)} {m n : ℕ}
    (hU : Clamped c.degree n c.kv) (hfirst : knotFn c.kv c.degree < knotFn c.kv (c.degree + 1))
    (hP : Shape c.ctrlpts n 3) (hd : Shape data m 4)
    (hdom : ∀ r < m, knotFn c.kv c.degree ≤ at2 data r 3 0 ∧ at2 data r 3 0 ≤ knotFn c.kv n) :
    ∃ c', singleFitCurve ls c data = .ok c' ∧ c'.degree = c.degree ∧ c'.kv = c.kv ∧
      Shape c'.ctrlpts n 3 ∧
      (∀ k < 3, coord c'.ctrlpts k 0 = coord c.ctrlpts k 0 ∧
        coord c'.ctrlpts k (n - 1) = coord c.ctrlpts k (n - 1)) ∧
      ∀ k < 3, ∀ z : ℕ → K, z 0 = coord c.ctrlpts k 0 → z (n - 1) = coord c.ctrlpts k (n - 1) →
        ∑ r ∈ range m, (curve (knotFn c.kv) c.degree n (coord c'.ctrlpts k) (at2 data r 3 0)
            - at2 data r k 0) ^ 2
          ≤ ∑ r ∈ range m, (curve (knotFn c.kv) c.degree n z (at2 data r 3 0) - at2 data r k 0) ^ 2 := by
  have hsz := hU.size
  obtain ⟨M, hM, hs, hv, hun⟩ := single_fit_curve_unity hU hfirst hP.1 hd hdom
  obtain ⟨f, hf, hfl, hfv⟩ := curveMask_eq (n := n) (by omega)
  obtain ⟨new, hnew, hns, hopt⟩ := fitColumns_spec hls hs hd (by omega) hP hfl
  refine ⟨{ c with ctrlpts := new }, ?_, rfl, rfl, hns, fun k hk => ?_, fun k hk z h0 h1 => ?_⟩
  · unfold singleFitCurve
    rw [hM, ok_bind, hun, ok_bind, hP.1, hf, ok_bind, hnew, ok_bind]
  · refine ⟨(hopt k hk).1 0 (by omega) ?_, (hopt k hk).1 (n - 1) (by omega) ?_⟩
    · rw [hfv 0 (by omega)]; simp
    · rw [hfv _ (by omega)]; simp; omega
  · have hres : ∀ w : ℕ → K, sqResid M n w (data.map fun row => row.getD k 0)
        = ∑ r ∈ range m, (curve (knotFn c.kv) c.degree n w (at2 data r 3 0) - at2 data r k 0) ^ 2 := by
      intro w
      unfold sqResid
      rw [List.length_map, hd.1]
      refine sum_congr rfl fun r hr => ?_
      have hr' := mem_range.1 hr
      rw [getD_map_row]
      congr 2
      unfold curve
      refine sum_congr rfl fun i hi => ?_
      have := hv r hr' i (mem_range.1 hi)
      unfold at2 at this
      rw [this, mul_comm]
      rfl
    rw [← hres, ← hres]
    refine (hopt k hk).2 z fun i hi hfi => ?_
    rw [hfv i hi] at hfi
    rcases of_decide_eq_true hfi with rfl | h
    · exact h0
    · rw [show i = n - 1 by omega]; exact h1

/-- **C51**, in particular the fit does not increase the squared distance. -/
theorem single_fit_curve_not_worse {ls : ℕ → List (List K) → List K → List K} (hls : IsLstsq ls)
    {c : Curve K} {data : List (List K)} {m n : ℕ}
    (hU : Clamped c.degree n c.kv) (hfirst : knotFn c.kv c.degree < knotFn c.kv (c.degree + 1))
    (hP : Shape c.ctrlpts n 3) (hd : Shape data m 4)
    (hdom : ∀ r < m, knotFn c.kv c.degree ≤ at2 data r 3 0 ∧ at2 data r 3 0 ≤ knotFn c.kv n) :
    ∃ c', singleFitCurve ls c data = .ok c' ∧ ∀ k < 3,
      ∑ r ∈ range m, (curve (knotFn c.kv) c.degree n (coord c'.ctrlpts k) (at2 data r 3 0)
          - at2 data r k 0) ^ 2
        ≤ ∑ r ∈ range m, (curve (knotFn c.kv) c.degree n (coord c.ctrlpts k) (at2 data r 3 0)
          - at2 data r k 0) ^ 2 := by
  obtain ⟨c', h, -, -, -, -, hopt⟩ := single_fit_curve_optimal hls hU hfirst hP hd hdom
  exact ⟨c', h, fun k hk => hopt k hk _ rfl rfl⟩

/-! ## C52 -/

/-- **C52.** The mask of `single_fit_surface` marks exactly the indices of boundary control points. -/
theorem surface_mask_boundary {nu nv : ℕ} (hu : 0 < nu) (hv : 0 < nv) :
    ∃ mask, surfaceMask nu nv (nu * nv) = .ok mask ∧ mask.length = nu * nv ∧
      ∀ i < nu, ∀ j < nv, mask.getD (i * nv + j) false
        = decide (i = 0 ∨ i + 1 = nu ∨ j = 0 ∨ j + 1 = nv) := by
  unfold surfaceMask
  dsimp only
  set l0 := sliceTrue (sliceTrue (List.replicate (nu * nv) false) 0 nv) (-1 * (nv : ℤ))
    ((nu * nv : ℕ) : ℤ) with hl0
  have hlen : l0.length = nu * nv := by rw [hl0, sliceTrue_length, sliceTrue_length]; simp
  have hle : nv ≤ nu * nv := Nat.le_mul_of_pos_left nv hu
  have hval : ∀ i < nu, ∀ j < nv, l0.getD (i * nv + j) false = decide (i = 0 ∨ i + 1 = nu) := by
    intro i hi j hj
    have hlt := index_lt hi hj
    rw [hl0, sliceTrue_getD _ _ _ (by rw [sliceTrue_length]; simpa using hlt),
      sliceTrue_getD _ _ _ (by simpa using hlt), sliceTrue_length, List.length_replicate]
    have c1 : clipBound (nu * nv) (-1 * (nv : ℤ)) = (nu - 1) * nv := by
      unfold clipBound
      rw [if_pos (by omega), Nat.sub_mul, one_mul]
      push_cast
      omega
    have c2 : clipBound (nu * nv) ((nu * nv : ℕ) : ℤ) = nu * nv := by
      unfold clipBound
      rw [if_neg (by omega)]
      omega
    have c3 : clipBound (nu * nv) 0 = 0 := by simp [clipBound]
    have c4 : clipBound (nu * nv) (nv : ℤ) = nv := by
      unfold clipBound
      rw [if_neg (by omega)]
      omega
    rw [c1, c2, c3, c4]
    have e0 : (List.replicate (nu * nv) false).getD (i * nv + j) false = false := by
      simp [List.getD_eq_getElem?_getD, hlt]
    rw [e0]
    by_cases h1 : i + 1 = nu
    · rw [if_pos ⟨by rw [show nu - 1 = i by omega]; omega, hlt⟩]
      exact (decide_eq_true (Or.inr h1)).symm
    · rw [if_neg]
      · by_cases h0 : i = 0
        · subst h0
          rw [if_pos ⟨Nat.zero_le _, by omega⟩]
          exact (decide_eq_true (Or.inl rfl)).symm
        · rw [if_neg, decide_eq_false (by omega)]
          have : 1 * nv ≤ i * nv := Nat.mul_le_mul_right nv (by omega)
          omega
      · have := index_lt (show i < nu - 1 by omega) hj
        omega
  have key := Returns.forN (a := 1) (b := max 1 (nu - 1)) (s := l0)
    (f := fun step fixed => do
      let fixed ← pySet fixed ((step * nv : ℕ) : ℤ) true
      pySet fixed (((step * nv : ℕ) : ℤ) + nv - 1) true)
    (fun t (m : List Bool) => m.length = nu * nv ∧ ∀ i < nu, ∀ j < nv, m.getD (i * nv + j) false
      = decide (i = 0 ∨ i + 1 = nu ∨ ((j = 0 ∨ j + 1 = nv) ∧ i < t))) (by omega) ?_ ?_
  · have hforN : ∀ f : ℕ → List Bool → Py (List Bool), forN 1 (nu - 1) l0 f = forN 1 (max 1 (nu - 1)) l0 f := by
      intro f
      by_cases h : 1 ≤ nu - 1
      · rw [max_eq_right h]
      · rw [forN_empty (by omega), forN_empty (by omega)]
    rw [hforN]
    obtain ⟨m, hm, hl, hmv⟩ := key
    refine ⟨m, hm, hl, fun i hi j hj => ?_⟩
    rw [hmv i hi j hj]
    refine decide_eq_decide.2 ?_
    omega
  · refine ⟨hlen, fun i hi j hj => ?_⟩
    rw [hval i hi j hj]
    refine decide_eq_decide.2 ?_
    omega
  · rintro t m ht1 ht2 ⟨g1, g2⟩
    have ht : t < nu := by omega
    have i0 := index_lt (j := 0) ht hv
    have i1 := index_lt (m := nv) (j := nv - 1) ht (by omega)
    rw [pySet_nat _ _ (t * nv) _ rfl (by omega), ok_bind,
      pySet_nat _ _ (t * nv + (nv - 1)) _ (by omega) (by rw [List.length_set]; omega)]
    refine Returns.ok ⟨by simp [g1], fun i hi j hj => ?_⟩
    rw [getD_set _ _ _ _ _ (by rw [List.length_set]; omega), getD_set _ _ _ _ _ (by omega)]
    by_cases h1 : i * nv + j = t * nv + (nv - 1)
    · rw [if_pos h1]
      obtain ⟨rfl, rfl⟩ := index_eq hj (by omega) h1
      exact (decide_eq_true (by omega)).symm
    · rw [if_neg h1]
      by_cases h2 : i * nv + j = t * nv
      · rw [if_pos h2]
        obtain ⟨rfl, rfl⟩ := index_eq (j' := 0) hj hv (by rw [add_zero]; exact h2)
        exact (decide_eq_true (by omega)).symm
      · rw [if_neg h2, g2 i hi j hj]
        refine decide_eq_decide.2 ?_
        have : i = t → j ≠ 0 ∧ j + 1 ≠ nv := by
          rintro rfl
          exact ⟨fun e => h2 (by rw [e]; omega), fun e => h1 (by omega)⟩
        omega

/-- **C52.** Whenever `single_fit_surface` returns, the boundary control points are unchanged (and so
are degrees, sizes and knots). -/
theorem single_fit_surface_keeps (ls : ℕ → List (List K) → List K → List K) (s s' : Surface K)
    (data : List (List K)) (h : singleFitSurface ls s data = .ok s') (hu : 0 < s.numU)
    (hv : 0 < s.numV) (hP : Shape s.ctrlpts (s.numU * s.numV) 3) :
    s' = { s with ctrlpts := s'.ctrlpts } ∧ Shape s'.ctrlpts (s.numU * s.numV) 3 ∧
      ∀ i < s.numU, ∀ j < s.numV, i = 0 ∨ i + 1 = s.numU ∨ j = 0 ∨ j + 1 = s.numV →
        s'.ctrlpts.getD (i * s.numV + j) [] = s.ctrlpts.getD (i * s.numV + j) [] := by
  unfold singleFitSurface at h
  obtain ⟨M, -, h⟩ := bind_eq_ok h
  obtain ⟨_, -, h⟩ := bind_eq_ok h
  obtain ⟨f, hf, h⟩ := bind_eq_ok h
  obtain ⟨new, hnew, h⟩ := bind_eq_ok h
  cases h
  obtain ⟨mask, hm, -, hmask⟩ := surface_mask_boundary hu hv
  rw [hP.1, hm] at hf
  cases hf
  obtain ⟨h1, h2⟩ := fitColumns_ok hnew
  rw [hP.1] at h1 h2
  refine ⟨rfl, h1, fun i hi j hj hb => ?_⟩
  have hlt := index_lt hi hj
  exact getD_eq_of_at2 h1 hP hlt fun k hk => h2 _ hlt
    (by rw [hmask i hi j hj]; exact decide_eq_true hb) k hk

/-! ## C81: the surface fit is optimal -/

/-- **C50** for surfaces: `single_fit_surface` raises exactly when the number of data points with a
parameter outside the domain in one of the directions exceeds `1e-8 + 1e-5 m`; otherwise it returns. -/
theorem single_fit_surface_outside_raises {ls : ℕ → List (List K) → List K → List K} (hls : IsLstsq ls)
    {s : Surface K} {data : List (List K)} {m : ℕ} (hs : ClampedSurface s)
    (fu : knotFn s.kvU s.degreeU < knotFn s.kvU (s.degreeU + 1))
    (fv : knotFn s.kvV s.degreeV < knotFn s.kvV (s.degreeV + 1)) (hd : Shape data m 5)
    (out : Finset ℕ) (hout : out = (range m).filter fun r =>
      (at2 data r 3 0 < knotFn s.kvU 0 ∨ knotFn s.kvU (s.numU + s.degreeU) < at2 data r 3 0) ∨
      at2 data r 4 0 < knotFn s.kvV 0 ∨ knotFn s.kvV (s.numV + s.degreeV) < at2 data r 4 0) :
    ((1 : K) / 10 ^ 8 + 1 / 10 ^ 5 * m < out.card → singleFitSurface ls s data = .error .valueError) ∧
    (¬ (1 : K) / 10 ^ 8 + 1 / 10 ^ 5 * m < out.card → ∃ s', singleFitSurface ls s data = .ok s') := by
  have su := hs.cu.size
  have sv := hs.cv.size
  obtain ⟨M, hM, hMs, hMv⟩ := surfaceMatrix_spec (s := s) (data := data) (m := m)
    (fun r i => Nclosed (knotFn s.kvU) s.degreeU s.numU i (at2 data r 3 0))
    (fun r j => Nclosed (knotFn s.kvV) s.degreeV s.numV j (at2 data r 4 0)) hd hs.shape.1
    (fun _ _ _ hi => one_basis_function_cox_de_boor hs.cu fu hi _)
    (fun _ _ _ hj => one_basis_function_cox_de_boor hs.cv fv hj _)
  have key := checkUnity_out hMs (P := fun r =>
      (at2 data r 3 0 < knotFn s.kvU 0 ∨ knotFn s.kvU (s.numU + s.degreeU) < at2 data r 3 0) ∨
      at2 data r 4 0 < knotFn s.kvV 0 ∨ knotFn s.kvV (s.numV + s.degreeV) < at2 data r 4 0)
      fun r hr => by
    rw [sum_grid]
    have : ∀ i ∈ range s.numU, ∑ j ∈ range s.numV, at2 M r (i * s.numV + j) 0
        = Nclosed (knotFn s.kvU) s.degreeU s.numU i (at2 data r 3 0)
          * ∑ j ∈ range s.numV, Nclosed (knotFn s.kvV) s.degreeV s.numV j (at2 data r 4 0) := by
      intro i hi
      rw [sum_congr rfl fun j hj => hMv r hr i (mem_range.1 hi) j (mem_range.1 hj), ← mul_sum]
    rw [sum_congr rfl this, ← sum_mul, sum_Nclosed_ite hs.cu, sum_Nclosed_ite hs.cv]
    split_ifs with h1 h2 h3 h3 <;> first | (simp; done) | (exfalso; tauto)
  rw [← hout] at key
  obtain ⟨f, hf, hfl, hfv⟩ := surface_mask_boundary (nu := s.numU) (nv := s.numV) (by omega) (by omega)
  obtain ⟨new, hnew, hns, hopt⟩ := fitColumns_spec hls hMs hd (by omega) hs.shape hfl
  constructor
  · intro h
    unfold singleFitSurface
    rw [hM, ok_bind, hd.1, key.2 h]
    rfl
  · intro h
    have h' := mt key.1 h
    have : checkUnity M m = .ok () := by
      unfold checkUnity at h' ⊢
      dsimp only at h' ⊢
      split at h'
      · exact absurd rfl h'
      · rename_i h''; rw [if_neg h'']
    refine ⟨{ s with ctrlpts := new }, ?_⟩
    unfold singleFitSurface
    rw [hM, ok_bind, hd.1, this, ok_bind, hs.shape.1, hf, ok_bind, hnew, ok_bind]

/-- **C81.** `single_fit_surface`, with all parameters in the closed domain of clamped knot vectors
with non-empty first spans, does not raise, and returns the surface that minimizes, in every
coordinate, the sum of the squared distances at the given parameters among all surfaces with the
same knots and boundary control points. -/
theorem single_fit_surface_optimal {ls : ℕ → List (List K) → List K → List K} (hls : IsLstsq ls)
    {s : Surface K} {data : List (List K)} {m : ℕ} (hs : ClampedSurface s)
    (fu : knotFn s.kvU s.degreeU < knotFn s.kvU (s.degreeU + 1))
    (fv : knotFn s.kvV s.degreeV < knotFn s.kvV (s.degreeV + 1)) (hd : Shape data m 5)
    (hu : ∀ r < m, knotFn s.kvU s.degreeU ≤ at2 data r 3 0 ∧ at2 data r 3 0 ≤ knotFn s.kvU s.numU)
    (hv : ∀ r < m, knotFn s.kvV s.degreeV ≤ at2 data r 4 0 ∧ at2 data r 4 0 ≤ knotFn s.kvV s.numV) :
    ∃ s', singleFitSurface ls s data = .ok s' ∧ s' = { s with ctrlpts := s'.ctrlpts } ∧
      ∀ k < 3, ∀ z : ℕ → K,
        (∀ i < s.numU, ∀ j < s.numV, i = 0 ∨ i + 1 = s.numU ∨ j = 0 ∨ j + 1 = s.numV →
          z (i * s.numV + j) = coord s.ctrlpts k (i * s.numV + j)) →
        ∑ r ∈ range m, (surface (knotFn s.kvU) s.degreeU s.numU (knotFn s.kvV) s.degreeV s.numV
            (coord s'.ctrlpts k) (at2 data r 3 0) (at2 data r 4 0) - at2 data r k 0) ^ 2
          ≤ ∑ r ∈ range m, (surface (knotFn s.kvU) s.degreeU s.numU (knotFn s.kvV) s.degreeV s.numV
            z (at2 data r 3 0) (at2 data r 4 0) - at2 data r k 0) ^ 2 := by
  have su := hs.cu.size
  have sv := hs.cv.size
  obtain ⟨M, hM, hMs, hMv⟩ := surfaceMatrix_spec (s := s) (data := data) (m := m)
    (fun r i => Nclosed (knotFn s.kvU) s.degreeU s.numU i (at2 data r 3 0))
    (fun r j => Nclosed (knotFn s.kvV) s.degreeV s.numV j (at2 data r 4 0)) hd hs.shape.1
    (fun _ _ _ hi => one_basis_function_cox_de_boor hs.cu fu hi _)
    (fun _ _ _ hj => one_basis_function_cox_de_boor hs.cv fv hj _)
  have hun : checkUnity M m = .ok () := by
    refine checkUnity_ok hMs fun r hr => ?_
    rw [sum_grid]
    have : ∀ i ∈ range s.numU, ∑ j ∈ range s.numV, at2 M r (i * s.numV + j) 0
        = Nclosed (knotFn s.kvU) s.degreeU s.numU i (at2 data r 3 0) := by
      intro i hi
      rw [sum_congr rfl fun j hj => hMv r hr i (mem_range.1 hi) j (mem_range.1 hj), ← mul_sum,
        sum_Nclosed hs.cv (hv r hr).1 (hv r hr).2, mul_one]
    rw [sum_congr rfl this, sum_Nclosed hs.cu (hu r hr).1 (hu r hr).2]
  obtain ⟨f, hf, hfl, hfv⟩ := surface_mask_boundary (nu := s.numU) (nv := s.numV) (by omega) (by omega)
  obtain ⟨new, hnew, hns, hopt⟩ := fitColumns_spec hls hMs hd (by omega) hs.shape hfl
  refine ⟨{ s with ctrlpts := new }, ?_, rfl, fun k hk z hz => ?_⟩
  · unfold singleFitSurface
    rw [hM, ok_bind, hd.1, hun, ok_bind, hs.shape.1, hf, ok_bind, hnew, ok_bind]
  · have hres : ∀ w : ℕ → K, sqResid M (s.numU * s.numV) w (data.map fun row => row.getD k 0)
        = ∑ r ∈ range m, (surface (knotFn s.kvU) s.degreeU s.numU (knotFn s.kvV) s.degreeV s.numV
            w (at2 data r 3 0) (at2 data r 4 0) - at2 data r k 0) ^ 2 := by
      intro w
      unfold sqResid
      rw [List.length_map, hd.1]
      refine sum_congr rfl fun r hr => ?_
      have hr' := mem_range.1 hr
      rw [getD_map_row, sum_grid]
      congr 2
      unfold surface
      refine sum_congr rfl fun i hi => sum_congr rfl fun j hj => ?_
      have := hMv r hr' i (mem_range.1 hi) j (mem_range.1 hj)
      unfold at2 at this ⊢
      rw [this]; ring
    rw [← hres, ← hres]
    refine (hopt k hk).2 z fun t ht hft => ?_
    have hv0 : 0 < s.numV := by omega
    have ei : t / s.numV * s.numV + t % s.numV = t := Nat.div_add_mod' t s.numV
    have hi : t / s.numV < s.numU := Nat.div_lt_of_lt_mul (by rw [mul_comm]; exact ht)
    have hj : t % s.numV < s.numV := Nat.mod_lt _ hv0
    have := hfv _ hi _ hj
    rw [ei, hft] at this
    have hz' := hz _ hi _ hj (of_decide_eq_true this.symm)
    rwa [ei] at hz'

/-! ## C56 -/

/-- **C56.** `fit_surface` does not depend on the boundary data: whenever the boundary rows have the
four columns `x, y, z, u`, the result is the one computed without them. -/
theorem fit_surface_ignores_boundary (env : FitEnv K) (s : Surface K) (data top bottom : List (List K))
    (ht : ∀ row ∈ top, row.length = 4) (hb : ∀ row ∈ bottom, row.length = 4) :
    fitSurface env s data top bottom = fitSurface env s data [] [] := by
  unfold fitSurface
  cases hpar : parameterizeSurface env.num (env.surfLike s) data with
  | error e => rfl
  | ok rows =>
    obtain ⟨-, -, -, -, hs⟩ := parameterize_surface_rows _ _ _ _ hpar
    have h5 : ∀ t b : List (List K), (∀ row ∈ t, row.length = 4) → (∀ row ∈ b, row.length = 4) →
        (rows ++ appendColumn t 1 ++ appendColumn b 0).all (fun row => row.length = 5) = true := by
      intro t b ht hb
      rw [List.all_eq_true]
      intro row hrow
      rw [List.mem_append, List.mem_append] at hrow
      refine decide_eq_true ?_
      rcases hrow with (h | h) | h
      · exact hs.2 row h
      · obtain ⟨q, hq, rfl⟩ := List.mem_map.1 h
        rw [List.length_append, ht q hq]; rfl
      · obtain ⟨q, hq, rfl⟩ := List.mem_map.1 h
        rw [List.length_append, hb q hq]; rfl
    rw [ok_bind, ok_bind]
    dsimp only
    rw [h5 top bottom ht hb, h5 [] [] (by simp) (by simp)]

/-- **C56**, explicitly: the fit is `single_fit_surface` on the parameterized interior data (which
sorting once more does not change). -/
theorem fit_surface_eq (env : FitEnv K) (s : Surface K) (data top bottom rows : List (List K))
    (ht : ∀ row ∈ top, row.length = 4) (hb : ∀ row ∈ bottom, row.length = 4)
    (hpar : parameterizeSurface env.num (env.surfLike s) data = .ok rows) :
    fitSurface env s data top bottom
      = singleFitSurface env.lstsq s (npSortRows [3, 4, 0, 1, 2] rows) := by
  rw [fit_surface_ignores_boundary env s data top bottom ht hb]
  unfold fitSurface
  obtain ⟨-, -, -, -, hs⟩ := parameterize_surface_rows _ _ _ _ hpar
  rw [hpar, ok_bind]
  have : (rows ++ appendColumn ([] : List (List K)) 1 ++ appendColumn ([] : List (List K)) 0).all
      (fun row => row.length = 5) = true := by
    rw [List.all_eq_true]
    intro row hrow
    refine decide_eq_true (hs.2 row ?_)
    simpa [appendColumn] using hrow
  dsimp only
  rw [this]
  simp

/-! ## C57 -/

/-- **C57.** The surface returned by `fit_surface` has the boundary curves of the input surface. -/
theorem fit_surface_keeps_boundary (env : FitEnv K) (s s' : Surface K)
    (data top bottom : List (List K)) (h : fitSurface env s data top bottom = .ok s')
    (hs : ClampedSurface s) (ku : UnitKnots s.degreeU s.numU s.kvU)
    (kv : UnitKnots s.degreeV s.numV s.kvV) :
    (∀ v, 0 ≤ v → v ≤ 1 → Regular s.degreeV s.numV s.kvV v →
      s'.singlePoint 0 v = s.singlePoint 0 v ∧ s'.singlePoint 1 v = s.singlePoint 1 v) ∧
    (∀ u, 0 ≤ u → u ≤ 1 → Regular s.degreeU s.numU s.kvU u →
      s'.singlePoint u 0 = s.singlePoint u 0 ∧ s'.singlePoint u 1 = s.singlePoint u 1) := by
  have su := hs.cu.size
  have sv := hs.cv.size
  unfold fitSurface at h
  obtain ⟨rows, -, h⟩ := bind_eq_ok h
  dsimp only at h
  split at h
  · cases h
  obtain ⟨he, hsh, hb⟩ := single_fit_surface_keeps _ _ _ _ h (by omega) (by omega) hs.shape
  obtain ⟨P', rfl⟩ : ∃ P', s' = { s with ctrlpts := P' } := ⟨_, he⟩
  have hs' : ClampedSurface { s with ctrlpts := P' } := ⟨hs.cu, hs.cv, hs.du, hs.dv, hsh⟩
  have hrow : ∀ i < s.numU, i = 0 ∨ i + 1 = s.numU →
      Surface.rowPts { s with ctrlpts := P' } i = s.rowPts i := fun i hi hc =>
    List.map_congr_left fun j hj => hb i hi j (List.mem_range.1 hj) (by omega)
  have hcol : ∀ j < s.numV, j = 0 ∨ j + 1 = s.numV →
      Surface.columnPts { s with ctrlpts := P' } j = s.columnPts j := fun j hj hc =>
    List.map_congr_left fun i hi => hb i (List.mem_range.1 hi) j hj (by omega)
  constructor
  · intro v h0 h1 rv
    have a := surface_edge_u hs' ku ⟨h0, h1⟩ rv
    have b := surface_edge_u hs ku ⟨h0, h1⟩ rv
    rw [a.1, a.2, b.1, b.2]
    dsimp only
    rw [hrow 0 (by omega) (by omega), hrow (s.numU - 1) (by omega) (by omega)]
    exact ⟨rfl, rfl⟩
  · intro u h0 h1 ru
    have a := surface_edge_v hs' kv ⟨h0, h1⟩ ru
    have b := surface_edge_v hs kv ⟨h0, h1⟩ ru
    rw [a.1, a.2, b.1, b.2]
    dsimp only
    rw [hcol 0 (by omega) (by omega), hcol (s.numV - 1) (by omega) (by omega)]
    exact ⟨rfl, rfl⟩

end

/-! ## Concrete cases -/

/-- A solver for systems with one unknown. -/
def exLs (n : ℕ) (A : List (List ℚ)) (b : List ℚ) : List ℚ :=
  if n = 1 then
    let a := A.map fun row => row.getD 0 0
    [(List.zipWith (· * ·) a b).sum / (a.map fun x => x * x).sum]
  else zeros n

/-- C47, C48: one free entry of three. -/
example : linearFitFixed exLs [[1, 1, 0], [0, 2, 1]] [3, 5] [1, 7, 1] [true, false, true]
    = .ok [1, 2, 1] := by decide +kernel

/-- The hypothesis on the solver is satisfiable. -/
example : ∃ ls, IsLstsq (K := ℚ) ls := exists_lstsq

/-- A quadratic Bézier curve and three data points with parameters. -/
def exFitCurve : Curve ℚ := ⟨2, [[0, 0, 0], [1, 0, 0], [2, 0, 2]], [0, 0, 0, 1, 1, 1]⟩
def exFitData : List (List ℚ) := [[1/2, 1, 0, 1/4], [1, 2, 1/2, 1/2], [3/2, 1, 1, 3/4]]

theorem exFitCurve_clamped : Clamped 2 3 exFitCurve.kv where
  len := by decide +kernel
  mono := by decide +kernel
  size := by decide
  left := by intro i hi; interval_cases i <;> decide +kernel
  right := by intro i h1 h2; interval_cases i <;> decide +kernel

/-- C49–C51: the inner control point moves, the ends stay. -/
example : singleFitCurve exLs exFitCurve exFitData
    = .ok ⟨2, [[0, 0, 0], [1, 56/17, -3/17], [2, 0, 2]], [0, 0, 0, 1, 1, 1]⟩ := by decide +kernel

/-- C50, C51 apply to this curve. -/
example (ls : ℕ → List (List ℚ) → List ℚ → List ℚ) (hls : IsLstsq ls) :
    ∃ c', singleFitCurve ls exFitCurve exFitData = .ok c' ∧ ∀ k < 3,
      ∑ r ∈ range 3, (curve (knotFn exFitCurve.kv) 2 3 (coord c'.ctrlpts k) (at2 exFitData r 3 0)
          - at2 exFitData r k 0) ^ 2
        ≤ ∑ r ∈ range 3, (curve (knotFn exFitCurve.kv) 2 3 (coord exFitCurve.ctrlpts k)
          (at2 exFitData r 3 0) - at2 exFitData r k 0) ^ 2 :=
  single_fit_curve_not_worse hls exFitCurve_clamped (by decide +kernel)
    ⟨rfl, by decide +kernel⟩ ⟨rfl, by decide +kernel⟩
    (by intro r hr; interval_cases r <;> decide +kernel)

/-- A parameter outside the domain is reported. -/
example : singleFitCurve exLs exFitCurve [[0, 0, 0, 2]] = .error .valueError := by decide +kernel

/-- C52 on a 3 × 4 grid: two free control points. -/
example : surfaceMask 3 4 12 = .ok [true, true, true, true, true, false, false, true,
    true, true, true, true] := by decide +kernel

/-- A surface data point whose second parameter is outside is reported, one on the edge is not. -/
example : singleFitSurface exLs exS [[0, 0, 0, 1 / 2, 2]] = .error .valueError ∧
    (singleFitSurface exLs exS [[0, 0, 0, 1 / 2, 1]]).isOk = true := by decide +kernel

end PySpline
