import Verif.Lemmas.RoundedSolve

/-!
# C172: complete fits in rounded arithmetic
-/

set_option linter.unusedSectionVars false

namespace PySpline

open Spec Finset

section
variable {K : Type} [Field K] [LinearOrder K] [IsStrictOrderedRing K]

/-! ## With exact arithmetic the rounded model is the exact one -/

theorem linearFitFixedFl_id (ls : ℕ → List (List K) → List K → List K) (R : List (List K)) (Q P : List K)
    (fixed : List Bool) : linearFitFixedFl id ls R Q P fixed = linearFitFixed ls R Q P fixed := by
  unfold linearFitFixedFl linearFitFixed
  simp only [List.map_id, id]

theorem fitColumnsFl_id (ls : ℕ → List (List K) → List K → List K) (M data P : List (List K)) (fixed : List Bool) :
    fitColumnsFl id ls M data P fixed = fitColumns ls M data P fixed := by
  unfold fitColumnsFl fitColumns
  simp only [linearFitFixedFl_id]

theorem SingleFitCurveFl_id (ls : ℕ → List (List K) → List K → List K) (c : Curve K) (data : List (List K))
    (r : Py (Curve K)) : SingleFitCurveFl id ls c data r ↔ r = singleFitCurve ls c data := by
  unfold SingleFitCurveFl singleFitCurve
  rw [curveMatrixFl_id]
  simp only [fitColumnsFl_id, CheckUnityFl_id]
  cases h : curveMatrix c data with
  | error e => simp [error_bind]
  | ok M => simp [ok_bind]

theorem SingleFitSurfaceFl_id (ls : ℕ → List (List K) → List K → List K) (s : Surface K) (data : List (List K))
    (r : Py (Surface K)) : SingleFitSurfaceFl id ls s data r ↔ r = singleFitSurface ls s data := by
  unfold SingleFitSurfaceFl singleFitSurface
  rw [surfaceMatrixFl_id]
  simp only [fitColumnsFl_id, CheckUnityFl_id]
  cases h : surfaceMatrix s data with
  | error e => simp [error_bind]
  | ok M => simp [ok_bind]

/-- An exact solver is backward stable with every bound. -/
theorem IsLstsq.backwardStable {ls : ℕ → List (List K) → List K → List K} (h : IsLstsq ls) {ε : K} (hε : 0 ≤ ε) :
    BackwardStable ε ls :=
  ⟨h.length, fun n A b hl hr => ⟨A, b, hl, hr, rfl, fun r _ i _ => by
    rw [sub_self, abs_zero]
    exact mul_nonneg hε (sum_nonneg fun r _ => sum_nonneg fun i _ => abs_nonneg _), fun r _ => by
    rw [sub_self, abs_zero]
    exact mul_nonneg hε (sum_nonneg fun r _ => abs_nonneg _), h.least n A b hl hr⟩⟩

/-! ## Curves -/

section
variable {ls ls' : ℕ → List (List K) → List K → List K} {c : Curve K} {data : List (List K)} {m n : ℕ}

/-- **C172.** `single_fit_curve` in rounded arithmetic with a backward stable solver.  `κ` bounds the control points by
the values at the data parameters, `B` bounds the data and the two ends.  If the roundings and the solver are accurate up
to `ε`, and `ε` is small, then whatever happens the call reports a failed check or returns a curve with the same degree,
knots and ends whose control points are those of the exact fit up to `L ε B`. -/
theorem single_fit_curve_rounded {ρ ε κ B : K} {fl : K → K} (hr : Rounding fl) (hfa : Accurate ρ fl) (hls : IsLstsq ls)
    (hls' : BackwardStable ε ls') (hU : Clamped c.degree n c.kv)
    (hfirst : knotFn c.kv c.degree < knotFn c.kv (c.degree + 1)) (hP : Shape c.ctrlpts n 3) (hd : Shape data m 4)
    (hdom : ∀ r < m, knotFn c.kv c.degree ≤ at2 data r 3 0 ∧ at2 data r 3 0 ≤ knotFn c.kv n) (hκ0 : 0 ≤ κ)
    (hκ : ∀ e : ℕ → K, e 0 = 0 → e (n - 1) = 0 → ∀ i < n,
      e i ^ 2 ≤ κ * ∑ r ∈ range m, curve (knotFn c.kv) c.degree n e (at2 data r 3 0) ^ 2)
    (hB : ∀ k < 3, (∀ r < m, |at2 data r k 0| ≤ B) ∧ |coord c.ctrlpts k 0| ≤ B ∧ |coord c.ctrlpts k (n - 1)| ≤ B)
    (hε : (1 / ρ) ^ (5 * c.degree + n + 2) ≤ 1 + ε) (h1 : n * ((2 * m + 1) * ε) ≤ 1)
    (h2 : 6 * κ * m * (n * ((2 * m + 1) * ε)) ≤ 1) :
    ∃ c₀, singleFitCurve ls c data = .ok c₀ ∧ (∃ res, SingleFitCurveFl fl ls' c data res) ∧
      ∀ res, SingleFitCurveFl fl ls' c data res →
        (res = .error .valueError ∧ ∃ M, curveMatrixFl fl c data = .ok M ∧
          CheckUnityFl fl M data.length (.error .valueError)) ∨
        ∃ c', res = .ok c' ∧ c'.degree = c.degree ∧ c'.kv = c.kv ∧ Shape c'.ctrlpts n 3 ∧ ∀ k < 3,
          coord c'.ctrlpts k 0 = coord c.ctrlpts k 0 ∧ coord c'.ctrlpts k (n - 1) = coord c.ctrlpts k (n - 1) ∧
          ∀ i < n, |coord c'.ctrlpts k i - coord c₀.ctrlpts k i|
            ≤ 2 * κ * m * (2 * m + 1) * (n * (6 * κ * m + 4) + 2) * ε * B := by
  have hsz := hU.size
  obtain ⟨c₀, h₀, -, -, -, hn⟩ := single_fit_curve_normal hls hU hfirst hP hd hdom
  obtain ⟨M, hM, hMs, hMn⟩ := curve_matrix_rounded hfa hU hfirst hP.1 hd
  obtain ⟨f, hf, hfl, hfv⟩ := curveMask_eq (n := n) (by omega)
  have hfix : ∀ i < n, f.getD i false = true ↔ i = 0 ∨ i = n - 1 := fun i hi => by
    rw [hfv i hi, decide_eq_true_iff]; omega
  have f0 : f.getD 0 false = true := (hfix 0 (by omega)).2 (Or.inl rfl)
  have f1 : f.getD (n - 1) false = true := (hfix (n - 1) (by omega)).2 (Or.inr rfl)
  have hcurve : ∀ (e : ℕ → K) (r : ℕ), curve (knotFn c.kv) c.degree n e (at2 data r 3 0)
      = ∑ i ∈ range n, Nclosed (knotFn c.kv) c.degree n i (at2 data r 3 0) * e i := fun e r =>
    sum_congr rfl fun i _ => mul_comm _ _
  simp only [hcurve] at hκ hn
  have hcol := fitColumnsFl_close hr hfa hls' (w := 4) (fixed := f) (Z := c₀.ctrlpts) hd (by omega) hP (by omega) hMs hfl
    (fun r hr => (sum_Nclosed hU (hdom r hr).1 (hdom r hr).2).le) hMn hκ0
    (fun e he => hκ e (he 0 (by omega) f0) (he (n - 1) (by omega) f1)) ((abs_nonneg _).trans (hB 0 (by omega)).2.1)
    (fun k hk => (hB k hk).1)
    (fun k hk i hi h => by
      rcases (hfix i hi).1 h with rfl | rfl
      · exact (hB k hk).2.1
      · exact (hB k hk).2.2) hε h1 h2
    (fun k hk i hi h => by
      rcases (hfix i hi).1 h with rfl | rfl
      · exact (hn k hk).1
      · exact (hn k hk).2.1)
    (fun k hk e he => (hn k hk).2.2 e (he 0 (by omega) f0) (he (n - 1) (by omega) f1))
  obtain ⟨new, hnew, hs, hk⟩ := hcol
  refine ⟨c₀, h₀, ?_, ?_⟩
  · obtain ⟨check, hcheck⟩ := CheckUnityFl.exists fl M data.length
    exact ⟨_, Or.inr ⟨M, check, hM, hcheck, rfl⟩⟩
  · rintro res (⟨e, he, -⟩ | ⟨M', check, hM', hcheck, rfl⟩)
    · rw [hM] at he; cases he
    rw [hM] at hM'
    cases hM'
    rcases hcheck.cases with rfl | rfl
    · exact Or.inl ⟨rfl, M, hM, hcheck⟩
    · refine Or.inr ⟨{ c with ctrlpts := new }, ?_, rfl, rfl, hs, fun k hk3 =>
        ⟨(hk k hk3).1 0 (by omega) f0, (hk k hk3).1 (n - 1) (by omega) f1, (hk k hk3).2⟩⟩
      rw [ok_bind, hP.1, hf, ok_bind, hnew, ok_bind]

end

/-- **C172.** If the parameters determine the fit, fits in rounded arithmetic converge to the exact fit: there are an
accuracy and a constant, for the knots and the parameters alone, such that with every rounding and solver of that accuracy
`ε` the control points are wrong by at most the constant times `ε` times the size of the data and the ends. -/
theorem single_fit_curve_rounded_determined {p m n : ℕ} {U : List K} {t : ℕ → K} (hU : Clamped p n U) (hp : 1 ≤ p)
    (hfirst : knotFn U p < knotFn U (p + 1)) (hdom : ∀ r < m, knotFn U p ≤ t r ∧ t r ≤ knotFn U n)
    (hdet : Determined p n (knotFn U) m t) :
    ∃ L δ : K, 0 < δ ∧ ∀ (ρ ε B : K) (fl : K → K) (ls ls' : ℕ → List (List K) → List K → List K) (c : Curve K)
      (data : List (List K)), Rounding fl → Accurate ρ fl → (1 / ρ) ^ (5 * p + n + 2) ≤ 1 + ε → ε ≤ δ → IsLstsq ls →
      BackwardStable ε ls' → c.degree = p → c.kv = U → Shape c.ctrlpts n 3 → Shape data m 4 →
      (∀ r < m, at2 data r 3 0 = t r) →
      (∀ k < 3, (∀ r < m, |at2 data r k 0| ≤ B) ∧ |coord c.ctrlpts k 0| ≤ B ∧ |coord c.ctrlpts k (n - 1)| ≤ B) →
      ∃ c₀, singleFitCurve ls c data = .ok c₀ ∧ ∀ c', SingleFitCurveFl fl ls' c data (.ok c') →
        ∀ k < 3, ∀ i < n, |coord c'.ctrlpts k i - coord c₀.ctrlpts k i| ≤ L * ε * B := by
  have hsz := hU.size
  obtain ⟨κ, hκ0, hκ⟩ := exists_stability (n := n) (m := m) (F := fun x r => curve (knotFn U) p n x (t r))
    (fun x e s r => curve_add_mul x e s _) (fun x y h r => curve_congr h _) (fun i => i = 0 ∨ i = n - 1)
    (fun e h0 hz => eq_zero_of_determined hU hp hdet (h0 0 (by omega) (Or.inl rfl)) (h0 (n - 1) (by omega) (Or.inr rfl)) hz)
  have hpos : (0 : K) < (6 * κ * m + 1) * (n * (2 * m + 1) + 1) := by positivity
  refine ⟨2 * κ * m * (2 * m + 1) * (n * (6 * κ * m + 4) + 2), 1 / ((6 * κ * m + 1) * (n * (2 * m + 1) + 1)),
    one_div_pos.2 hpos, ?_⟩
  rintro ρ ε B fl ls ls' c data hr hfa hε hle hls hls' rfl rfl hP hd hpar hB
  have hε0 : 0 ≤ ε := by have := one_le_pow₀ hfa.one_le (n := 5 * c.degree + n + 2); linarith
  have hle' : ε * ((6 * κ * m + 1) * (n * (2 * m + 1) + 1)) ≤ 1 := by
    have := mul_le_mul_of_nonneg_right hle hpos.le
    rwa [one_div_mul_cancel hpos.ne'] at this
  have e0 : 0 ≤ 6 * κ * m * ε := by positivity
  have e1 : 0 ≤ n * ((2 * m + 1) * ε) := by positivity
  have e2 : 0 ≤ 6 * κ * m * (n * ((2 * m + 1) * ε)) := by positivity
  have e3 : ε * ((6 * κ * m + 1) * (n * (2 * m + 1) + 1))
      = 6 * κ * m * (n * ((2 * m + 1) * ε)) + n * ((2 * m + 1) * ε) + 6 * κ * m * ε + ε := by ring
  rw [e3] at hle'
  obtain ⟨c₀, h₀, -, h⟩ := single_fit_curve_rounded (κ := κ) (B := B) hr hfa hls hls' hU hfirst hP hd
    (fun r hr => by rw [hpar r hr]; exact hdom r hr) hκ0
    (fun e he0 he1 i hi => by
      refine (hκ e (by rintro i - (rfl | rfl) <;> assumption) i hi).trans_eq ?_
      congr 1
      exact sum_congr rfl fun r hr => by rw [hpar r (mem_range.1 hr)]) hB hε (by linarith) (by linarith)
  refine ⟨c₀, h₀, fun c' hc' k hk i hi => ?_⟩
  rcases h _ hc' with ⟨h, -⟩ | ⟨c'', h, -, -, -, h'⟩
  · cases h
  · cases h
    exact (h' k hk).2.2 i hi

/-! ## Surfaces -/

/-- **C172.** The same for `single_fit_surface`: the boundary is kept exactly. -/
theorem single_fit_surface_rounded {ρ ε κ B : K} {fl : K → K} {ls ls' : ℕ → List (List K) → List K → List K}
    {s : Surface K} {data : List (List K)} {m : ℕ} (hr : Rounding fl) (hfa : Accurate ρ fl) (hls : IsLstsq ls)
    (hls' : BackwardStable ε ls') (hs : ClampedSurface s)
    (fu : knotFn s.kvU s.degreeU < knotFn s.kvU (s.degreeU + 1))
    (fv : knotFn s.kvV s.degreeV < knotFn s.kvV (s.degreeV + 1)) (hd : Shape data m 5)
    (hu : ∀ r < m, knotFn s.kvU s.degreeU ≤ at2 data r 3 0 ∧ at2 data r 3 0 ≤ knotFn s.kvU s.numU)
    (hv : ∀ r < m, knotFn s.kvV s.degreeV ≤ at2 data r 4 0 ∧ at2 data r 4 0 ≤ knotFn s.kvV s.numV) (hκ0 : 0 ≤ κ)
    (hκ : ∀ e : ℕ → K, (∀ i < s.numU, ∀ j < s.numV, OnBoundary s i j → e (i * s.numV + j) = 0) →
      ∀ i < s.numU * s.numV, e i ^ 2 ≤ κ * ∑ r ∈ range m,
        surface (knotFn s.kvU) s.degreeU s.numU (knotFn s.kvV) s.degreeV s.numV e (at2 data r 3 0) (at2 data r 4 0) ^ 2)
    (hB : ∀ k < 3, (∀ r < m, |at2 data r k 0| ≤ B) ∧
      ∀ i < s.numU, ∀ j < s.numV, OnBoundary s i j → |coord s.ctrlpts k (i * s.numV + j)| ≤ B)
    (hε : (1 / ρ) ^ (5 * s.degreeU + 5 * s.degreeV + s.numU * s.numV + 3) ≤ 1 + ε)
    (h1 : (s.numU * s.numV : ℕ) * ((2 * m + 1) * ε) ≤ 1)
    (h2 : 6 * κ * m * ((s.numU * s.numV : ℕ) * ((2 * m + 1) * ε)) ≤ 1) :
    ∃ s₀, singleFitSurface ls s data = .ok s₀ ∧ (∃ res, SingleFitSurfaceFl fl ls' s data res) ∧
      ∀ res, SingleFitSurfaceFl fl ls' s data res →
        (res = .error .valueError ∧ ∃ M, surfaceMatrixFl fl s data = .ok M ∧
          CheckUnityFl fl M data.length (.error .valueError)) ∨
        ∃ P, res = .ok { s with ctrlpts := P } ∧ Shape P (s.numU * s.numV) 3 ∧ ∀ k < 3,
          (∀ i < s.numU, ∀ j < s.numV, OnBoundary s i j →
            coord P k (i * s.numV + j) = coord s.ctrlpts k (i * s.numV + j)) ∧
          ∀ i < s.numU * s.numV, |coord P k i - coord s₀.ctrlpts k i|
            ≤ 2 * κ * m * (2 * m + 1) * ((s.numU * s.numV : ℕ) * (6 * κ * m + 4) + 2) * ε * B := by
  have su := hs.cu.size
  have sv := hs.cv.size
  have hsplit : ∀ t < s.numU * s.numV, t / s.numV < s.numU ∧ t % s.numV < s.numV ∧ t / s.numV * s.numV + t % s.numV = t :=
    fun t ht => ⟨Nat.div_lt_of_lt_mul (by rw [mul_comm]; exact ht), Nat.mod_lt _ (by omega), Nat.div_add_mod' t s.numV⟩
  have hjoin : ∀ i < s.numU, ∀ j < s.numV, i * s.numV + j < s.numU * s.numV := by
    intro i hi j hj
    have h1 : i * s.numV + j < (i + 1) * s.numV := by rw [add_mul, one_mul]; omega
    exact lt_of_lt_of_le h1 (Nat.mul_le_mul_right _ hi)
  obtain ⟨Z, h₀, -, hn⟩ := single_fit_surface_normal hls hs fu fv hd hu hv
  obtain ⟨M, hM, hMs, hMn⟩ := surface_matrix_rounded hfa hs fu fv hd
  obtain ⟨f, hf, hfl, hfv⟩ := surface_mask_boundary (nu := s.numU) (nv := s.numV) (by omega) (by omega)
  have hfix : ∀ i < s.numU, ∀ j < s.numV, f.getD (i * s.numV + j) false = true ↔ OnBoundary s i j := fun i hi j hj => by
    rw [hfv i hi j hj, decide_eq_true_iff]; rfl
  have hfree : ∀ e : ℕ → K, (∀ t < s.numU * s.numV, f.getD t false = true → e t = 0) →
      ∀ i < s.numU, ∀ j < s.numV, OnBoundary s i j → e (i * s.numV + j) = 0 := fun e he i hi j hj hb =>
    he _ (hjoin i hi j hj) ((hfix i hi j hj).2 hb)
  have hpos : 0 < s.numU * s.numV := Nat.mul_pos (by omega) (by omega)
  simp only [surface_eq_sum] at hκ hn
  have hcol := fitColumnsFl_close hr hfa hls' (w := 5) (fixed := f) (Z := Z)
    (a := 5 * s.degreeU + 5 * s.degreeV + 1)
    (N := fun r t => Nclosed (knotFn s.kvU) s.degreeU s.numU (t / s.numV) (at2 data r 3 0)
      * Nclosed (knotFn s.kvV) s.degreeV s.numV (t % s.numV) (at2 data r 4 0)) hd (by omega) hs.shape hpos hMs hfl
    (fun r hr => by
      rw [sum_Nclosed_prod, sum_Nclosed hs.cu (hu r hr).1 (hu r hr).2, sum_Nclosed hs.cv (hv r hr).1 (hv r hr).2, one_mul])
    (fun r hr t ht => by
      obtain ⟨t1, t2, t3⟩ := hsplit t ht
      have := hMn r hr _ t1 _ t2
      rwa [t3] at this) hκ0
    (fun e he => hκ e (hfree e he))
    ((abs_nonneg _).trans ((hB 0 (by omega)).2 0 (by omega) 0 (by omega) (Or.inl rfl)))
    (fun k hk => (hB k hk).1)
    (fun k hk t ht h => by
      obtain ⟨t1, t2, t3⟩ := hsplit t ht
      rw [← t3] at h ⊢
      exact (hB k hk).2 _ t1 _ t2 ((hfix _ t1 _ t2).1 h))
    (by rw [show 5 * s.degreeU + 5 * s.degreeV + 1 + s.numU * s.numV + 2
          = 5 * s.degreeU + 5 * s.degreeV + s.numU * s.numV + 3 by omega]; exact hε) h1 h2
    (fun k hk t ht h => by
      obtain ⟨t1, t2, t3⟩ := hsplit t ht
      rw [← t3] at h ⊢
      exact (hn k hk).1 _ t1 _ t2 ((hfix _ t1 _ t2).1 h))
    (fun k hk e he => (hn k hk).2 e (hfree e he))
  obtain ⟨new, hnew, hns, hk⟩ := hcol
  refine ⟨_, h₀, ?_, ?_⟩
  · obtain ⟨check, hcheck⟩ := CheckUnityFl.exists fl M data.length
    exact ⟨_, Or.inr ⟨M, check, hM, hcheck, rfl⟩⟩
  · rintro res (⟨e, he, -⟩ | ⟨M', check, hM', hcheck, rfl⟩)
    · rw [hM] at he; cases he
    rw [hM] at hM'
    cases hM'
    rcases hcheck.cases with rfl | rfl
    · exact Or.inl ⟨rfl, M, hM, hcheck⟩
    · refine Or.inr ⟨new, ?_, hns, fun k hk3 => ⟨fun i hi j hj hb =>
        (hk k hk3).1 _ (hjoin i hi j hj) ((hfix i hi j hj).2 hb), (hk k hk3).2⟩⟩
      rw [ok_bind, hs.shape.1, hf, ok_bind, hnew, ok_bind]

/-- **C172.** If the data contain a grid that determines the surface, fits in rounded arithmetic converge to the exact
fit. -/
theorem single_fit_surface_rounded_determined {S : Surface K} {a b : ℕ → K} {m : ℕ} (hS : ClampedSurface S)
    (fu : knotFn S.kvU S.degreeU < knotFn S.kvU (S.degreeU + 1))
    (fv : knotFn S.kvV S.degreeV < knotFn S.kvV (S.degreeV + 1))
    (hu : ∀ r < m, knotFn S.kvU S.degreeU ≤ a r ∧ a r ≤ knotFn S.kvU S.numU)
    (hv : ∀ r < m, knotFn S.kvV S.degreeV ≤ b r ∧ b r ≤ knotFn S.kvV S.numV) (hdet : GridDetermined S m a b) :
    ∃ L δ : K, 0 < δ ∧ ∀ (ρ ε B : K) (fl : K → K) (ls ls' : ℕ → List (List K) → List K → List K) (P : List (List K))
      (data : List (List K)), Rounding fl → Accurate ρ fl →
      (1 / ρ) ^ (5 * S.degreeU + 5 * S.degreeV + S.numU * S.numV + 3) ≤ 1 + ε → ε ≤ δ → IsLstsq ls →
      BackwardStable ε ls' → Shape P (S.numU * S.numV) 3 → Shape data m 5 →
      (∀ r < m, at2 data r 3 0 = a r ∧ at2 data r 4 0 = b r) →
      (∀ k < 3, (∀ r < m, |at2 data r k 0| ≤ B) ∧
        ∀ i < S.numU, ∀ j < S.numV, OnBoundary S i j → |coord P k (i * S.numV + j)| ≤ B) →
      ∃ s₀, singleFitSurface ls { S with ctrlpts := P } data = .ok s₀ ∧
        ∀ s', SingleFitSurfaceFl fl ls' { S with ctrlpts := P } data (.ok s') →
          ∀ k < 3, ∀ i < S.numU * S.numV, |coord s'.ctrlpts k i - coord s₀.ctrlpts k i| ≤ L * ε * B := by
  have su := hS.cu.size
  have sv := hS.cv.size
  have hsplit : ∀ t < S.numU * S.numV, t / S.numV < S.numU ∧ t % S.numV < S.numV ∧ t / S.numV * S.numV + t % S.numV = t :=
    fun t ht => ⟨Nat.div_lt_of_lt_mul (by rw [mul_comm]; exact ht), Nat.mod_lt _ (by omega), Nat.div_add_mod' t S.numV⟩
  have hjoin : ∀ i < S.numU, ∀ j < S.numV, i * S.numV + j < S.numU * S.numV ∧ (i * S.numV + j) / S.numV = i ∧
      (i * S.numV + j) % S.numV = j := by
    intro i hi j hj
    have h1 : i * S.numV + j < (i + 1) * S.numV := by rw [add_mul, one_mul]; omega
    refine ⟨lt_of_lt_of_le h1 (Nat.mul_le_mul_right _ hi), ?_, ?_⟩
    · rw [mul_comm, Nat.mul_add_div (by omega), Nat.div_eq_of_lt hj, add_zero]
    · rw [mul_comm, Nat.mul_add_mod, Nat.mod_eq_of_lt hj]
  obtain ⟨κ, hκ0, hκ⟩ := exists_stability (n := S.numU * S.numV) (m := m)
    (F := fun x r => surface (knotFn S.kvU) S.degreeU S.numU (knotFn S.kvV) S.degreeV S.numV x (a r) (b r))
    (fun x e q r => surface_add_mul x e q _ _) (fun x y h r => surface_local h _ _)
    (fun t => OnBoundary S (t / S.numV) (t % S.numV))
    (fun e h0 hz t ht => by
      obtain ⟨h1, h2, h3⟩ := hsplit t ht
      have := surface_eq_zero_of_determined hS hdet (fun i hi j hj hb => by
        obtain ⟨h1, h2, h3⟩ := hjoin i hi j hj
        exact h0 _ h1 (by rw [h2, h3]; exact hb)) hz _ h1 _ h2
      rwa [h3] at this)
  set N := S.numU * S.numV with hN
  have hpos : (0 : K) < (6 * κ * m + 1) * (N * (2 * m + 1) + 1) := by positivity
  refine ⟨2 * κ * m * (2 * m + 1) * (N * (6 * κ * m + 4) + 2), 1 / ((6 * κ * m + 1) * (N * (2 * m + 1) + 1)),
    one_div_pos.2 hpos, ?_⟩
  intro ρ ε B fl ls ls' P data hr hfa hε hle hls hls' hP hd hpar hB
  have hε0 : 0 ≤ ε := by have := one_le_pow₀ hfa.one_le (n := 5 * S.degreeU + 5 * S.degreeV + N + 3); linarith
  have hle' : ε * ((6 * κ * m + 1) * (N * (2 * m + 1) + 1)) ≤ 1 := by
    have := mul_le_mul_of_nonneg_right hle hpos.le
    rwa [one_div_mul_cancel hpos.ne'] at this
  have e0 : 0 ≤ 6 * κ * m * ε := by positivity
  have e1 : 0 ≤ N * ((2 * m + 1) * ε) := by positivity
  have e2 : 0 ≤ 6 * κ * m * (N * ((2 * m + 1) * ε)) := by positivity
  have e3 : ε * ((6 * κ * m + 1) * (N * (2 * m + 1) + 1))
      = 6 * κ * m * (N * ((2 * m + 1) * ε)) + N * ((2 * m + 1) * ε) + 6 * κ * m * ε + ε := by ring
  rw [e3] at hle'
  obtain ⟨s₀, h₀, -, h⟩ := single_fit_surface_rounded (κ := κ) (B := B) (s := { S with ctrlpts := P }) hr hfa hls hls'
    { cu := hS.cu, cv := hS.cv, du := hS.du, dv := hS.dv, shape := hP } fu fv hd
    (fun r hr => by rw [(hpar r hr).1]; exact hu r hr) (fun r hr => by rw [(hpar r hr).2]; exact hv r hr) hκ0
    (fun e he t ht => by
      refine (hκ e (fun t ht hb => by
        obtain ⟨t1, t2, t3⟩ := hsplit t ht
        have := he _ t1 _ t2 hb
        rwa [t3] at this) t ht).trans_eq ?_
      congr 1
      exact sum_congr rfl fun r hr => by rw [(hpar r (mem_range.1 hr)).1, (hpar r (mem_range.1 hr)).2])
    hB hε (by dsimp only; rw [← hN]; linarith) (by dsimp only; rw [← hN]; linarith)
  refine ⟨s₀, h₀, fun s' hs' k hk i hi => ?_⟩
  rcases h _ hs' with ⟨h, -⟩ | ⟨P', h, -, h'⟩
  · cases h
  · cases h
    exact (h' k hk).2 i hi

end

/-! ## Double precision -/

/-- **C172** in double precision: the call returns, and the error is explicit. -/
theorem single_fit_curve_double {ε κ B : ℚ} {ls ls' : ℕ → List (List ℚ) → List ℚ → List ℚ} {c : Curve ℚ}
    {data : List (List ℚ)} {m n : ℕ} (hls : IsLstsq ls)
    (hls' : BackwardStable ε ls') (hU : Clamped c.degree n c.kv)
    (hfirst : knotFn c.kv c.degree < knotFn c.kv (c.degree + 1)) (hP : Shape c.ctrlpts n 3) (hd : Shape data m 4)
    (hdom : ∀ r < m, knotFn c.kv c.degree ≤ at2 data r 3 0 ∧ at2 data r 3 0 ≤ knotFn c.kv n) (hκ0 : 0 ≤ κ)
    (hκ : ∀ e : ℕ → ℚ, e 0 = 0 → e (n - 1) = 0 → ∀ i < n,
      e i ^ 2 ≤ κ * ∑ r ∈ range m, curve (knotFn c.kv) c.degree n e (at2 data r 3 0) ^ 2)
    (hB : ∀ k < 3, (∀ r < m, |at2 data r k 0| ≤ B) ∧ |coord c.ctrlpts k 0| ≤ B ∧ |coord c.ctrlpts k (n - 1)| ≤ B)
    (hsize : 5 * c.degree + n + m ≤ 10 ^ 10) (hε : (5 * c.degree + n + 2 : ℕ) / 2 ^ 52 ≤ ε)
    (h1 : n * ((2 * m + 1) * ε) ≤ 1) (h2 : 6 * κ * m * (n * ((2 * m + 1) * ε)) ≤ 1) :
    ∃ c₀, singleFitCurve ls c data = .ok c₀ ∧ (∃ res, SingleFitCurveFl fl64 ls' c data res) ∧
      ∀ res, SingleFitCurveFl fl64 ls' c data res →
        ∃ c', res = .ok c' ∧ c'.degree = c.degree ∧ c'.kv = c.kv ∧ Shape c'.ctrlpts n 3 ∧ ∀ k < 3,
          coord c'.ctrlpts k 0 = coord c.ctrlpts k 0 ∧ coord c'.ctrlpts k (n - 1) = coord c.ctrlpts k (n - 1) ∧
          ∀ i < n, |coord c'.ctrlpts k i - coord c₀.ctrlpts k i|
            ≤ 2 * κ * m * (2 * m + 1) * (n * (6 * κ * m + 4) + 2) * ε * B := by
  obtain ⟨c₀, h₀, hex, h⟩ := single_fit_curve_rounded rounding_fl64 accurate_fl64 hls hls' hU hfirst hP hd hdom hκ0 hκ hB
    (pow_fl64_le (by norm_num; omega) hε) h1 h2
  refine ⟨c₀, h₀, hex, fun res hres => (h res hres).resolve_left ?_⟩
  rintro ⟨-, M', hM', hc⟩
  obtain ⟨M, hM, -, hok⟩ := single_fit_curve_unity_double hU hfirst hP.1 hd hdom hsize
  rw [hM] at hM'
  cases hM'
  cases hok _ hc

/-- **C172** for surfaces in double precision. -/
theorem single_fit_surface_double {ε κ B : ℚ} {ls ls' : ℕ → List (List ℚ) → List ℚ → List ℚ} {s : Surface ℚ}
    {data : List (List ℚ)} {m : ℕ} (hls : IsLstsq ls)
    (hls' : BackwardStable ε ls') (hs : ClampedSurface s)
    (fu : knotFn s.kvU s.degreeU < knotFn s.kvU (s.degreeU + 1))
    (fv : knotFn s.kvV s.degreeV < knotFn s.kvV (s.degreeV + 1)) (hd : Shape data m 5)
    (hu : ∀ r < m, knotFn s.kvU s.degreeU ≤ at2 data r 3 0 ∧ at2 data r 3 0 ≤ knotFn s.kvU s.numU)
    (hv : ∀ r < m, knotFn s.kvV s.degreeV ≤ at2 data r 4 0 ∧ at2 data r 4 0 ≤ knotFn s.kvV s.numV) (hκ0 : 0 ≤ κ)
    (hκ : ∀ e : ℕ → ℚ, (∀ i < s.numU, ∀ j < s.numV, OnBoundary s i j → e (i * s.numV + j) = 0) →
      ∀ i < s.numU * s.numV, e i ^ 2 ≤ κ * ∑ r ∈ range m,
        surface (knotFn s.kvU) s.degreeU s.numU (knotFn s.kvV) s.degreeV s.numV e (at2 data r 3 0) (at2 data r 4 0) ^ 2)
    (hB : ∀ k < 3, (∀ r < m, |at2 data r k 0| ≤ B) ∧
      ∀ i < s.numU, ∀ j < s.numV, OnBoundary s i j → |coord s.ctrlpts k (i * s.numV + j)| ≤ B)
    (hsize : 5 * s.degreeU + 5 * s.degreeV + 1 + s.numU * s.numV + m ≤ 10 ^ 10)
    (hε : (5 * s.degreeU + 5 * s.degreeV + s.numU * s.numV + 3 : ℕ) / 2 ^ 52 ≤ ε)
    (h1 : (s.numU * s.numV : ℕ) * ((2 * m + 1) * ε) ≤ 1)
    (h2 : 6 * κ * m * ((s.numU * s.numV : ℕ) * ((2 * m + 1) * ε)) ≤ 1) :
    ∃ s₀, singleFitSurface ls s data = .ok s₀ ∧ (∃ res, SingleFitSurfaceFl fl64 ls' s data res) ∧
      ∀ res, SingleFitSurfaceFl fl64 ls' s data res →
        ∃ P, res = .ok { s with ctrlpts := P } ∧ Shape P (s.numU * s.numV) 3 ∧ ∀ k < 3,
          (∀ i < s.numU, ∀ j < s.numV, OnBoundary s i j →
            coord P k (i * s.numV + j) = coord s.ctrlpts k (i * s.numV + j)) ∧
          ∀ i < s.numU * s.numV, |coord P k i - coord s₀.ctrlpts k i|
            ≤ 2 * κ * m * (2 * m + 1) * ((s.numU * s.numV : ℕ) * (6 * κ * m + 4) + 2) * ε * B := by
  obtain ⟨s₀, h₀, hex, h⟩ := single_fit_surface_rounded rounding_fl64 accurate_fl64 hls hls' hs fu fv hd hu hv hκ0 hκ hB
    (pow_fl64_le (by norm_num; omega) hε) h1 h2
  refine ⟨s₀, h₀, hex, fun res hres => (h res hres).resolve_left ?_⟩
  rintro ⟨-, M', hM', hc⟩
  obtain ⟨M, hM, -, hok⟩ := single_fit_surface_unity_double hs fu fv hd hu hv hsize
  rw [hM] at hM'
  cases hM'
  cases hok _ hc

/-! ## Concrete cases -/

/-- A parabola with one inner control point and the datum `1/3` at `1/2`. -/
def exSolve : Curve ℚ := ⟨2, [[0, 0, 0], [7, 7, 7], [1, 0, 0]], [0, 0, 0, 1, 1, 1]⟩

theorem exSolve_clamped : Clamped 2 3 exSolve.kv :=
  ⟨⟨by decide +kernel, by decide +kernel, by decide⟩, by intro i hi; interval_cases i <;> decide +kernel,
    by intro i h1 h2; interval_cases i <;> decide +kernel⟩

/-- The value at `1/2` is half the control point: `κ = 4`. -/
theorem exSolve_stable (e : ℕ → ℚ) (h0 : e 0 = 0) (h2 : e (3 - 1) = 0) : ∀ i < 3,
    e i ^ 2 ≤ 4 * ∑ r ∈ range 1, curve (knotFn exSolve.kv) exSolve.degree 3 e (at2 [[1/3, 1, 0, 1/2]] r 3 0) ^ 2 := by
  have h2' : e 2 = 0 := h2
  have hN : Nclosed (knotFn exSolve.kv) exSolve.degree 3 1 (at2 [[1/3, 1, 0, 1/2]] 0 3 0) = 1 / 2 := by decide +kernel
  have : curve (knotFn exSolve.kv) exSolve.degree 3 e (at2 [[1/3, 1, 0, 1/2]] 0 3 0) = e 1 * (1 / 2) := by
    unfold curve
    rw [sum_range_succ, sum_range_succ, sum_range_succ, range_zero, sum_empty, hN, h0, h2']
    ring
  intro i hi
  rw [sum_range_succ, this, range_zero, sum_empty]
  have : 0 ≤ e 1 ^ 2 := sq_nonneg _
  interval_cases i
  · rw [h0]; nlinarith
  · nlinarith
  · rw [h2']; nlinarith

/-- In double precision, with a solver accurate to `2 ^ -40`, the control points are right to `2 ^ -28`. -/
example (ls ls' : ℕ → List (List ℚ) → List ℚ → List ℚ) (hls : IsLstsq ls) (hls' : BackwardStable (1 / 2 ^ 40) ls') :
    ∃ c₀, singleFitCurve ls exSolve [[1/3, 1, 0, 1/2]] = .ok c₀ ∧
      (∃ res, SingleFitCurveFl fl64 ls' exSolve [[1/3, 1, 0, 1/2]] res) ∧
      ∀ res, SingleFitCurveFl fl64 ls' exSolve [[1/3, 1, 0, 1/2]] res → ∃ c', res = .ok c' ∧ ∀ k < 3, ∀ i < 3,
        |coord c'.ctrlpts k i - coord c₀.ctrlpts k i| ≤ 1 / 2 ^ 28 := by
  obtain ⟨c₀, h₀, hex, h⟩ := single_fit_curve_double (c := exSolve) (data := [[1/3, 1, 0, 1/2]]) (m := 1) (n := 3) (κ := 4)
    (B := 1) hls hls' exSolve_clamped (by decide +kernel) ⟨rfl, by decide +kernel⟩ ⟨rfl, by decide +kernel⟩
    (by intro r hr; interval_cases r; decide +kernel) (by norm_num) exSolve_stable
    (by
      intro k hk
      refine ⟨fun r hr => ?_, ?_, ?_⟩
      · interval_cases r; interval_cases k <;> decide +kernel
      · interval_cases k <;> decide +kernel
      · interval_cases k <;> decide +kernel)
    (by decide +kernel) (by decide +kernel) (by norm_num) (by norm_num)
  refine ⟨c₀, h₀, hex, fun res hres => ?_⟩
  obtain ⟨c', h1, -, -, -, h2⟩ := h res hres
  refine ⟨c', h1, fun k hk i hi => ((h2 k hk).2.2 i hi).trans ?_⟩
  norm_num

/-- The subtraction of the ends is rounded: with the datum `1/3` and the ends `0`, `1` the right-hand side for the
solver, here returned as the control point, is not the exact `1/3 - 1/4`; the solver gets the rounded number. -/
example : linearFitFixedFl fl64 (fun _ _ b => b) [[1/4, 1/2, 1/4]] [1/3] [0, 7, 1] [true, false, true]
      = .ok [0, fl64 (1/3 - 1/4), 1] ∧ fl64 (1/3 - 1/4) ≠ 1/3 - 1/4 ∧
    linearFitFixed (fun _ _ b => b) [[1/4, 1/2, 1/4]] [1/3] [0, 7, 1] [true, false, true] = .ok [(0 : ℚ), 1/3 - 1/4, 1] := by
  decide +kernel

/-- Products and sums are rounded one after the other. -/
example : linearFitFixedFl fl64 (fun _ _ b => b) [[1/3, 1/3, 1/3]] [0] [1/3, 7, 1/5] [true, false, true]
    = .ok [1/3, fl64 (0 - fl64 (fl64 (0 + fl64 (1/3 * (1/3))) + fl64 (1/3 * (1/5)))), 1/5] := by decide +kernel

/-- The parameters of the curve of C163 have a constant and an accuracy. -/
example := single_fit_curve_rounded_determined (m := 4) exWhitney_clamped (by decide) (by decide +kernel)
  (by intro r hr; interval_cases r <;> decide +kernel) exWhitney_determined

/-- So have the data of the surface with two inner control points. -/
example := single_fit_surface_rounded_determined (m := 2) exS_clamped (by decide +kernel) (by decide +kernel)
  (by intro r hr; interval_cases r <;> decide +kernel) (by intro r hr; interval_cases r <;> decide +kernel) exS_determined

/-- The accuracy has to be small: a solver that replaces the matrix by zero, and so may return anything, is backward
stable with `ε = 1`. -/
example : BackwardStable (1 : ℚ) fun n _ _ => List.replicate n 7 where
  length n _ _ _ _ := by simp
  solves n A b hl hr := by
    have hz : ∀ r i, ((zeros2 b.length n : List (List ℚ)).getD r []).getD i 0 = 0 := fun r i => by
      unfold zeros2 zeros
      by_cases h : r < b.length <;> by_cases h' : i < n <;> simp [List.getD_eq_getElem?_getD, h, h']
    refine ⟨zeros2 b.length n, b, by simp [zeros2], by simp [zeros2, zeros], rfl, fun r hr' i hi => ?_, fun r hr' => ?_,
      fun x => le_of_eq ?_⟩
    · rw [hz, zero_sub, abs_neg, one_mul]
      refine (single_le_sum (f := fun i => |(A.getD r []).getD i 0|) (fun i _ => abs_nonneg _) (mem_range.2 hi)).trans ?_
      exact single_le_sum (f := fun r => ∑ i ∈ range n, |(A.getD r []).getD i 0|)
        (fun r _ => sum_nonneg fun i _ => abs_nonneg _) (mem_range.2 hr')
    · rw [sub_self, abs_zero, one_mul]
      exact sum_nonneg fun r _ => abs_nonneg _
    · unfold sqResid
      simp only [hz, zero_mul]

end PySpline
