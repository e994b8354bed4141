import Verif.Props.KnotFit

/-!
# C93: the curve fits are optimal for the parameters of the previous iterate
-/

set_option linter.unusedSectionVars false

namespace PySpline

open Spec Finset

section
variable {K : Type} [Field K] [LinearOrder K] [IsStrictOrderedRing K]

/-- `c'` minimizes, in every coordinate, the squared distance to the data at the parameters in
column 3 of `rows` among all curves with its knots and end points. -/
def OptimalFor (rows : List (List K)) (c' : Curve K) : Prop :=
  ∀ k < 3, ∀ z : ℕ → K, z 0 = coord c'.ctrlpts k 0 →
    z (c'.ctrlpts.length - 1) = coord c'.ctrlpts k (c'.ctrlpts.length - 1) →
    ∑ r ∈ range rows.length, (curve (knotFn c'.kv) c'.degree c'.ctrlpts.length (coord c'.ctrlpts k)
        (at2 rows r 3 0) - at2 rows r k 0) ^ 2
      ≤ ∑ r ∈ range rows.length, (curve (knotFn c'.kv) c'.degree c'.ctrlpts.length z (at2 rows r 3 0)
        - at2 rows r k 0) ^ 2

theorem optimal_of_fit {env : FitEnv K} (hls : IsLstsq env.lstsq) {data rows : List (List K)}
    {c0 c1 c' : Curve K} {p n : ℕ} {δ : K} (h : Spaced p n δ c1) (hδ : 0 < δ)
    (hrows : parameterizeCurve env.num (env.curveLike c0) data = .ok rows)
    (hfit : singleFitCurve env.lstsq c1 rows = .ok c') : OptimalFor rows c' := by
  have hsz := h.clamped.size
  obtain ⟨hsh, hran⟩ := parameterizeCurve_range hrows
  have hp0 : knotFn c1.kv p = 0 := by rw [h.clamped.left p le_rfl, h.zero]
  have hn1 : knotFn c1.kv n = 1 := by rw [h.clamped.right n le_rfl (by omega), h.one]
  have hdeg := h.deg
  obtain ⟨c'', hc', hd', hk', hP', hends, hopt⟩ := single_fit_curve_optimal hls (c := c1) (data := rows)
    (m := data.length) (n := n) (by rw [hdeg]; exact h.clamped)
    (by rw [hdeg]; exact h.distinct hδ p le_rfl hsz) h.pts hsh
    (fun r hr => by rw [hdeg, hp0, hn1]; exact hran r hr)
  cases hfit.symm.trans hc'
  intro k hk z z0 z1
  rw [hP'.1] at z1
  rw [hsh.1, hP'.1, hk', hd']
  exact hopt k hk z (z0.trans (hends k hk).1) (z1.trans (hends k hk).2)

theorem knotFitLoop_last {env : FitEnv K} (hls : SolverLength env.lstsq)
    {data : List (List K)} (hpar : Parameterizes env data) {p : ℕ} (hp : 1 ≤ p) (N : ℤ) (t : ℕ) :
    ∀ {n fuel : ℕ} {δ : K} {c : Curve K}, Spaced p n δ c →
      2 ^ t * (1 / 10 ^ 8 + 1 / 10 ^ 5) < δ → t < fuel →
      N ≤ ((p + 2 ^ t * (n - p) : ℕ) : ℤ) → (∀ s < t, ((p + 2 ^ s * (n - p) : ℕ) : ℤ) < N) →
      ∃ c0 rows c' ε, knotFitLoop env data N fuel c = .ok c' ∧
        Spaced p (p + 2 ^ t * (n - p)) ε c0 ∧ 0 < ε ∧
        parameterizeCurve env.num (env.curveLike c0) data = .ok rows ∧
        singleFitCurve env.lstsq c0 rows = .ok c' := by
  have htol : (0 : K) < 1 / 10 ^ 8 + 1 / 10 ^ 5 := by positivity
  induction t with
  | zero =>
    intro n fuel δ c h hδ hf hN _
    have hsz := h.clamped.size
    obtain ⟨fuel, rfl⟩ : ∃ f, fuel = f + 1 := ⟨fuel - 1, by omega⟩
    have hδ0 : 0 < δ := by rw [pow_zero, one_mul] at hδ; exact htol.trans hδ
    obtain ⟨rows, c', hrows, hc', hs, -⟩ := fitStep hls hpar h hδ0
    have en : p + 2 ^ 0 * (n - p) = n := by rw [pow_zero]; omega
    rw [en] at hN ⊢
    refine ⟨c, rows, c', δ, ?_, h, hδ0, hrows, hc'⟩
    unfold knotFitLoop
    rw [hrows, ok_bind, hc', ok_bind, hs.pts.1, if_pos hN]
  | succ t ih =>
    intro n fuel δ c h hδ hf hN hlt
    have hsz := h.clamped.size
    obtain ⟨fuel, rfl⟩ : ∃ f, fuel = f + 1 := ⟨fuel - 1, by omega⟩
    have h2t : (1 : K) ≤ 2 ^ t := one_le_pow₀ (by norm_num)
    have hδ2 : 2 * (1 / 10 ^ 8 + 1 / 10 ^ 5) < δ := by
      refine lt_of_le_of_lt ?_ hδ
      have h2 : (2 : K) ≤ 2 ^ (t + 1) := by rw [pow_succ]; linarith
      exact mul_le_mul_of_nonneg_right h2 htol.le
    have hδ0 : 0 < δ := by linarith
    obtain ⟨rows, c1, hrows, hc1, hs1, -⟩ := fitStep hls hpar h hδ0
    obtain ⟨c2, hc2, hs2, -⟩ := insertRound hs1 hp hδ2
    have hn2 : p + 2 * (n - p) - p = 2 * (n - p) := by omega
    have hpow : ∀ s, p + 2 ^ s * (2 * (n - p)) = p + 2 ^ (s + 1) * (n - p) := fun s => by
      rw [pow_succ]; ring
    obtain ⟨c0, rows', c', ε, hret, g⟩ := ih (n := p + 2 * (n - p)) (fuel := fuel)
      (δ := δ / 2) (c := c2) hs2 (by rw [pow_succ] at hδ; linarith) (by omega)
      (by rw [hn2, hpow]; exact hN) (fun s hs => by rw [hn2, hpow]; exact hlt (s + 1) (by omega))
    rw [hn2, hpow] at g
    refine ⟨c0, rows', c', ε, ?_, g⟩
    unfold knotFitLoop
    have h0 := hlt 0 (by omega)
    rw [pow_zero, one_mul] at h0
    rw [hrows, ok_bind, hc1, ok_bind, hs1.pts.1, if_neg (by omega)]
    obtain ⟨ks, hks, hc2⟩ := bind_eq_ok hc2
    rw [hks, ok_bind, hc2, ok_bind]
    exact hret

/-- **C93.** The curve returned by `fit_curve_knot_insertion` is optimal for the parameters that the
inversion finds on a curve with the same degree, knots and end points (the curve before the last
least-squares fit). -/
theorem fit_curve_knot_insertion_optimal {env : FitEnv K} (hls : IsLstsq env.lstsq)
    {data : List (List K)} (hpar : Parameterizes env data) {p : ℕ} (hp : 1 ≤ p) (N : ℤ) (t : ℕ)
    {n fuel : ℕ} {δ : K} {c : Curve K} (hc : Spaced p n δ c)
    (hδ : 2 ^ t * (1 / 10 ^ 8 + 1 / 10 ^ 5) < δ) (hf : t < fuel)
    (hN : N ≤ ((p + 2 ^ t * (n - p) : ℕ) : ℤ)) (hlt : ∀ s < t, ((p + 2 ^ s * (n - p) : ℕ) : ℤ) < N) :
    ∃ c0 rows c', fitCurveKnotInsertion fuel env c data N = .ok c' ∧
      parameterizeCurve env.num (env.curveLike c0) data = .ok rows ∧
      c0.degree = c'.degree ∧ c0.kv = c'.kv ∧ c0.ctrlpts.length = c'.ctrlpts.length ∧
      (∀ k < 3, coord c0.ctrlpts k 0 = coord c'.ctrlpts k 0 ∧
        coord c0.ctrlpts k (c'.ctrlpts.length - 1) = coord c'.ctrlpts k (c'.ctrlpts.length - 1)) ∧
      OptimalFor rows c' := by
  obtain ⟨c0, rows, c', ε, hret, hs, hε, hrows, hfit⟩ := knotFitLoop_last hls.length hpar hp N t hc hδ hf hN hlt
  obtain ⟨e1, e2, -, e3, e4⟩ := singleFitCurve_ok hfit
  refine ⟨c0, rows, c', hret, hrows, e1.symm, e2.symm, e3.1.symm, fun k hk => ?_,
    optimal_of_fit hls hs hε hrows hfit⟩
  rw [e3.1]
  exact ⟨(e4 k hk).1.symm, (e4 k hk).2.symm⟩

/-- **C93.** `fit_curve_fixed_ctrlpts` returns, with every solver: it fits a Bézier curve of the same degree to the
straight segment between the end points, takes the parameters of the data on that curve for a first
fit, and the parameters on the first fit for the second. -/
theorem fit_curve_fixed_stages {env : FitEnv K} (hls : SolverLength env.lstsq)
    {data : List (List K)} (hpar : Parameterizes env data) {p n : ℕ} (hp : 1 ≤ p) {δ : K}
    {c : Curve K} (hc : Spaced p n δ c) (hδ : 0 < δ) {fuel : ℕ} (hf : 1 ≤ fuel) :
    ∃ b b' c1 c' rb rb' r1,
      -- the Bézier curve on the segment
      Spaced p (p + 1) 1 b ∧ b.kv.length = 2 * p + 2 ∧
      (∀ i < 2 * p + 2, knotFn b.kv i = if i ≤ p then 0 else 1) ∧
      (∀ k < 3, ∀ i ≤ p, coord b.ctrlpts k i = coord c.ctrlpts k 0
        + (i : K) / p * (coord c.ctrlpts k (n - 1) - coord c.ctrlpts k 0)) ∧
      -- its fit
      parameterizeCurve env.num (env.curveLike b) data = .ok rb ∧ singleFitCurve env.lstsq b rb = .ok b' ∧
      Spaced p (p + 1) 1 b' ∧ b'.kv = b.kv ∧
      -- the first fit
      parameterizeCurve env.num (env.curveLike b') data = .ok rb' ∧ singleFitCurve env.lstsq c rb' = .ok c1 ∧
      -- the second fit
      parameterizeCurve env.num (env.curveLike c1) data = .ok r1 ∧ singleFitCurve env.lstsq c1 r1 = .ok c' ∧
      Spaced p n δ c1 ∧ c1.kv = c.kv ∧ Spaced p n δ c' ∧ c'.kv = c.kv ∧
      fitCurveFixed fuel env c data = .ok c' := by
  obtain ⟨fuel, rfl⟩ : ∃ f, fuel = f + 1 := ⟨fuel - 1, by omega⟩
  have hsz := hc.clamped.size
  have hrow : ∀ i < n, (c.ctrlpts.getD i []).length = 3 := fun i hi => by
    refine hc.pts.2 _ ?_
    have : i < c.ctrlpts.length := by rw [hc.pts.1]; exact hi
    rw [List.getD_eq_getElem?_getD, List.getElem?_eq_getElem this]
    exact List.getElem_mem this
  obtain ⟨b, hb, hbd, hbs, hbv, -, hbc, -, hb0, hb1, hbg⟩ := initialize_curve_points
    (hrow 0 (by omega)) (hrow (n - 1) (by omega)) (p := p) (n := p + 1) (by omega) (by omega)
  have hsb : Spaced p (p + 1) 1 b := by
    refine ⟨hbd, hbs, hbc, hb0, hb1, fun i h1 h2 => ?_⟩
    rw [hbg i h1 h2]
    push_cast
    simp
  obtain ⟨rb, b', hrb, hfb, hsb', hkb, -, -⟩ := fitStep hls hpar hsb one_pos
  obtain ⟨rb', hrb'⟩ := hpar _ _ _ _ hsb' one_pos
  obtain ⟨hsh, hran⟩ := parameterizeCurve_range hrb'
  have hp0 : knotFn c.kv p = 0 := by rw [hc.clamped.left p le_rfl, hc.zero]
  have hn1 : knotFn c.kv n = 1 := by rw [hc.clamped.right n le_rfl (by omega), hc.one]
  have hdeg := hc.deg
  obtain ⟨c1, hc1, hd1, hk1, hP1⟩ := single_fit_curve_returns hls (c := c) (data := rb')
    (m := data.length) (n := n) (by rw [hdeg]; exact hc.clamped)
    (by rw [hdeg]; exact hc.distinct hδ p le_rfl hsz) hc.pts hsh
    (fun r hr => by rw [hdeg, hp0, hn1]; exact hran r hr)
  have hs1 : Spaced p n δ c1 := by
    refine ⟨by rw [hd1, hdeg], hP1, ?_, ?_, ?_, ?_⟩
    · rw [hk1]; exact hc.clamped
    · rw [hk1]; exact hc.zero
    · rw [hk1]; exact hc.one
    · rw [hk1]; exact hc.gap
  obtain ⟨r1, c', hr1, hc', hs', hk', -⟩ := fitStep hls hpar hs1 hδ
  refine ⟨b, b', c1, c', rb, rb', r1, hsb, by rw [hbc.len]; omega, fun i hi => ?_, fun k hk i hi => ?_, hrb, hfb,
    hsb', hkb, hrb', hc1, hr1, hc', hs1, hk1, hs', hk'.trans hk1, ?_⟩
  · split
    · rename_i h
      rw [hbc.left i h, hb0]
    · rename_i h
      rw [hbc.right i (by omega) (by omega), hb1]
  · rw [hbv k hk i (by omega)]
    push_cast
    rw [add_sub_cancel_right]
    rfl
  · unfold fitCurveFixed
    rw [pyGet_nat _ 0 0 [] rfl (by rw [hc.pts.1]; omega), ok_bind,
      pyGet_neg_one (n := n - 1) (by rw [hc.pts.1]; omega) [], ok_bind, hdeg, hb, ok_bind,
      fit_curve_fixed_no_insertion, hrb, ok_bind, hfb, ok_bind, hrb', ok_bind, hc1, ok_bind, hr1, ok_bind,
      hc']

/-- **C93.** With a least-squares solver all three fits are optimal for their parameters. -/
theorem fit_curve_fixed_optimal {env : FitEnv K} (hls : IsLstsq env.lstsq)
    {data : List (List K)} (hpar : Parameterizes env data) {p n : ℕ} (hp : 1 ≤ p) {δ : K}
    {c : Curve K} (hc : Spaced p n δ c) (hδ : 0 < δ) {fuel : ℕ} (hf : 1 ≤ fuel) :
    ∃ b b' c1 c' rb rb' r1,
      -- the Bézier curve on the segment
      b.degree = p ∧ Shape b.ctrlpts (p + 1) 3 ∧
      b.kv.length = 2 * p + 2 ∧ (∀ i < 2 * p + 2, knotFn b.kv i = if i ≤ p then 0 else 1) ∧
      (∀ k < 3, ∀ i ≤ p, coord b.ctrlpts k i = coord c.ctrlpts k 0
        + (i : K) / p * (coord c.ctrlpts k (n - 1) - coord c.ctrlpts k 0)) ∧
      -- its fit
      parameterizeCurve env.num (env.curveLike b) data = .ok rb ∧ OptimalFor rb b' ∧
      b'.degree = p ∧ b'.kv = b.kv ∧ b'.ctrlpts.length = p + 1 ∧
      -- the first fit
      parameterizeCurve env.num (env.curveLike b') data = .ok rb' ∧ OptimalFor rb' c1 ∧
      -- the second fit
      parameterizeCurve env.num (env.curveLike c1) data = .ok r1 ∧ OptimalFor r1 c' ∧
      c1.degree = p ∧ c1.kv = c.kv ∧ c1.ctrlpts.length = n ∧
      fitCurveFixed fuel env c data = .ok c' := by
  obtain ⟨b, b', c1, c', rb, rb', r1, h1, h2, h3, h4, h5, h6, h7, h8, h9, h10, h11, h12, h13, h14, -, -, h17⟩ :=
    fit_curve_fixed_stages hls.length hpar hp hc hδ hf
  exact ⟨b, b', c1, c', rb, rb', r1, h1.deg, h1.pts, h2, h3, h4, h5, optimal_of_fit hls h1 one_pos h5 h6, h7.deg, h8,
    h7.pts.1, h9, optimal_of_fit hls hc hδ h9 h10, h11, optimal_of_fit hls h13 hδ h11 h12, h13.deg, h14, h13.pts.1, h17⟩

end

/-- C93 applies to the example curve with every least-squares solver. -/
example (ls : ℕ → List (List ℚ) → List ℚ → List ℚ) (hls : IsLstsq ls) :
    ∃ c' rows, fitCurveFixed 1 (exEnv ls) exFitCurve exKnotData = .ok c' ∧ OptimalFor rows c' := by
  obtain ⟨-, -, -, c', -, -, r1, -, -, -, -, -, -, -, -, -, -, -, -, -, ho, -, -, -, hf⟩ :=
    fit_curve_fixed_optimal (env := exEnv ls) hls (exEnv_parameterizes ls) (p := 2) (by norm_num)
      exFitCurve_spaced one_pos (fuel := 1) le_rfl
  exact ⟨c', r1, hf, ho⟩

end PySpline
