import Verif.Lemmas.RoundedKnotRuns

/-!
# C173: the curve fits with their loops in rounded arithmetic
-/

set_option linter.unusedSectionVars false

namespace PySpline

open Spec Finset

section
variable {K : Type} [Field K] [LinearOrder K]

/-- **C173.** Whatever the arithmetic, the solver and the inversion do: whenever `fit_curve_knot_insertion`, started with
`n₀ > degree` control points, returns, it has exactly `degree + 2^t (n₀ - degree)` control points, the first number of that
form that reaches `num_pts`. -/
theorem fit_curve_knot_insertion_rounded_count (fl : K → K) (ls : ℕ → List (List K) → List K → List K)
    (inv : Curve K → List K → Py K) (data : List (List K)) (N : ℤ) (fuel : ℕ) :
    ∀ {c c' : Curve K}, KnotFitFl fl ls inv data N fuel c (.ok c') →
      c.kv.length = c.ctrlpts.length + c.degree + 1 → c.degree < c.ctrlpts.length →
      c'.degree = c.degree ∧ c'.kv.length = c'.ctrlpts.length + c'.degree + 1 ∧
      ∃ t < fuel, c'.ctrlpts.length = c.degree + 2 ^ t * (c.ctrlpts.length - c.degree) ∧
        N ≤ c'.ctrlpts.length ∧
        ∀ s < t, ((c.degree + 2 ^ s * (c.ctrlpts.length - c.degree) : ℕ) : ℤ) < N := by
  induction fuel with
  | zero => intro c c' h; cases h
  | succ fuel ih =>
    intro c c' h hkv hn
    unfold KnotFitFl at h
    rcases h with ⟨e, -, h⟩ | ⟨rows, res, -, hfit, h⟩
    · cases h
    cases res with
    | error e => cases h
    | ok c1 =>
      dsimp only at h
      obtain ⟨d1, k1, -, s1, -⟩ := singleFitCurveFl_ok hfit
      have l1 := s1.1
      split at h
      · rename_i hN
        cases h
        refine ⟨d1, by rw [k1, l1, d1, hkv], 0, Nat.zero_lt_succ _, by rw [l1]; omega, hN,
          fun s hs => absurd hs (by omega)⟩
      · rename_i hN
        split at h
        · cases h
        rename_i c2 h2
        obtain ⟨ks, hks, h2⟩ := bind_eq_ok h2
        have lk := midKnotsFl_length hks
        obtain ⟨d2, k2, l2⟩ := insertKnotsFl_length ks h2
        rw [k1, d1, hkv] at lk
        obtain ⟨a1, a2, t, ht, a3, a4, a5⟩ := ih h (by rw [k2, k1, l2, l1, d2, d1]; omega)
          (by rw [d2, d1, l2, l1]; omega)
        have e : c2.ctrlpts.length - c2.degree = 2 * (c.ctrlpts.length - c.degree) := by
          rw [l2, l1, d2, d1]; omega
        rw [e, d2, d1] at a3 a5
        refine ⟨by rw [a1, d2, d1], a2, t + 1, by omega, ?_, a4, fun s hs => ?_⟩
        · rw [a3, pow_succ]; ring
        · cases s with
          | zero => rw [l1] at hN; simp only [pow_zero, one_mul]; omega
          | succ s =>
            have := a5 s (by omega)
            rw [pow_succ, mul_assoc]
            exact this

/-- **C173.** Whatever the arithmetic, the solver and the inversion do: whenever `fit_curve_fixed_ctrlpts` returns, degree,
knots, number of control points and end points are those of the input. -/
theorem fit_curve_fixed_rounded_keeps {fl : K → K} {fuel : ℕ} {ls : ℕ → List (List K) → List K → List K}
    {inv : Curve K → List K → Py K} {c c' : Curve K} {data : List (List K)}
    (h : FitCurveFixedFl fl fuel ls inv c data (.ok c')) (h3 : ∀ row ∈ c.ctrlpts, row.length = 3) :
    c'.degree = c.degree ∧ c'.kv = c.kv ∧ Shape c'.ctrlpts c.ctrlpts.length 3 ∧
      c'.ctrlpts.getD 0 [] = c.ctrlpts.getD 0 [] ∧
      c'.ctrlpts.getD (c.ctrlpts.length - 1) [] = c.ctrlpts.getD (c.ctrlpts.length - 1) [] := by
  have keeps : ∀ {q c c' : Curve K}, RefitFl fl ls inv data q c (.ok c') → (∀ row ∈ c.ctrlpts, row.length = 3) →
      c'.degree = c.degree ∧ c'.kv = c.kv ∧ Shape c'.ctrlpts c.ctrlpts.length 3 ∧
      c'.ctrlpts.getD 0 [] = c.ctrlpts.getD 0 [] ∧
      c'.ctrlpts.getD (c.ctrlpts.length - 1) [] = c.ctrlpts.getD (c.ctrlpts.length - 1) [] := by
    rintro q c c' (⟨e, -, h⟩ | ⟨rows, -, h⟩) h3
    · cases h
    obtain ⟨h1, h2, hn, hs, he⟩ := singleFitCurveFl_ok h
    exact ⟨h1, h2, hs, getD_eq_of_at2 hs ⟨rfl, h3⟩ hn fun k hk => (he k hk).1,
      getD_eq_of_at2 hs ⟨rfl, h3⟩ (by omega) fun k hk => (he k hk).2⟩
  unfold FitCurveFixedFl at h
  split at h
  · cases h
  obtain ⟨res, -, h⟩ := h
  split at h
  · cases h
  obtain ⟨res', h1, h⟩ := h
  split at h
  · cases h
  obtain ⟨a1, a2, a3, a4, a5⟩ := keeps h1 h3
  obtain ⟨b1, b2, b3, b4, b5⟩ := keeps h a3.2
  rw [a3.1] at b3 b5
  exact ⟨b1.trans a1, b2.trans a2, b3, b4.trans a4, b5.trans a5⟩

end

section
variable {K : Type} [Field K] [LinearOrder K] [IsStrictOrderedRing K]

/-! ## With exact arithmetic the rounded model is the exact one -/

theorem linspaceFl_id (a b : K) (num : ℤ) : linspaceFl id a b num = linspace a b num := by
  unfold linspaceFl linspace
  split
  · rfl
  split
  · rfl
  rename_i h0 h1
  congr 1
  refine List.map_congr_left fun i hi => ?_
  have hi := List.mem_range.1 hi
  have hne : (num : K) - 1 ≠ 0 := by
    intro h
    have : (num : K) = ((1 : ℤ) : K) := by push_cast; linarith
    exact h1 (by exact_mod_cast this)
  split
  · rename_i e
    have : (i : K) = (num : K) - 1 := by
      have : (i : ℤ) = num - 1 := by omega
      have h2 : ((i : ℤ) : K) = ((num - 1 : ℤ) : K) := by rw [this]
      push_cast at h2
      exact h2
    rw [this, mul_div_cancel₀ _ hne]
    ring
  · simp only [id]
    ring

theorem initializeCurveFl_id (s e : List K) (p n : ℕ) : initializeCurveFl id s e p n = initializeCurve s e p n := by
  unfold initializeCurveFl initializeCurve
  simp only [linspaceFl_id, generateUniformFl_id]

theorem midKnotsFl_id (c : Curve K) : midKnotsFl id c = midKnots c := rfl

theorem insertKnotFl_id (c : Curve K) (u : K) : c.insertKnotFl id u = c.insertKnot u := by
  unfold Curve.insertKnotFl Curve.insertKnot
  simp only [curveKnotInsertionFl_id]

theorem parameterizeCurveWith_exact (nm : Num K) (C : CurveLike K) (data : List (List K)) :
    parameterizeCurveWith (curveInversionD nm C) data = parameterizeCurve nm C data := rfl

theorem KnotFitFl_id (env : FitEnv K) (data : List (List K)) (N : ℤ) (fuel : ℕ) : ∀ (c : Curve K) (r : Py (Curve K)),
    KnotFitFl id env.lstsq (fun c => curveInversionD env.num (env.curveLike c)) data N fuel c r
      ↔ r = fitCurveKnotInsertion fuel env c data N := by
  unfold fitCurveKnotInsertion
  induction fuel with
  | zero => intro c r; rfl
  | succ fuel ih =>
    intro c r
    unfold KnotFitFl knotFitLoop
    simp only [parameterizeCurveWith_exact, SingleFitCurveFl_id, midKnotsFl_id, insertKnotFl_id]
    cases hp : parameterizeCurve env.num (env.curveLike c) data with
    | error e => simp [error_bind]
    | ok rows =>
      rw [ok_bind]
      cases hf : singleFitCurve env.lstsq c rows with
      | error e => simp [error_bind, hf]
      | ok c1 =>
        rw [ok_bind]
        simp only [reduceCtorEq, false_and, exists_false, false_or, Except.ok.injEq, exists_and_left, exists_eq_left',
          hf, exists_eq_left]
        split
        · rfl
        cases hm : (midKnots c1 >>= fun knots => forL knots c1 fun u temp => temp.insertKnot u) with
        | error e =>
          dsimp only
          cases hk : midKnots c1 with
          | error e' => rw [hk, error_bind] at hm; cases hm; rfl
          | ok ks =>
            rw [hk, ok_bind] at hm
            rw [ok_bind, hm]
            rfl
        | ok c2 =>
          dsimp only
          obtain ⟨ks, hk, hm⟩ := bind_eq_ok hm
          rw [ih, hk, ok_bind, hm, ok_bind]

theorem FitCurveFixedFl_id (env : FitEnv K) (fuel : ℕ) (c : Curve K) (data : List (List K)) (r : Py (Curve K)) :
    FitCurveFixedFl id fuel env.lstsq (fun c => curveInversionD env.num (env.curveLike c)) c data r
      ↔ r = fitCurveFixed fuel env c data := by
  have refit : ∀ (q c : Curve K) (r : Py (Curve K)),
      RefitFl id env.lstsq (fun c => curveInversionD env.num (env.curveLike c)) data q c r
        ↔ r = (parameterizeCurve env.num (env.curveLike q) data >>= fun rows => singleFitCurve env.lstsq c rows) := by
    intro q c r
    unfold RefitFl
    simp only [parameterizeCurveWith_exact, SingleFitCurveFl_id]
    cases hp : parameterizeCurve env.num (env.curveLike q) data with
    | error e => simp [error_bind]
    | ok rows => simp [ok_bind]
  unfold FitCurveFixedFl fitCurveFixed
  simp only [initializeCurveFl_id, KnotFitFl_id, refit]
  cases h1 : pyGet c.ctrlpts 0 with
  | error e => simp [error_bind]
  | ok first =>
    cases h2 : pyGet c.ctrlpts (-1) with
    | error e => simp [error_bind, ok_bind]
    | ok last =>
      rw [ok_bind, ok_bind, ok_bind, ok_bind]
      cases h3 : initializeCurve first last c.degree (c.degree + 1) with
      | error e => simp [error_bind]
      | ok init =>
        rw [ok_bind]
        dsimp only
        simp only [exists_eq_left]
        cases h4 : fitCurveKnotInsertion fuel env init data init.ctrlpts.length with
        | error e => simp [error_bind]
        | ok fit =>
          rw [ok_bind]
          dsimp only
          cases h5 : parameterizeCurve env.num (env.curveLike fit) data with
          | error e => simp [error_bind]
          | ok rows =>
            rw [ok_bind, ok_bind]
            cases h6 : singleFitCurve env.lstsq c rows with
            | error e => simp [error_bind]
            | ok fixed => simp [ok_bind]

end

/-! ## Double precision -/

/-- **C173.** `fit_curve_knot_insertion` in double precision, on a clamped curve on `[0, 1]` whose knots are doubles and
whose shortest span `δ` allows `t` halvings, where `t` is the first number with `num_pts ≤ degree + 2^t (n - degree)`:
whatever the solver returns and whichever parameters in `[0, 1]` the inversion returns, every run terminates without an
exception after `t` rounds.  The result has `degree + 2^t (n - degree)` control points and a clamped knot vector of
doubles with distinct interior knots, each at most `t 2^-52` away from the knot that divides its span in `2^t` equal parts;
the end control points are unchanged; and the result is the fit of the data on this knot vector. -/
theorem fit_curve_knot_insertion_double {ls : ℕ → List (List ℚ) → List ℚ → List ℚ}
    (hlen : ∀ n A b, A.length = b.length → (∀ row ∈ A, row.length = n) → (ls n A b).length = n)
    {inv : Curve ℚ → List ℚ → Py ℚ} {data : List (List ℚ)} (h3 : ∀ pt ∈ data, pt.length = 3) {p : ℕ} (hp : 1 ≤ p)
    (hinv : ∀ (n : ℕ) (δ : ℚ) (c : Curve ℚ), Spaced p n δ c → 0 < δ →
      ∀ pt ∈ data, ∃ u, inv c pt = .ok u ∧ 0 ≤ u ∧ u ≤ 1)
    {N : ℤ} {t n fuel : ℕ} {δ : ℚ} {c : Curve ℚ} (h : Spaced p n δ c)
    (hdbl : ∀ i ≤ n + p, fl64 (knotFn c.kv i) = knotFn c.kv i) (hδ : 2 ^ t * (3 / 10 ^ 5) ≤ δ) (hf : t < fuel)
    (hsize : 5 * p + (p + 2 ^ t * (n - p)) + data.length ≤ 10 ^ 10)
    (hN : N ≤ ((p + 2 ^ t * (n - p) : ℕ) : ℤ)) (hlt : ∀ s < t, ((p + 2 ^ s * (n - p) : ℕ) : ℤ) < N) :
    (∃ res, KnotFitFl fl64 ls inv data N fuel c res) ∧ ∀ res, KnotFitFl fl64 ls inv data N fuel c res →
      ∃ c', res = .ok c' ∧ c'.degree = p ∧ Shape c'.ctrlpts (p + 2 ^ t * (n - p)) 3 ∧
        Clamped p (p + 2 ^ t * (n - p)) c'.kv ∧ DistinctInterior p (p + 2 ^ t * (n - p)) c'.kv ∧
        (∀ i ≤ p + 2 ^ t * (n - p) + p, fl64 (knotFn c'.kv i) = knotFn c'.kv i) ∧
        (∀ i < n - p, ∀ j ≤ 2 ^ t, |knotFn c'.kv (p + 2 ^ t * i + j) - (knotFn c.kv (p + i)
          + (j : ℚ) / 2 ^ t * (knotFn c.kv (p + i + 1) - knotFn c.kv (p + i)))| ≤ t / 2 ^ 52) ∧
        c'.ctrlpts.getD 0 [] = c.ctrlpts.getD 0 [] ∧
        c'.ctrlpts.getD (p + 2 ^ t * (n - p) - 1) [] = c.ctrlpts.getD (n - 1) [] ∧
        ∃ (P : List (List ℚ)) (rows : List (List ℚ)), Shape P (p + 2 ^ t * (n - p)) 3 ∧
          parameterizeCurveWith (inv { c' with ctrlpts := P }) data = .ok rows ∧
          SingleFitCurveFl fl64 ls { c' with ctrlpts := P } rows (.ok c') := by
  have h2t : (1 : ℚ) ≤ 2 ^ t := one_le_pow₀ (by norm_num)
  obtain ⟨hex, hall⟩ := knotFit_runs hlen h3 hp hinv N (η := 1 / 2 ^ 52) (by positivity) (fun _ x => fl64 x = x)
    (fun _ l r _ _ h0 h1 h2 => ⟨rounding_fl64.idem _, mid_knot_error h0 h1 h2⟩) (fun _ _ h => h) t h hdbl
    (by refine le_trans ?_ hδ; norm_num; linarith) hf hsize hN hlt
  refine ⟨hex, fun res hres => ?_⟩
  obtain ⟨c', δ', hr, hδ', hs, hg, hv, e0, e1, hP⟩ := hall res hres
  exact ⟨c', hr, hs.deg, hs.pts, hs.clamped, hs.distinct hδ', hg,
    fun i hi j hj => (hv i hi j hj).trans (le_of_eq (by ring)), e0, e1, hP⟩

/-- **C173.** If the knots are multiples of `2^-e` with `e + t ≤ 53`, the knots after `t` rounds in double precision are
exactly those that exact arithmetic gives. -/
theorem fit_curve_knot_insertion_double_exact_knots {ls : ℕ → List (List ℚ) → List ℚ → List ℚ}
    (hlen : ∀ n A b, A.length = b.length → (∀ row ∈ A, row.length = n) → (ls n A b).length = n)
    {inv : Curve ℚ → List ℚ → Py ℚ} {data : List (List ℚ)} (h3 : ∀ pt ∈ data, pt.length = 3) {p : ℕ} (hp : 1 ≤ p)
    (hinv : ∀ (n : ℕ) (δ : ℚ) (c : Curve ℚ), Spaced p n δ c → 0 < δ →
      ∀ pt ∈ data, ∃ u, inv c pt = .ok u ∧ 0 ≤ u ∧ u ≤ 1)
    {N : ℤ} {t n fuel e : ℕ} {δ : ℚ} {c : Curve ℚ} (h : Spaced p n δ c) (he : e + t ≤ 53)
    (hdy : ∀ i ≤ n + p, ∃ a : ℕ, knotFn c.kv i = a / 2 ^ e) (hδ : 2 ^ t * (2 / 10 ^ 5) ≤ δ) (hf : t < fuel)
    (hsize : 5 * p + (p + 2 ^ t * (n - p)) + data.length ≤ 10 ^ 10)
    (hN : N ≤ ((p + 2 ^ t * (n - p) : ℕ) : ℤ)) (hlt : ∀ s < t, ((p + 2 ^ s * (n - p) : ℕ) : ℤ) < N) :
    (∃ res, KnotFitFl fl64 ls inv data N fuel c res) ∧ ∀ res, KnotFitFl fl64 ls inv data N fuel c res →
      ∃ c', res = .ok c' ∧ c'.degree = p ∧ Shape c'.ctrlpts (p + 2 ^ t * (n - p)) 3 ∧
        Clamped p (p + 2 ^ t * (n - p)) c'.kv ∧ DistinctInterior p (p + 2 ^ t * (n - p)) c'.kv ∧
        (∀ i < n - p, ∀ j ≤ 2 ^ t, knotFn c'.kv (p + 2 ^ t * i + j) = knotFn c.kv (p + i)
          + (j : ℚ) / 2 ^ t * (knotFn c.kv (p + i + 1) - knotFn c.kv (p + i))) ∧
        c'.ctrlpts.getD 0 [] = c.ctrlpts.getD 0 [] ∧
        c'.ctrlpts.getD (p + 2 ^ t * (n - p) - 1) [] = c.ctrlpts.getD (n - 1) [] ∧
        ∃ (P : List (List ℚ)) (rows : List (List ℚ)), Shape P (p + 2 ^ t * (n - p)) 3 ∧
          parameterizeCurveWith (inv { c' with ctrlpts := P }) data = .ok rows ∧
          SingleFitCurveFl fl64 ls { c' with ctrlpts := P } rows (.ok c') := by
  obtain ⟨hex, hall⟩ := knotFit_runs hlen h3 hp hinv N (η := 0) le_rfl
    (fun s x => ∃ f a : ℕ, f + s = e + t ∧ x = a / 2 ^ f)
    (by
      rintro s l r ⟨f, a, hf, rfl⟩ ⟨f', b, hf', rfl⟩ h0 h1 h2
      obtain rfl : f = f' := by omega
      have hpos : (0 : ℚ) < 2 ^ f := by positivity
      have hab : a ≤ b := by rw [div_le_div_iff_of_pos_right hpos] at h1; exact_mod_cast h1
      have hb : b ≤ 2 ^ f := by rw [div_le_one hpos] at h2; exact_mod_cast h2
      obtain ⟨m1, m2⟩ := mid_knot_exact (e := f) (by omega) hab hb
      exact ⟨⟨f + 1, a + b, by omega, m1⟩, by rw [m2, sub_self, abs_zero]⟩)
    (by
      rintro s x ⟨f, a, hf, rfl⟩
      refine ⟨f + 1, 2 * a, by omega, ?_⟩
      rw [pow_succ]; push_cast; field_simp)
    t h (fun i hi => by obtain ⟨a, ha⟩ := hdy i hi; exact ⟨e, a, rfl, ha⟩) (by rw [mul_zero, add_zero]; exact hδ) hf hsize
    hN hlt
  refine ⟨hex, fun res hres => ?_⟩
  obtain ⟨c', δ', hr, hδ', hs, -, hv, e0, e1, hP⟩ := hall res hres
  refine ⟨c', hr, hs.deg, hs.pts, hs.clamped, hs.distinct hδ', fun i hi j hj => ?_, e0, e1, hP⟩
  have := hv i hi j hj
  rw [mul_zero] at this
  exact sub_eq_zero.1 (abs_eq_zero.1 (le_antisymm this (abs_nonneg _)))

/-- **C173.** `initialize_curve` in double precision: the first and the last control point are exactly `start` and `end`,
the others are within `M 2^-49` of equally spaced points, `M` the largest absolute value of a coordinate. -/
theorem initialize_curve_double {s e : List ℚ} (hs : s.length = 3) (he : e.length = 3) {p n : ℕ} (h : p < n) (hn : 2 ≤ n)
    (hn' : n ≤ 2 ^ 50) (hdbl : ∀ k < 3, fl64 (s.getD k 0) = s.getD k 0) :
    ∃ c, initializeCurveFl fl64 s e p n = .ok c ∧ c.degree = p ∧ Shape c.ctrlpts n 3 ∧
      generateUniformFl fl64 p n = .ok c.kv ∧ Clamped p n c.kv ∧ DistinctInterior p n c.kv ∧
      c.ctrlpts.getD 0 [] = s ∧ c.ctrlpts.getD (n - 1) [] = e ∧
      ∀ k < 3, ∀ M, |s.getD k 0| ≤ M → |e.getD k 0| ≤ M → ∀ i < n, |coord c.ctrlpts k i
        - (s.getD k 0 + (i : ℚ) / ((n : ℚ) - 1) * (e.getD k 0 - s.getD k 0))| ≤ M / 2 ^ 49 := by
  obtain ⟨U, hU, -, hc, hd, -⟩ := generate_uniform_double h hn'
  obtain ⟨P, hP, hS, hv⟩ := initializeCurveFl_eq hs he h hn hU
  have row : ∀ i < n, ∀ l : List ℚ, l.length = 3 → (∀ k < 3, coord P k i = l.getD k 0) → P.getD i [] = l := by
    intro i hi l hl hk
    have hr : (P.getD i []).length = 3 := by
      rw [List.getD_eq_getElem?_getD, List.getElem?_eq_getElem (by rw [hS.1]; exact hi), Option.getD_some]
      exact hS.2 _ (List.getElem_mem _)
    refine List.ext_getElem (by rw [hr, hl]) fun k h1 h2 => ?_
    have := hk k (by omega)
    unfold coord at this
    rw [List.getD_eq_getElem?_getD, List.getD_eq_getElem?_getD (l := l), List.getElem?_eq_getElem h1,
      List.getElem?_eq_getElem h2] at this
    exact this
  refine ⟨_, hP, rfl, hS, hU, hc, hd, row 0 (by omega) s hs fun k hk => ?_, row (n - 1) (by omega) e he fun k hk => ?_,
    fun k hk M h1 h2 i hi => ?_⟩
  · rw [hv k hk 0 (by omega), if_neg (by omega)]
    rw [Nat.cast_zero, zero_mul, fl64_zero, zero_add, hdbl k hk]
  · rw [hv k hk (n - 1) (by omega), if_pos (by omega)]
  · have hM : 0 ≤ M := (abs_nonneg _).trans h1
    rw [hv k hk i hi]
    split
    · rename_i hin
      have : (i : ℚ) = (n : ℚ) - 1 := by rw [← hin]; push_cast; ring
      have hne : (n : ℚ) - 1 ≠ 0 := by
        have : (2 : ℚ) ≤ n := by exact_mod_cast hn
        intro h0; linarith
      rw [this, div_self hne, one_mul]
      simp only [add_sub_cancel, sub_self, abs_zero]
      positivity
    · exact linspace_error h1 h2 (by omega) rfl

/-- The curve with a single span that `initialize_curve` builds has the knots `0` and `1`. -/
theorem initialize_curve_double_spaced {s e : List ℚ} (hs : s.length = 3) (he : e.length = 3) {p : ℕ} (hp : 1 ≤ p)
    (hp' : p < 2 ^ 50) :
    ∃ c, initializeCurveFl fl64 s e p (p + 1) = .ok c ∧ Spaced p (p + 1) 1 c ∧
      ∀ i ≤ p + 1 + p, knotFn c.kv i = if i ≤ p then 0 else 1 := by
  obtain ⟨U, hU, -, hc, hd, h0, h1, -⟩ := generate_uniform_double (Nat.lt_succ_self p) hp'
  obtain ⟨P, hP, hS, -⟩ := initializeCurveFl_eq hs he (Nat.lt_succ_self p) (by omega) hU
  have hk : ∀ i ≤ p + 1 + p, knotFn U i = if i ≤ p then 0 else 1 := by
    intro i hi
    split
    · rw [hc.left i ‹_›, h0]
    · rw [hc.right i (by omega) (by omega), h1]
  refine ⟨_, hP, ⟨rfl, hS, hc, h0, h1, fun i h2 h3 => ?_⟩, hk⟩
  obtain rfl : i = p := by omega
  dsimp only
  rw [hk (i + 1) (by omega), hk i (by omega), if_neg (by omega), if_pos le_rfl, sub_zero]

/-- **C173.** `fit_curve_knot_insertion` in double precision, started with the initial curve of its degree: up to
`degree + 2^15` control points every run terminates without an exception, and the knots are exactly the multiples of
`2^-t`. -/
theorem fit_curve_knot_insertion_double_initial {ls : ℕ → List (List ℚ) → List ℚ → List ℚ}
    (hlen : ∀ n A b, A.length = b.length → (∀ row ∈ A, row.length = n) → (ls n A b).length = n)
    {inv : Curve ℚ → List ℚ → Py ℚ} {data : List (List ℚ)} (h3 : ∀ pt ∈ data, pt.length = 3) {p : ℕ} (hp : 1 ≤ p)
    (hinv : ∀ (n : ℕ) (δ : ℚ) (c : Curve ℚ), Spaced p n δ c → 0 < δ →
      ∀ pt ∈ data, ∃ u, inv c pt = .ok u ∧ 0 ≤ u ∧ u ≤ 1)
    {s e : List ℚ} (hs : s.length = 3) (he : e.length = 3) {N : ℤ} (hN : N ≤ ((p + 2 ^ 15 : ℕ) : ℤ)) {fuel : ℕ}
    (hf : 15 < fuel) (hsize : 6 * p + 2 ^ 15 + data.length ≤ 10 ^ 10) :
    ∃ c, initializeCurveFl fl64 s e p (p + 1) = .ok c ∧ (∃ res, KnotFitFl fl64 ls inv data N fuel c res) ∧
      ∀ res, KnotFitFl fl64 ls inv data N fuel c res → ∃ c', res = .ok c' ∧ c'.degree = p ∧
        ∃ t ≤ 15, N ≤ ((p + 2 ^ t : ℕ) : ℤ) ∧ (∀ s < t, ((p + 2 ^ s : ℕ) : ℤ) < N) ∧ Shape c'.ctrlpts (p + 2 ^ t) 3 ∧
          Clamped p (p + 2 ^ t) c'.kv ∧ ∀ j ≤ 2 ^ t, knotFn c'.kv (p + j) = (j : ℚ) / 2 ^ t := by
  classical
  obtain ⟨c, hc, hsp, hk⟩ := initialize_curve_double_spaced (s := s) (e := e) hs he hp (by omega)
  have hex : ∃ t : ℕ, N ≤ ((p + 2 ^ t : ℕ) : ℤ) := ⟨15, hN⟩
  have hfind : ∀ s < Nat.find hex, ((p + 2 ^ s : ℕ) : ℤ) < N := fun s hs => not_le.1 (Nat.find_min hex hs)
  have hle : Nat.find hex ≤ 15 := Nat.find_min' hex hN
  have hNt := Nat.find_spec hex
  generalize Nat.find hex = t at hfind hle hNt
  have ht : 2 ^ t ≤ 2 ^ 15 := Nat.pow_le_pow_right (by norm_num) hle
  have htq : (2 : ℚ) ^ t ≤ 2 ^ 15 := by exact_mod_cast ht
  have e1 : ∀ s, p + 2 ^ s * (p + 1 - p) = p + 2 ^ s := fun s => by rw [show p + 1 - p = 1 by omega, mul_one]
  obtain ⟨hx, hall⟩ := fit_curve_knot_insertion_double_exact_knots hlen h3 hp hinv (N := N) (t := t) (fuel := fuel) (e := 0)
    hsp (by omega)
    (fun i hi => by
      rw [hk i hi]
      by_cases h : i ≤ p
      · exact ⟨0, by simp [h]⟩
      · exact ⟨1, by simp [h]⟩)
    (by linarith) (by omega) (by rw [e1]; omega) (by rw [e1]; exact hNt) (fun s hs => by rw [e1]; exact hfind s hs)
  refine ⟨c, hc, hx, fun res hres => ?_⟩
  obtain ⟨c', hr, hd, hS, hcl, -, hv, -⟩ := hall res hres
  rw [e1] at hS hcl
  refine ⟨c', hr, hd, t, hle, hNt, hfind, hS, hcl, fun j hj => ?_⟩
  have := hv 0 (by omega) j hj
  rw [mul_zero, add_zero, hk p (by omega), hk (p + 1) (by omega), if_pos le_rfl, if_neg (by omega)] at this
  rw [this]
  ring

/-- **C173.** `fit_curve_fixed_ctrlpts` in double precision terminates without an exception on every clamped curve on
`[0, 1]` with distinct interior knots, whatever the solver returns and whichever parameters in `[0, 1]` the inversion
returns; the result has the degree, the knots and the end points of the input. -/
theorem fit_curve_fixed_double {ls : ℕ → List (List ℚ) → List ℚ → List ℚ}
    (hlen : ∀ n A b, A.length = b.length → (∀ row ∈ A, row.length = n) → (ls n A b).length = n)
    {inv : Curve ℚ → List ℚ → Py ℚ} {data : List (List ℚ)} (h3 : ∀ pt ∈ data, pt.length = 3) {p : ℕ} (hp : 1 ≤ p)
    (hinv : ∀ (n : ℕ) (δ : ℚ) (c : Curve ℚ), Spaced p n δ c → 0 < δ →
      ∀ pt ∈ data, ∃ u, inv c pt = .ok u ∧ 0 ≤ u ∧ u ≤ 1)
    {n fuel : ℕ} {δ : ℚ} {c : Curve ℚ} (h : Spaced p n δ c) (hδ : 0 < δ) (hf : 0 < fuel)
    (hsize : 6 * p + n + data.length ≤ 10 ^ 10) :
    (∃ res, FitCurveFixedFl fl64 fuel ls inv c data res) ∧ ∀ res, FitCurveFixedFl fl64 fuel ls inv c data res →
      ∃ c', res = .ok c' ∧ c'.degree = p ∧ c'.kv = c.kv ∧ Shape c'.ctrlpts n 3 ∧
        c'.ctrlpts.getD 0 [] = c.ctrlpts.getD 0 [] ∧ c'.ctrlpts.getD (n - 1) [] = c.ctrlpts.getD (n - 1) [] := by
  have hsz := h.clamped.size
  have hpl := h.pts.1
  -- one fit with the parameters from another curve
  have refit : ∀ {m : ℕ} {ε : ℚ} {q c : Curve ℚ}, Spaced p m ε q → 0 < ε → Spaced p n δ c →
      (∃ res, RefitFl fl64 ls inv data q c res) ∧ ∀ res, RefitFl fl64 ls inv data q c res → ∃ c', res = .ok c' ∧
        Spaced p n δ c' := by
    intro m ε q c hq hε hc
    obtain ⟨rows, hrows, hsh, hran⟩ := parameterizeCurveWith_range h3 (hinv m ε q hq hε)
    have hp0 : knotFn c.kv p = 0 := by rw [hc.clamped.left p le_rfl, hc.zero]
    have hn1 : knotFn c.kv n = 1 := by rw [hc.clamped.right n le_rfl (by omega), hc.one]
    have hdeg := hc.deg
    obtain ⟨⟨res, hres⟩, hall⟩ := singleFitCurve_double_returns hlen (c := c) (data := rows) (m := data.length) (n := n)
      (by rw [hdeg]; exact hc.clamped) (by rw [hdeg]; exact hc.distinct hδ p le_rfl hsz) hc.pts hsh
      (fun r hr => by rw [hdeg, hp0, hn1]; exact hran r hr) (by rw [hdeg]; omega)
    refine ⟨⟨res, Or.inr ⟨rows, hrows, hres⟩⟩, fun res hres => ?_⟩
    rcases hres with ⟨e, he, -⟩ | ⟨rows', hrows', hres⟩
    · rw [hrows] at he; cases he
    rw [hrows] at hrows'
    cases hrows'
    obtain ⟨c', hc', hd', hk', hP', -⟩ := hall res hres
    refine ⟨c', hc', ⟨by rw [hd', hdeg], hP', ?_, ?_, ?_, ?_⟩⟩
    · rw [hk']; exact hc.clamped
    · rw [hk']; exact hc.zero
    · rw [hk']; exact hc.one
    · rw [hk']; exact hc.gap
  -- the initial curve
  have row3 : ∀ i < n, (c.ctrlpts.getD i []).length = 3 := fun i hi => by
    rw [List.getD_eq_getElem?_getD, List.getElem?_eq_getElem (by omega), Option.getD_some]
    exact h.pts.2 _ (List.getElem_mem _)
  obtain ⟨c0, hc0, hs0, hk0⟩ := initialize_curve_double_spaced (row3 0 (by omega)) (row3 (n - 1) (by omega)) hp
    (by omega)
  have hinit : (do
      let first ← pyGet c.ctrlpts 0
      let last ← pyGet c.ctrlpts (-1)
      initializeCurveFl fl64 first last c.degree (c.degree + 1)) = .ok c0 := by
    rw [pyGet_nat c.ctrlpts 0 0 [] rfl (by omega), ok_bind, pyGet_neg_one (n := n - 1) (by omega) [], ok_bind, h.deg]
    exact hc0
  have e1 : p + 2 ^ 0 * (p + 1 - p) = p + 1 := by rw [pow_zero, one_mul]; omega
  obtain ⟨⟨r1, hr1⟩, hall1⟩ := knotFit_runs hlen h3 hp hinv ((p + 1 : ℕ) : ℤ) (η := 1 / 2 ^ 52) (by positivity)
    (fun _ x => fl64 x = x) (fun _ l r _ _ h0 h1 h2 => ⟨rounding_fl64.idem _, mid_knot_error h0 h1 h2⟩) (fun _ _ h => h) 0
    (fuel := fuel) hs0
    (fun i hi => by
      rw [hk0 i hi]
      split
      · exact fl64_zero
      · exact_mod_cast fl64_natCast (m := 1) (by norm_num))
    (by norm_num) hf (by rw [e1]; omega) (by rw [e1]) (fun s hs => absurd hs (by omega))
  have final : ∀ res, FitCurveFixedFl fl64 fuel ls inv c data res → ∃ c', res = .ok c' := by
    intro res hres
    unfold FitCurveFixedFl at hres
    rw [hinit] at hres
    obtain ⟨res1, h1, hres⟩ := hres
    rw [hs0.pts.1] at h1
    obtain ⟨f1, δ1, rfl, hδ1, hsp1, -⟩ := hall1 res1 h1
    obtain ⟨res2, h2, hres⟩ := hres
    obtain ⟨f2, rfl, hsp2⟩ := (refit hsp1 hδ1 h).2 res2 h2
    obtain ⟨f3, rfl, -⟩ := (refit hsp2 hδ hsp2).2 res hres
    exact ⟨f3, rfl⟩
  refine ⟨?_, fun res hres => ?_⟩
  · obtain ⟨f1, δ1, rfl, hδ1, hsp1, -⟩ := hall1 r1 hr1
    obtain ⟨res2, h2⟩ := (refit hsp1 hδ1 h).1
    obtain ⟨f2, rfl, hsp2⟩ := (refit hsp1 hδ1 h).2 res2 h2
    obtain ⟨res3, h4⟩ := (refit hsp2 hδ hsp2).1
    refine ⟨res3, ?_⟩
    unfold FitCurveFixedFl
    rw [hinit]
    exact ⟨.ok f1, by rw [hs0.pts.1]; exact hr1, .ok f2, h2, h4⟩
  · obtain ⟨c', rfl⟩ := final res hres
    obtain ⟨a1, a2, a3, a4, a5⟩ := fit_curve_fixed_rounded_keeps hres h.pts.2
    rw [hpl] at a3 a5
    exact ⟨c', rfl, by rw [a1, h.deg], a2, a3, a4, a5⟩

/-! ## Concrete cases -/

/-- C173: three control points of degree 2, five are asked for: any run that returns has six. -/
example {fl : ℚ → ℚ} {ls : ℕ → List (List ℚ) → List ℚ → List ℚ} {inv : Curve ℚ → List ℚ → Py ℚ} {fuel : ℕ} {c' : Curve ℚ}
    (h : KnotFitFl fl ls inv exKnotData 5 fuel exFitCurve (.ok c')) : c'.ctrlpts.length = 6 := by
  obtain ⟨-, -, t, -, h1, h2, h3⟩ := fit_curve_knot_insertion_rounded_count fl ls inv exKnotData 5 fuel h (by decide)
    (by decide)
  rw [show exFitCurve.degree = 2 from rfl, show exFitCurve.ctrlpts.length = 3 from rfl] at h1 h3
  match t with
  | 0 => rw [h1] at h2; norm_num at h2
  | 1 => rw [h1] at h2; norm_num at h2
  | 2 => rw [h1]; rfl
  | t + 3 => have := h3 2 (by omega); norm_num at this

/-- The inversion of the cases below: the first coordinate of the point. -/
def exInvFirst (_ : Curve ℚ) (pt : List ℚ) : Py ℚ := .ok (pt.getD 0 0)

theorem exInvFirst_range {p : ℕ} (n : ℕ) (δ : ℚ) (c : Curve ℚ) (_ : Spaced p n δ c) (_ : 0 < δ) :
    ∀ pt ∈ exKnotData, ∃ u, exInvFirst c pt = .ok u ∧ 0 ≤ u ∧ u ≤ 1 := fun pt hpt =>
  ⟨pt.getD 0 0, rfl, by revert pt; decide +kernel⟩

/-- C173: five control points are asked for, every run returns six, on the knots of exact arithmetic. -/
example {ls : ℕ → List (List ℚ) → List ℚ → List ℚ}
    (hlen : ∀ n A b, A.length = b.length → (∀ row ∈ A, row.length = n) → (ls n A b).length = n) :
    (∃ res, KnotFitFl fl64 ls exInvFirst exKnotData 5 3 exFitCurve res) ∧
    ∀ res, KnotFitFl fl64 ls exInvFirst exKnotData 5 3 exFitCurve res → ∃ c', res = .ok c' ∧ Shape c'.ctrlpts 6 3 ∧
      knotFn c'.kv 3 = 1 / 4 := by
  obtain ⟨hx, hall⟩ := fit_curve_knot_insertion_double_exact_knots hlen (inv := exInvFirst) (data := exKnotData)
    (by decide +kernel) (p := 2) (by norm_num) exInvFirst_range (N := 5) (t := 2) (fuel := 3) (e := 0) exFitCurve_spaced
    (by norm_num)
    (by
      intro i hi
      interval_cases i
      · exact ⟨0, by decide +kernel⟩
      · exact ⟨0, by decide +kernel⟩
      · exact ⟨0, by decide +kernel⟩
      · exact ⟨1, by decide +kernel⟩
      · exact ⟨1, by decide +kernel⟩
      · exact ⟨1, by decide +kernel⟩)
    (by norm_num) (by norm_num) (by decide) (by norm_num) (by intro s hs; interval_cases s <;> norm_num)
  refine ⟨hx, fun res hres => ?_⟩
  obtain ⟨c', hr, -, hS, -, -, hv, -⟩ := hall res hres
  refine ⟨c', hr, hS, ?_⟩
  have := hv 0 (by norm_num) 1 (by norm_num)
  rw [show knotFn c'.kv 3 = _ from this, show knotFn exFitCurve.kv (2 + 0) = 0 by decide +kernel, show knotFn exFitCurve.kv (2 + 0 + 1) = 1 by decide +kernel]
  norm_num

/-- C173: the line with the inner knot nearest to `1/3` that a double can be. -/
def exThird : Curve ℚ := ⟨1, [[0, 0, 0], [1, 1, 1], [2, 0, 2]], [0, 0, fl64 (1 / 3), 1, 1]⟩

theorem exThird_spaced : Spaced 1 3 (3 / 10) exThird where
  deg := rfl
  pts := ⟨rfl, by decide +kernel⟩
  clamped := ⟨⟨by decide +kernel, by decide +kernel, by decide⟩, by intro i hi; interval_cases i <;> decide +kernel,
    by intro i h1 h2; interval_cases i <;> decide +kernel⟩
  zero := by decide +kernel
  one := by decide +kernel
  gap := by intro i h1 h2; interval_cases i <;> decide +kernel

example {ls : ℕ → List (List ℚ) → List ℚ → List ℚ}
    (hlen : ∀ n A b, A.length = b.length → (∀ row ∈ A, row.length = n) → (ls n A b).length = n) :=
  fit_curve_knot_insertion_double hlen (inv := exInvFirst) (data := exKnotData) (by decide +kernel) (p := 1) (by norm_num)
    exInvFirst_range (N := 4) (t := 1) (fuel := 2) exThird_spaced (by intro i hi; interval_cases i <;> decide +kernel)
    (by norm_num) (by norm_num) (by decide) (by norm_num) (by intro s hs; interval_cases s; norm_num)

/-- Its second new knot is not the midpoint of its span. -/
example : midKnotsFl fl64 exThird = .ok [fl64 (1 / 3) / 2, 6004799503160662 / 2 ^ 53] ∧
    (6004799503160662 / 2 ^ 53 : ℚ) ≠ (fl64 (1 / 3) + 1) / 2 := by decide +kernel

/-- C173: among eleven control points from `0` to `1` the fourth is not the double nearest to `3/10`, the last one is `1`. -/
example : linspaceFl fl64 0 1 11 = .ok ((List.range 10).map (fun (i : ℕ) => fl64 (i * fl64 (1 / 10))) ++ [1]) ∧
    fl64 (3 * fl64 (1 / 10)) ≠ fl64 (3 / 10) := by decide +kernel

example := initialize_curve_double (s := [0, 0, 0]) (e := [1, 1 / 2, 1 / 3]) (p := 3) (n := 11) rfl rfl (by norm_num)
  (by norm_num) (by norm_num) (by intro k hk; interval_cases k <;> decide +kernel)

/-- C173 from the initial curve: 100 control points are asked for, every run returns `2 + 2^7 = 130`. -/
example {ls : ℕ → List (List ℚ) → List ℚ → List ℚ}
    (hlen : ∀ n A b, A.length = b.length → (∀ row ∈ A, row.length = n) → (ls n A b).length = n) {c : Curve ℚ}
    (hc : initializeCurveFl fl64 [0, 0, 0] [1, 1, 1] 2 3 = .ok c) {res : Py (Curve ℚ)}
    (hres : KnotFitFl fl64 ls exInvFirst exKnotData 100 16 c res) :
    ∃ c', res = .ok c' ∧ Shape c'.ctrlpts 130 3 ∧ knotFn c'.kv 3 = 1 / 128 := by
  obtain ⟨c1, hc1, -, hall⟩ := fit_curve_knot_insertion_double_initial hlen (inv := exInvFirst) (data := exKnotData)
    (by decide +kernel) (p := 2) (by norm_num) exInvFirst_range (s := [0, 0, 0]) (e := [1, 1, 1]) rfl rfl (N := 100)
    (by norm_num) (fuel := 16) (by norm_num) (by decide)
  rw [show initializeCurveFl fl64 [0, 0, 0] [1, 1, 1] 2 (2 + 1) = .ok c from hc] at hc1
  cases hc1
  obtain ⟨c', hr, -, t, ht, h1, h2, hS, -, hv⟩ := hall res hres
  obtain rfl : t = 7 := by
    interval_cases t
    all_goals first
      | rfl
      | (norm_num at h1; done)
      | (have := h2 7 (by norm_num); norm_num at this)
  have := hv 1 (by norm_num)
  norm_num at this
  exact ⟨c', hr, hS, this⟩

/-- C173: the fixed fit of the same data. -/
example {ls : ℕ → List (List ℚ) → List ℚ → List ℚ}
    (hlen : ∀ n A b, A.length = b.length → (∀ row ∈ A, row.length = n) → (ls n A b).length = n) :=
  fit_curve_fixed_double hlen (inv := exInvFirst) (data := exKnotData) (by decide +kernel) (p := 1) (by norm_num)
    exInvFirst_range (fuel := 1) exThird_spaced (by norm_num) (by norm_num) (by decide)

/-- An inversion that raises ends both fits with its exception. -/
example (ls : ℕ → List (List ℚ) → List ℚ → List ℚ) :
    KnotFitFl fl64 ls (fun _ _ => .error .diverged) exKnotData 5 3 exFitCurve (.error .diverged) ∧
    FitCurveFixedFl fl64 1 ls (fun _ _ => .error .diverged) exThird exKnotData (.error .diverged) := by
  refine ⟨Or.inl ⟨_, rfl, rfl⟩, ?_⟩
  obtain ⟨c, hc, -⟩ := initialize_curve_double_spaced (s := [0, 0, 0]) (e := [2, 0, 2]) rfl rfl (p := 1) le_rfl (by norm_num)
  have hi : (do
      let first ← pyGet exThird.ctrlpts 0
      let last ← pyGet exThird.ctrlpts (-1)
      initializeCurveFl fl64 first last exThird.degree (exThird.degree + 1)) = .ok c := hc
  unfold FitCurveFixedFl
  rw [hi]
  exact ⟨_, Or.inl ⟨_, rfl, rfl⟩, rfl⟩

end PySpline
