import Verif.Lemmas.IeeeGuarded
import Verif.Props.RoundedKnotFit

/-!
# C190: the curve fits in IEEE arithmetic
-/

set_option linter.unusedSectionVars false
set_option exponentiation.threshold 1100

namespace PySpline

open Spec Ext Finset

section
variable {K : Type} [Field K] [LinearOrder K]

/-- **C190.** Whatever the arithmetic, the solver and the inversion do: whenever `fit_curve_knot_insertion`, started with
`n₀ > degree` control points, returns, it has exactly `degree + 2^t (n₀ - degree)` control points, the first number of that
form that reaches `num_pts`. -/
theorem fit_curve_knot_insertion_ieee_count (rd : K → Ext K)
    (ls : ℕ → List (List (Ext K)) → List (Ext K) → Py (List (Ext K)))
    (inv : Curve (Ext K) → List (Ext K) → Py (Ext K)) (data : List (List (Ext K))) (N : ℤ) (fuel : ℕ) :
    ∀ {c c' : Curve (Ext K)}, KnotFitR rd ls inv data N fuel c (.ok c') →
      c.kv.length = c.ctrlpts.length + c.degree + 1 → c.degree < c.ctrlpts.length →
      c'.degree = c.degree ∧ c'.kv.length = c'.ctrlpts.length + c'.degree + 1 ∧
      ∃ t < fuel, c'.ctrlpts.length = c.degree + 2 ^ t * (c.ctrlpts.length - c.degree) ∧
        N ≤ c'.ctrlpts.length ∧
        ∀ s < t, ((c.degree + 2 ^ s * (c.ctrlpts.length - c.degree) : ℕ) : ℤ) < N := by
  induction fuel with
  | zero => intro c c' h; cases h
  | succ fuel ih =>
    intro c c' h hkv hn
    unfold KnotFitR at h
    rcases h with ⟨e, -, h⟩ | ⟨rows, res, -, hfit, h⟩
    · cases h
    cases res with
    | error e => cases h
    | ok c1 =>
      dsimp only at h
      obtain ⟨d1, k1, s1, -⟩ := single_fit_curve_ieee_keeps hfit
      have l1 := s1.1
      split at h
      · rename_i hN
        cases h
        refine ⟨d1, by rw [k1, l1, d1, hkv], 0, Nat.zero_lt_succ _, by rw [l1]; omega, hN,
          fun s hs => absurd hs (by omega)⟩
      · rename_i hN
        split at h
        · cases h
        rename_i c2 h2
        obtain ⟨ks, hks, h2⟩ := bind_eq_ok h2
        have lk := midKnotsR_length hks
        obtain ⟨d2, k2, l2⟩ := insertKnotsR_length ks h2
        rw [k1, d1, hkv] at lk
        obtain ⟨a1, a2, t, ht, a3, a4, a5⟩ := ih h (by rw [k2, k1, l2, l1, d2, d1]; omega)
          (by rw [d2, d1, l2, l1]; omega)
        have e : c2.ctrlpts.length - c2.degree = 2 * (c.ctrlpts.length - c.degree) := by
          rw [l2, l1, d2, d1]; omega
        rw [e, d2, d1] at a3 a5
        refine ⟨by rw [a1, d2, d1], a2, t + 1, by omega, ?_, a4, fun s hs => ?_⟩
        · rw [a3, pow_succ]; ring
        · cases s with
          | zero => rw [l1] at hN; simp only [pow_zero, one_mul]; omega
          | succ s =>
            have := a5 s (by omega)
            rw [pow_succ, mul_assoc]
            exact this

/-- **C190.** Whatever the arithmetic, the solver and the inversion do: whenever `fit_curve_fixed_ctrlpts` returns, degree,
knots, number of control points and end points are those of the input. -/
theorem fit_curve_fixed_ieee_keeps {rd : K → Ext K} {fuel : ℕ}
    {ls : ℕ → List (List (Ext K)) → List (Ext K) → Py (List (Ext K))}
    {inv : Curve (Ext K) → List (Ext K) → Py (Ext K)} {c c' : Curve (Ext K)} {data : List (List (Ext K))}
    (h : FitCurveFixedR rd fuel ls inv c data (.ok c')) (h3 : ∀ row ∈ c.ctrlpts, row.length = 3) :
    c'.degree = c.degree ∧ c'.kv = c.kv ∧ Shape c'.ctrlpts c.ctrlpts.length 3 ∧
      c'.ctrlpts.getD 0 [] = c.ctrlpts.getD 0 [] ∧
      c'.ctrlpts.getD (c.ctrlpts.length - 1) [] = c.ctrlpts.getD (c.ctrlpts.length - 1) [] := by
  have keeps : ∀ {q c c' : Curve (Ext K)}, RefitR rd ls inv data q c (.ok c') → (∀ row ∈ c.ctrlpts, row.length = 3) →
      c'.degree = c.degree ∧ c'.kv = c.kv ∧ Shape c'.ctrlpts c.ctrlpts.length 3 ∧
      c'.ctrlpts.getD 0 [] = c.ctrlpts.getD 0 [] ∧
      c'.ctrlpts.getD (c.ctrlpts.length - 1) [] = c.ctrlpts.getD (c.ctrlpts.length - 1) [] := by
    rintro q c c' (⟨e, -, h⟩ | ⟨rows, -, h⟩) h3
    · cases h
    have hn := singleFitCurveR_pos h
    obtain ⟨h1, h2, hs, he⟩ := single_fit_curve_ieee_keeps h
    exact ⟨h1, h2, hs, getD_eq_of_at2E hs ⟨rfl, h3⟩ hn fun k hk => (he k hk).1,
      getD_eq_of_at2E hs ⟨rfl, h3⟩ (by omega) fun k hk => (he k hk).2⟩
  unfold FitCurveFixedR at h
  split at h
  · cases h
  obtain ⟨res, -, h⟩ := h
  split at h
  · cases h
  obtain ⟨res', h1, h⟩ := h
  split at h
  · cases h
  obtain ⟨a1, a2, a3, a4, a5⟩ := keeps h1 h3
  obtain ⟨b1, b2, b3, b4, b5⟩ := keeps h a3.2
  rw [a3.1] at b3 b5
  exact ⟨b1.trans a1, b2.trans a2, b3, b4.trans a4, b5.trans a5⟩

end

/-! ## Double precision -/

/-- **C190.** `initialize_curve` in double precision with overflow and underflow: for end points of doubles of size at most
`B`, `2^-1000 ≤ B ≤ 2^1019`, everything returned is a double, the knots are those without underflow, the first and the last
control point are exactly `start` and `end`, and the others are within `M 2^-47` of equally spaced points, `M ≥ 2^-1000` a
bound for the two ends. -/
theorem initialize_curve_binary64 {s e : List ℚ} (hs : s.length = 3) (he : e.length = 3) {p n : ℕ} (h : p < n) (hn : 2 ≤ n)
    (hn' : n ≤ 2 ^ 20) {B : ℚ} (hB0 : 1 / 2 ^ 1000 ≤ B) (hB1 : B ≤ 2 ^ 1019) (hsB : ∀ x ∈ s, bin64 x = fin x ∧ |x| ≤ B)
    (heB : ∀ x ∈ e, bin64 x = fin x ∧ |x| ≤ B) :
    ∃ c, initializeCurveR bin64 (lift1 s) (lift1 e) p n = .ok (Curve.lift c) ∧ c.degree = p ∧ Shape c.ctrlpts n 3 ∧
      generateUniformFl fl64 p n = .ok c.kv ∧ StoredCurve bin64 (2 * B) c ∧
      (∀ k < 3, coord c.ctrlpts k 0 = s.getD k 0 ∧ coord c.ctrlpts k (n - 1) = e.getD k 0) ∧
      ∀ k < 3, ∀ M, 1 / 2 ^ 1000 ≤ M → |s.getD k 0| ≤ M → |e.getD k 0| ≤ M → ∀ i < n, |coord c.ctrlpts k i
        - (s.getD k 0 + (i : ℚ) / ((n : ℚ) - 1) * (e.getD k 0 - s.getD k 0))| ≤ M / 2 ^ 47 :=
  initializeCurveR_bin64 hs he h hn hn' hB0 hB1 hsB heB

/-- **C190.** `fit_curve_knot_insertion` in double precision with overflow and underflow, on a clamped curve on `[0, 1]` of
doubles whose shortest span `δ` allows `t` halvings, where `t` is the first number with
`num_pts ≤ degree + 2^t (n - degree)`; data and end points are at most `B`, the other control points at most `2 B`,
`2^-1000 ≤ B ≤ 2^1019`.  If the solver returns doubles of size at most `B` and the inversion parameters in `[0, 1]`, unless
they raise an exception of the class `E`: every run ends with an exception of that class or, after `t` rounds, with a curve
without infinities and NaN.  It has `degree + 2^t (n - degree)` control points of size at most `B` and a clamped knot vector
of doubles with distinct interior knots, each at most `t 2^-52` away from the knot that divides its span in `2^t` equal
parts; the end control points are unchanged; and it is the fit of the data on this knot vector. -/
theorem fit_curve_knot_insertion_binary64 {E : Err → Prop} {B : ℚ} (hB0 : 1 / 2 ^ 1000 ≤ B) (hB1 : B ≤ 2 ^ 1019)
    {ls : ℕ → List (List (Ext ℚ)) → List (Ext ℚ) → Py (List (Ext ℚ))} (hls : TameSolver bin64 (2 ^ 1023) B E ls)
    {inv : Curve (Ext ℚ) → List (Ext ℚ) → Py (Ext ℚ)} {data : List (List ℚ)} (h3 : ∀ pt ∈ data, pt.length = 3)
    (hdata : ∀ pt ∈ data, ∀ x ∈ pt, bin64 x = fin x ∧ |x| ≤ B) {p : ℕ} (hp : 1 ≤ p) (hp10 : p ≤ 10)
    (hinv : ∀ (n : ℕ) (δ : ℚ) (c : Curve ℚ), Spaced p n δ c → 0 < δ → StoredCurve bin64 (2 * B) c →
      ∀ pt ∈ data, (∃ e, E e ∧ inv c.lift (lift1 pt) = .error e) ∨
        ∃ u, inv c.lift (lift1 pt) = .ok (fin u) ∧ bin64 u = fin u ∧ 0 ≤ u ∧ u ≤ 1)
    {N : ℤ} {t n fuel : ℕ} {δ : ℚ} {c : Curve ℚ} (h : Spaced p n δ c) (hst : StoredCurve bin64 (2 * B) c)
    (hends : ∀ k < 3, |coord c.ctrlpts k 0| ≤ B ∧ |coord c.ctrlpts k (n - 1)| ≤ B) (hδ : 2 ^ t * (3 / 10 ^ 5) ≤ δ)
    (hf : t < fuel) (hsize : 5 * p + (p + 2 ^ t * (n - p)) + data.length ≤ 10 ^ 8)
    (hN : N ≤ ((p + 2 ^ t * (n - p) : ℕ) : ℤ)) (hlt : ∀ s < t, ((p + 2 ^ s * (n - p) : ℕ) : ℤ) < N) :
    (∃ res, KnotFitR bin64 ls inv (lift2 data) N fuel c.lift res) ∧
    ∀ res, KnotFitR bin64 ls inv (lift2 data) N fuel c.lift res → (∃ e, E e ∧ res = .error e) ∨
      ∃ c', res = .ok (Curve.lift c') ∧ c'.degree = p ∧ Shape c'.ctrlpts (p + 2 ^ t * (n - p)) 3 ∧
        Clamped p (p + 2 ^ t * (n - p)) c'.kv ∧ DistinctInterior p (p + 2 ^ t * (n - p)) c'.kv ∧ StoredCurve bin64 B c' ∧
        (∀ i < n - p, ∀ j ≤ 2 ^ t, |knotFn c'.kv (p + 2 ^ t * i + j) - (knotFn c.kv (p + i)
          + (j : ℚ) / 2 ^ t * (knotFn c.kv (p + i + 1) - knotFn c.kv (p + i)))| ≤ t / 2 ^ 52) ∧
        c'.ctrlpts.getD 0 [] = c.ctrlpts.getD 0 [] ∧
        c'.ctrlpts.getD (p + 2 ^ t * (n - p) - 1) [] = c.ctrlpts.getD (n - 1) [] ∧
        ∃ (P : List (List ℚ)) (rows : List (List ℚ)), Shape P (p + 2 ^ t * (n - p)) 3 ∧
          parameterizeCurveWithE (inv (Curve.lift { c' with ctrlpts := P })) (lift2 data) = .ok (lift2 rows) ∧
          SingleFitCurveR bin64 ls (Curve.lift { c' with ctrlpts := P }) (lift2 rows) (.ok c'.lift) := by
  have h2t : (1 : ℚ) ≤ 2 ^ t := one_le_pow₀ (by norm_num)
  obtain ⟨hex, hall⟩ := knotFitR_runs hB0 hB1 hls h3 hdata hp hp10 hinv N t h hst hends
    (by refine le_trans ?_ hδ; norm_num; linarith) hf hsize hN hlt
  refine ⟨hex, fun res hres => (hall res hres).imp id ?_⟩
  rintro ⟨c', δ', hr, hδ', hs, hst', hv, e0, e1, hP⟩
  exact ⟨c', hr, hs.deg, hs.pts, hs.clamped, hs.distinct hδ', hst',
    fun i hi j hj => (hv i hi j hj).trans (le_of_eq (by ring)), e0, e1, hP⟩

/-- **C190.** For any solver whatsoever: every run of `fit_curve_knot_insertion` in double precision ends as in
`fit_curve_knot_insertion_binary64`, unless on the way the solver raises or returns something else than as many doubles of
size at most `B` as there are unknowns (the fit with the guarded solver ends with the exception of the guard). -/
theorem fit_curve_knot_insertion_binary64_any_solver (e : Err) {B : ℚ} (hB0 : 1 / 2 ^ 1000 ≤ B) (hB1 : B ≤ 2 ^ 1019)
    {ls : ℕ → List (List (Ext ℚ)) → List (Ext ℚ) → Py (List (Ext ℚ))}
    {inv : Curve (Ext ℚ) → List (Ext ℚ) → Py (Ext ℚ)} {data : List (List ℚ)} (h3 : ∀ pt ∈ data, pt.length = 3)
    (hdata : ∀ pt ∈ data, ∀ x ∈ pt, bin64 x = fin x ∧ |x| ≤ B) {p : ℕ} (hp : 1 ≤ p) (hp10 : p ≤ 10)
    (hinv : ∀ (n : ℕ) (δ : ℚ) (c : Curve ℚ), Spaced p n δ c → 0 < δ → StoredCurve bin64 (2 * B) c →
      ∀ pt ∈ data, ∃ u, inv c.lift (lift1 pt) = .ok (fin u) ∧ bin64 u = fin u ∧ 0 ≤ u ∧ u ≤ 1)
    {N : ℤ} {t n fuel : ℕ} {δ : ℚ} {c : Curve ℚ} (h : Spaced p n δ c) (hst : StoredCurve bin64 (2 * B) c)
    (hends : ∀ k < 3, |coord c.ctrlpts k 0| ≤ B ∧ |coord c.ctrlpts k (n - 1)| ≤ B) (hδ : 2 ^ t * (3 / 10 ^ 5) ≤ δ)
    (hf : t < fuel) (hsize : 5 * p + (p + 2 ^ t * (n - p)) + data.length ≤ 10 ^ 8)
    (hN : N ≤ ((p + 2 ^ t * (n - p) : ℕ) : ℤ)) (hlt : ∀ s < t, ((p + 2 ^ s * (n - p) : ℕ) : ℤ) < N)
    {res : Py (Curve (Ext ℚ))} (hres : KnotFitR bin64 ls inv (lift2 data) N fuel c.lift res) :
    KnotFitR bin64 (guarded bin64 B e ls) inv (lift2 data) N fuel c.lift (.error e) ∨
      ∃ c', res = .ok (Curve.lift c') ∧ c'.degree = p ∧ Shape c'.ctrlpts (p + 2 ^ t * (n - p)) 3 ∧
        Clamped p (p + 2 ^ t * (n - p)) c'.kv ∧ DistinctInterior p (p + 2 ^ t * (n - p)) c'.kv ∧ StoredCurve bin64 B c' ∧
        (∀ i < n - p, ∀ j ≤ 2 ^ t, |knotFn c'.kv (p + 2 ^ t * i + j) - (knotFn c.kv (p + i)
          + (j : ℚ) / 2 ^ t * (knotFn c.kv (p + i + 1) - knotFn c.kv (p + i)))| ≤ t / 2 ^ 52) ∧
        c'.ctrlpts.getD 0 [] = c.ctrlpts.getD 0 [] ∧
        c'.ctrlpts.getD (p + 2 ^ t * (n - p) - 1) [] = c.ctrlpts.getD (n - 1) [] := by
  obtain ⟨-, hall⟩ := fit_curve_knot_insertion_binary64 (E := (· = e)) hB0 hB1 (guarded_tame bin64 (2 ^ 1023) B e ls) h3 hdata
    hp hp10 (fun n δ c a b d pt hpt => Or.inr (hinv n δ c a b d pt hpt)) h hst hends hδ hf hsize hN hlt
  rcases knotFitR_guarded (X := B) e fuel hres with hg | hg
  · rcases hall res hg with ⟨e', rfl, rfl⟩ | ⟨c', a1, a2, a3, a4, a5, a6, a7, a8, a9, -⟩
    · exact Or.inl hg
    · exact Or.inr ⟨c', a1, a2, a3, a4, a5, a6, a7, a8, a9⟩
  · exact Or.inl hg

/-- **C190.** `fit_curve_fixed_ctrlpts` in double precision with overflow and underflow, on a clamped curve on `[0, 1]` of
doubles with interior knots at least `2^-1000` apart: every run ends with an exception of the class `E` that the solver or the
inversion raised, or with a curve of doubles of size at most `B` that has the degree, the knots and the end points of the
input. -/
theorem fit_curve_fixed_binary64 {E : Err → Prop} {B : ℚ} (hB0 : 1 / 2 ^ 1000 ≤ B) (hB1 : B ≤ 2 ^ 1019)
    {ls : ℕ → List (List (Ext ℚ)) → List (Ext ℚ) → Py (List (Ext ℚ))} (hls : TameSolver bin64 (2 ^ 1023) B E ls)
    {inv : Curve (Ext ℚ) → List (Ext ℚ) → Py (Ext ℚ)} {data : List (List ℚ)} (h3 : ∀ pt ∈ data, pt.length = 3)
    (hdata : ∀ pt ∈ data, ∀ x ∈ pt, bin64 x = fin x ∧ |x| ≤ B) {p : ℕ} (hp : 1 ≤ p) (hp10 : p ≤ 10)
    (hinv : ∀ (n : ℕ) (δ : ℚ) (c : Curve ℚ), Spaced p n δ c → 0 < δ → StoredCurve bin64 (2 * B) c →
      ∀ pt ∈ data, (∃ e, E e ∧ inv c.lift (lift1 pt) = .error e) ∨
        ∃ u, inv c.lift (lift1 pt) = .ok (fin u) ∧ bin64 u = fin u ∧ 0 ≤ u ∧ u ≤ 1)
    {n fuel : ℕ} {δ : ℚ} {c : Curve ℚ} (h : Spaced p n δ c) (hst : StoredCurve bin64 (2 * B) c)
    (hends : ∀ k < 3, |coord c.ctrlpts k 0| ≤ B ∧ |coord c.ctrlpts k (n - 1)| ≤ B) (hδ : 1 / 2 ^ 1000 ≤ δ) (hf : 0 < fuel)
    (hsize : 6 * p + n + data.length ≤ 10 ^ 8) :
    (∃ res, FitCurveFixedR bin64 fuel ls inv c.lift (lift2 data) res) ∧
    ∀ res, FitCurveFixedR bin64 fuel ls inv c.lift (lift2 data) res → (∃ e, E e ∧ res = .error e) ∨
      ∃ c', res = .ok (Curve.lift c') ∧ c'.degree = p ∧ c'.kv = c.kv ∧ Shape c'.ctrlpts n 3 ∧ StoredCurve bin64 B c' ∧
        c'.ctrlpts.getD 0 [] = c.ctrlpts.getD 0 [] ∧ c'.ctrlpts.getD (n - 1) [] = c.ctrlpts.getD (n - 1) [] := by
  have hsz := h.clamped.size
  have hpl := h.pts.1
  have hB : 0 < B := lt_of_lt_of_le (by positivity) hB0
  have hδ0 : 0 < δ := lt_of_lt_of_le (by positivity) hδ
  have grow : ∀ {c : Curve ℚ}, StoredCurve bin64 B c → StoredCurve bin64 (2 * B) c := fun h =>
    ⟨h.knots, fun row hr x hx => ⟨(h.pts row hr x hx).1, (h.pts row hr x hx).2.trans (by linarith)⟩⟩
  -- one fit with the parameters from another curve
  have refit : ∀ {m : ℕ} {ε : ℚ} {q c1 : Curve ℚ}, Spaced p m ε q → 0 < ε → StoredCurve bin64 (2 * B) q →
      Spaced p n δ c1 → StoredCurve bin64 (2 * B) c1 → c1.ctrlpts.getD 0 [] = c.ctrlpts.getD 0 [] →
      c1.ctrlpts.getD (n - 1) [] = c.ctrlpts.getD (n - 1) [] →
      (∃ res, RefitR bin64 ls inv (lift2 data) q.lift c1.lift res) ∧
      ∀ res, RefitR bin64 ls inv (lift2 data) q.lift c1.lift res → (∃ e, E e ∧ res = .error e) ∨
        ∃ c', res = .ok (Curve.lift c') ∧ Spaced p n δ c' ∧ StoredCurve bin64 B c' ∧ c'.kv = c1.kv ∧
          c'.ctrlpts.getD 0 [] = c.ctrlpts.getD 0 [] ∧ c'.ctrlpts.getD (n - 1) [] = c.ctrlpts.getD (n - 1) [] := by
    intro m ε q c1 hq hε hqs hc hcs e0 e1
    rcases refitR_finite hB0 hB1 hls h3 hdata (hinv m ε q hq hε hqs) hp10 hc hδ hcs
      (fun k hk => by unfold coord; rw [e0, e1]; exact hends k hk) (by omega) with ⟨e, he, hrows⟩ | ⟨rows, hrows, ⟨r, hr⟩, hall⟩
    · refine ⟨⟨.error e, Or.inl ⟨e, hrows, rfl⟩⟩, fun res hres => Or.inl ?_⟩
      rcases hres with ⟨e', he', rfl⟩ | ⟨rows', hrows', -⟩
      · rw [hrows] at he'; cases he'; exact ⟨e, he, rfl⟩
      · rw [hrows] at hrows'; cases hrows'
    · refine ⟨⟨r, Or.inr ⟨_, hrows, hr⟩⟩, fun res hres => ?_⟩
      rcases hres with ⟨e', he', -⟩ | ⟨rows', hrows', hres⟩
      · rw [hrows] at he'; cases he'
      rw [hrows] at hrows'
      cases hrows'
      rcases hall res hres with herr | ⟨c', a1, a2, a3, a4, a5, a6⟩
      · exact Or.inl herr
      · exact Or.inr ⟨c', a1, a2, a3, a4, a5.trans e0, a6.trans e1⟩
  -- the initial curve
  have rowmem : ∀ i < n, c.ctrlpts.getD i [] ∈ c.ctrlpts := fun i hi => by
    rw [List.getD_eq_getElem?_getD, List.getElem?_eq_getElem (by omega), Option.getD_some]
    exact List.getElem_mem _
  have rowB : ∀ i < n, (∀ k < 3, |coord c.ctrlpts k i| ≤ B) → ∀ x ∈ c.ctrlpts.getD i [], bin64 x = fin x ∧ |x| ≤ B := by
    intro i hi hb x hx
    refine ⟨(hst.pts _ (rowmem i hi) x hx).1, ?_⟩
    obtain ⟨k, hk, rfl⟩ := List.getElem_of_mem hx
    have := hb k (by rw [← h.pts.2 _ (rowmem i hi)]; exact hk)
    unfold coord at this
    rwa [List.getD_eq_getElem?_getD (l := c.ctrlpts.getD i []), List.getElem?_eq_getElem hk, Option.getD_some] at this
  obtain ⟨c0, hc0, d0, S0, k0, st0, en0, -⟩ := initializeCurveR_bin64 (h.pts.2 _ (rowmem 0 (by omega)))
    (h.pts.2 _ (rowmem (n - 1) (by omega))) (Nat.lt_succ_self p) (by omega) (by omega) hB0 hB1
    (rowB 0 (by omega) fun k hk => (hends k hk).1) (rowB (n - 1) (by omega) fun k hk => (hends k hk).2)
  have hs0 : Spaced p (p + 1) 1 c0 := by
    obtain ⟨U, hU, -, hc, -, z0, z1, -⟩ := generate_uniform_double (Nat.lt_succ_self p) (by omega)
    rw [k0] at hU
    cases hU
    refine ⟨d0, S0, hc, z0, z1, fun i h2 h3 => ?_⟩
    obtain rfl : i = p := by omega
    rw [hc.right (i + 1) (by omega) (by omega), hc.left i le_rfl, z1, z0, sub_zero]
  have hinit : (do
      let first ← pyGet c.lift.ctrlpts 0
      let last ← pyGet c.lift.ctrlpts (-1)
      initializeCurveR bin64 first last c.lift.degree (c.lift.degree + 1)) = .ok c0.lift := by
    have hl : c.lift.ctrlpts.length = n := (List.length_map _).trans hpl
    have hg : ∀ i < n, c.lift.ctrlpts.getD i [] = lift1 (c.ctrlpts.getD i []) := fun i hi => by
      show (c.ctrlpts.map lift1).getD i [] = _
      rw [List.getD_eq_getElem?_getD, List.getElem?_map, List.getD_eq_getElem?_getD,
        List.getElem?_eq_getElem (by omega)]
      rfl
    rw [pyGet_nat c.lift.ctrlpts 0 0 [] rfl (by omega), ok_bind, pyGet_neg_one (n := n - 1) (by omega) [], ok_bind,
      hg 0 (by omega), hg (n - 1) (by omega), show c.lift.degree = p from h.deg]
    exact hc0
  have hl0 : c0.lift.ctrlpts.length = p + 1 := (List.length_map _).trans S0.1
  have e1 : p + 2 ^ 0 * (p + 1 - p) = p + 1 := by rw [pow_zero, one_mul]; omega
  obtain ⟨⟨r1, hr1⟩, hall1⟩ := knotFitR_runs hB0 hB1 hls h3 hdata hp hp10 hinv ((p + 1 : ℕ) : ℤ) 0 (fuel := fuel) hs0 st0
    (fun k hk => by
      rw [show p + 1 - 1 = p + 1 - 1 from rfl, (en0 k hk).1, (en0 k hk).2]
      exact hends k hk)
    (by norm_num) hf (by rw [e1]; omega) (by rw [e1]) (fun s hs => absurd hs (by omega))
  refine ⟨?_, fun res hres => ?_⟩
  · unfold FitCurveFixedR
    rw [hinit]
    dsimp only
    rw [hl0]
    rcases hall1 r1 hr1 with ⟨e, he, rfl⟩ | ⟨f1, δ1, rfl, hδ1, hsp1, hst1, -⟩
    · exact ⟨.error e, _, hr1, rfl⟩
    obtain ⟨⟨r2, hr2⟩, hall2⟩ := refit hsp1 hδ1 (grow hst1) h hst rfl rfl
    rcases hall2 r2 hr2 with ⟨e, he, rfl⟩ | ⟨f2, rfl, hsp2, hst2, hk2, a2, b2⟩
    · exact ⟨.error e, _, hr1, _, hr2, rfl⟩
    obtain ⟨⟨r3, hr3⟩, -⟩ := refit hsp2 hδ0 (grow hst2) hsp2 (grow hst2) a2 b2
    exact ⟨r3, _, hr1, _, hr2, hr3⟩
  · unfold FitCurveFixedR at hres
    rw [hinit] at hres
    obtain ⟨res1, h1, hres⟩ := hres
    rw [hl0] at h1
    rcases hall1 res1 h1 with ⟨e, he, rfl⟩ | ⟨f1, δ1, rfl, hδ1, hsp1, hst1, -⟩
    · exact Or.inl ⟨e, he, hres⟩
    obtain ⟨res2, h2, hres⟩ := hres
    rcases (refit hsp1 hδ1 (grow hst1) h hst rfl rfl).2 res2 h2 with ⟨e, he, rfl⟩ | ⟨f2, rfl, hsp2, hst2, hk2, a2, b2⟩
    · exact Or.inl ⟨e, he, hres⟩
    rcases (refit hsp2 hδ0 (grow hst2) hsp2 (grow hst2) a2 b2).2 res hres with herr | ⟨f3, rfl, hsp3, hst3, hk3, a3, b3⟩
    · exact Or.inl herr
    · exact Or.inr ⟨f3, rfl, hsp3.deg, hk3.trans hk2, hsp3.pts, hst3, a3, b3⟩

/-- **C190.** The same for any solver whatsoever, unless on the way it raises or returns something else than as many doubles
of size at most `B` as there are unknowns. -/
theorem fit_curve_fixed_binary64_any_solver (e : Err) {B : ℚ} (hB0 : 1 / 2 ^ 1000 ≤ B) (hB1 : B ≤ 2 ^ 1019)
    {ls : ℕ → List (List (Ext ℚ)) → List (Ext ℚ) → Py (List (Ext ℚ))}
    {inv : Curve (Ext ℚ) → List (Ext ℚ) → Py (Ext ℚ)} {data : List (List ℚ)} (h3 : ∀ pt ∈ data, pt.length = 3)
    (hdata : ∀ pt ∈ data, ∀ x ∈ pt, bin64 x = fin x ∧ |x| ≤ B) {p : ℕ} (hp : 1 ≤ p) (hp10 : p ≤ 10)
    (hinv : ∀ (n : ℕ) (δ : ℚ) (c : Curve ℚ), Spaced p n δ c → 0 < δ → StoredCurve bin64 (2 * B) c →
      ∀ pt ∈ data, ∃ u, inv c.lift (lift1 pt) = .ok (fin u) ∧ bin64 u = fin u ∧ 0 ≤ u ∧ u ≤ 1)
    {n fuel : ℕ} {δ : ℚ} {c : Curve ℚ} (h : Spaced p n δ c) (hst : StoredCurve bin64 (2 * B) c)
    (hends : ∀ k < 3, |coord c.ctrlpts k 0| ≤ B ∧ |coord c.ctrlpts k (n - 1)| ≤ B) (hδ : 1 / 2 ^ 1000 ≤ δ) (hf : 0 < fuel)
    (hsize : 6 * p + n + data.length ≤ 10 ^ 8) {res : Py (Curve (Ext ℚ))}
    (hres : FitCurveFixedR bin64 fuel ls inv c.lift (lift2 data) res) :
    FitCurveFixedR bin64 fuel (guarded bin64 B e ls) inv c.lift (lift2 data) (.error e) ∨
      ∃ c', res = .ok (Curve.lift c') ∧ c'.degree = p ∧ c'.kv = c.kv ∧ Shape c'.ctrlpts n 3 ∧ StoredCurve bin64 B c' ∧
        c'.ctrlpts.getD 0 [] = c.ctrlpts.getD 0 [] ∧ c'.ctrlpts.getD (n - 1) [] = c.ctrlpts.getD (n - 1) [] := by
  obtain ⟨-, hall⟩ := fit_curve_fixed_binary64 (E := (· = e)) hB0 hB1 (guarded_tame bin64 (2 ^ 1023) B e ls) h3 hdata
    hp hp10 (fun n δ c a b d pt hpt => Or.inr (hinv n δ c a b d pt hpt)) h hst hends hδ hf hsize
  rcases fitCurveFixedR_guarded (X := B) e hres with hg | hg
  · rcases hall res hg with ⟨e', rfl, rfl⟩ | hgood
    · exact Or.inl hg
    · exact Or.inr hgood
  · exact Or.inl hg

/-! ## Concrete cases -/

/-- C190: three control points of degree 2, five are asked for: any run that returns has six. -/
example {rd : ℚ → Ext ℚ} {ls : ℕ → List (List (Ext ℚ)) → List (Ext ℚ) → Py (List (Ext ℚ))}
    {inv : Curve (Ext ℚ) → List (Ext ℚ) → Py (Ext ℚ)} {data : List (List (Ext ℚ))} {fuel : ℕ} {c' : Curve (Ext ℚ)}
    (h : KnotFitR rd ls inv data 5 fuel exFitCurve.lift (.ok c')) : c'.ctrlpts.length = 6 := by
  obtain ⟨-, -, t, -, h1, h2, h3⟩ := fit_curve_knot_insertion_ieee_count rd ls inv data 5 fuel h (by decide) (by decide)
  rw [show exFitCurve.lift.degree = 2 from rfl, show exFitCurve.lift.ctrlpts.length = 3 from rfl] at h1 h3
  match t with
  | 0 => rw [h1] at h2; norm_num at h2
  | 1 => rw [h1] at h2; norm_num at h2
  | 2 => rw [h1]; rfl
  | t + 3 => have := h3 2 (by omega); norm_num at this

example {rd : ℚ → Ext ℚ} {ls : ℕ → List (List (Ext ℚ)) → List (Ext ℚ) → Py (List (Ext ℚ))}
    {inv : Curve (Ext ℚ) → List (Ext ℚ) → Py (Ext ℚ)} {data : List (List (Ext ℚ))} {c' : Curve (Ext ℚ)}
    (h : FitCurveFixedR rd 1 ls inv exThird.lift data (.ok c')) : c'.ctrlpts.getD 2 [] = [fin 2, fin 0, fin 2] :=
  (fit_curve_fixed_ieee_keeps h (by decide)).2.2.2.2

/-- A solver that knows nothing. -/
def exZeroSolver (n : ℕ) (_ : List (List (Ext ℚ))) (_ : List (Ext ℚ)) : Py (List (Ext ℚ)) := .ok (List.replicate n 0)

theorem exZeroSolver_tame : TameSolver bin64 (2 ^ 1023) 2 (fun _ => False) exZeroSolver := fun n A b _ _ _ _ =>
  Or.inr ⟨List.replicate n 0, by rw [List.map_replicate]; rfl, List.length_replicate, fun y hy => by
    rw [List.eq_of_mem_replicate hy]
    exact ⟨by decide +kernel, by norm_num⟩⟩

/-- The inversion of the cases below: the first coordinate of the point. -/
def exInvFirstE (_ : Curve (Ext ℚ)) (pt : List (Ext ℚ)) : Py (Ext ℚ) := .ok (pt.getD 0 0)

theorem exInvFirstE_range (c : Curve (Ext ℚ)) : ∀ pt ∈ exKnotData,
    ∃ u, exInvFirstE c (lift1 pt) = .ok (fin u) ∧ bin64 u = fin u ∧ 0 ≤ u ∧ u ≤ 1 := fun pt hpt =>
  ⟨pt.getD 0 0, congrArg Except.ok (getD_lift pt 0), by revert pt; decide +kernel⟩

theorem exKnotData_stored : ∀ pt ∈ exKnotData, ∀ x ∈ pt, bin64 x = fin x ∧ |x| ≤ 2 := by decide +kernel

theorem exThird_stored : StoredCurve bin64 (2 * 2) exThird := ⟨by decide +kernel, by decide +kernel⟩

theorem exTwo_size : (1 : ℚ) / 2 ^ 1000 ≤ 2 ∧ (2 : ℚ) ≤ 2 ^ 1019 := by decide +kernel

/-- C190: four control points are asked for, every run returns five, all of them doubles. -/
example : (∃ res, KnotFitR bin64 exZeroSolver exInvFirstE (lift2 exKnotData) 4 2 exThird.lift res) ∧
    ∀ res, KnotFitR bin64 exZeroSolver exInvFirstE (lift2 exKnotData) 4 2 exThird.lift res →
      ∃ c', res = .ok (Curve.lift c') ∧ Shape c'.ctrlpts 5 3 ∧ StoredCurve bin64 2 c' := by
  obtain ⟨hx, hall⟩ := fit_curve_knot_insertion_binary64 exTwo_size.1 exTwo_size.2 exZeroSolver_tame (inv := exInvFirstE)
    (data := exKnotData) (by decide +kernel) exKnotData_stored (p := 1) le_rfl (by norm_num)
    (fun _ _ c _ _ _ pt hpt => Or.inr (exInvFirstE_range c.lift pt hpt)) (N := 4) (t := 1) (fuel := 2) exThird_spaced
    exThird_stored (by intro k hk; interval_cases k <;> decide +kernel) (by norm_num) (by norm_num) (by decide) (by norm_num)
    (by intro s hs; interval_cases s; norm_num)
  refine ⟨hx, fun res hres => ?_⟩
  rcases hall res hres with ⟨e, he, -⟩ | ⟨c', h1, -, h2, -, -, h3, -⟩
  · exact he.elim
  · exact ⟨c', h1, h2, h3⟩

/-- C190: the fixed fit of the same data. -/
example : (∃ res, FitCurveFixedR bin64 1 exZeroSolver exInvFirstE exThird.lift (lift2 exKnotData) res) ∧
    ∀ res, FitCurveFixedR bin64 1 exZeroSolver exInvFirstE exThird.lift (lift2 exKnotData) res →
      ∃ c', res = .ok (Curve.lift c') ∧ c'.kv = exThird.kv ∧ StoredCurve bin64 2 c' := by
  obtain ⟨hx, hall⟩ := fit_curve_fixed_binary64 exTwo_size.1 exTwo_size.2 exZeroSolver_tame (inv := exInvFirstE)
    (data := exKnotData) (by decide +kernel) exKnotData_stored (p := 1) le_rfl (by norm_num)
    (fun _ _ c _ _ _ pt hpt => Or.inr (exInvFirstE_range c.lift pt hpt)) (fuel := 1) exThird_spaced
    exThird_stored (by intro k hk; interval_cases k <;> decide +kernel) (by decide +kernel) (by norm_num) (by decide)
  refine ⟨hx, fun res hres => ?_⟩
  rcases hall res hres with ⟨e, he, -⟩ | ⟨c', h1, -, h2, -, h3, -⟩
  · exact he.elim
  · exact ⟨c', h1, h2, h3⟩

/-- With the solver that knows nothing the guard never raises. -/
example : guarded bin64 2 .nonfinite exZeroSolver = exZeroSolver := by
  funext n A b
  unfold guarded
  rw [if_pos]
  exact ⟨List.replicate n 0, by rw [List.map_replicate]; rfl, List.length_replicate, fun y hy => by
    rw [List.eq_of_mem_replicate hy]
    exact ⟨by decide +kernel, by norm_num⟩⟩

/-- With one that returns infinities it always does. -/
example (n : ℕ) (A : List (List (Ext ℚ))) (b : List (Ext ℚ)) :
    guarded bin64 2 .nonfinite (fun n _ _ => .ok (List.replicate (n + 1) (inf false))) n A b = .error .nonfinite := by
  unfold guarded
  rw [if_neg]
  rintro ⟨x, h, -⟩
  cases x with
  | nil => cases h
  | cons y ys => cases h

example := initialize_curve_binary64 (s := [0, 0, 0]) (e := [1, 1 / 2, 1 / 2 ^ 1074]) (p := 3) (n := 11) rfl rfl (by norm_num)
  (by norm_num) (by norm_num) exTwo_size.1 exTwo_size.2 (by decide +kernel) (by decide +kernel)

/-- Where the step underflows the other formula is used: `4 * 2^-1074` in nine steps, of which none is a double. -/
example : linspaceR bin64 0 (fin (4 / 2 ^ 1074)) 10
    = .ok ([0, 0, 1, 1, 2, 2, 3, 3, 4, 4].map fun (x : ℚ) => fin (x / 2 ^ 1074)) := by decide +kernel

/-- A single entry is the start, and for none the list is empty. -/
example : linspaceR bin64 (fin 3) (fin 5) 1 = .ok [fin 3] ∧ linspaceR bin64 (fin 3) (fin 5) 0 = .ok [] := by decide +kernel

/-- Without the bound on the end points the difference overflows, and `initialize_curve` returns NaN. -/
example : linspaceR bin64 (fin (-(2 ^ 1023))) (fin (2 ^ 1023)) 3 = .ok [nan, inf false, fin (2 ^ 1023)] := by decide +kernel

end PySpline
