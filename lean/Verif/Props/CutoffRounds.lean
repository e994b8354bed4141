import Verif.Props.Approximation
import Verif.Props.Cutoff
import Verif.Props.FitOrder

/-!
# C186: complete fits with the cutoff of `np.linalg.lstsq`
-/

set_option linter.unusedSectionVars false

namespace PySpline

open Spec Finset

section
variable {K : Type} [Field K] [LinearOrder K] [IsStrictOrderedRing K]

/-- In every coordinate the curve `c'` is nearly as close to the data in `rows`, at the parameters in column 3, as any
curve with its knots and end points: if the distance of the other curve is at most `d`, that of `c'` is at most `d + e`,
where `e` is proportional to the size of the interior control points of the other curve. -/
def NearOptimalFor (ε : K) (rows : List (List K)) (c' : Curve K) : Prop :=
  ∀ k < 3, ∀ (z : ℕ → K) (d e : K), z 0 = coord c'.ctrlpts k 0 →
    z (c'.ctrlpts.length - 1) = coord c'.ctrlpts k (c'.ctrlpts.length - 1) → 0 ≤ d → 0 ≤ e →
    ∑ r ∈ range rows.length, (curve (knotFn c'.kv) c'.degree c'.ctrlpts.length z (at2 rows r 3 0)
      - at2 rows r k 0) ^ 2 ≤ d ^ 2 →
    (ε * (max rows.length (c'.ctrlpts.length - 2) : ℕ)) ^ 2 * rows.length
      * ∑ i ∈ Ico 1 (c'.ctrlpts.length - 1), z i ^ 2 ≤ e ^ 2 →
    sqDist rows c' k ≤ (d + e) ^ 2

theorem nearOptimal_of_fit {ε : K} {env : FitEnv K} (hls : IsCutoffLstsq ε env.lstsq) {data rows : List (List K)}
    {c0 c1 c' : Curve K} {p n : ℕ} {δ : K} (h : Spaced p n δ c1) (hδ : 0 < δ)
    (hrows : parameterizeCurve env.num (env.curveLike c0) data = .ok rows)
    (hfit : singleFitCurve env.lstsq c1 rows = .ok c') : NearOptimalFor ε rows c' := by
  have hsz := h.clamped.size
  obtain ⟨hsh, hran⟩ := parameterizeCurve_range hrows
  have hp0 : knotFn c1.kv p = 0 := by rw [h.clamped.left p le_rfl, h.zero]
  have hn1 : knotFn c1.kv n = 1 := by rw [h.clamped.right n le_rfl (by omega), h.one]
  have hdeg := h.deg
  obtain ⟨c'', hc', hd', hk', hP', hends, hopt⟩ := single_fit_curve_cutoff hls (c := c1) (data := rows)
    (m := data.length) (n := n) (by rw [hdeg]; exact h.clamped)
    (by rw [hdeg]; exact h.distinct hδ p le_rfl hsz) h.pts hsh
    (fun r hr => by rw [hdeg, hp0, hn1]; exact hran r hr)
  cases hfit.symm.trans hc'
  intro k hk z d e z0 z1 hd he hz hze
  rw [hP'.1] at z1
  unfold sqDist
  rw [hsh.1, hP'.1, hk', hd'] at hz ⊢
  rw [hsh.1, hP'.1] at hze
  exact hopt k hk z d e (z0.trans (hends k hk).1) (z1.trans (hends k hk).2) hd he hz hze

/-- **C186.** All rounds of `fit_curve_knot_insertion` with the cutoff: the loop terminates as with an exact solver (C53, C54),
the curve of every round is nearly the best one for the parameters of the round, and nearly as close to the data of
the round as the curve of the round before. -/
theorem fit_curve_knot_insertion_cutoff {ε : K} {env : FitEnv K} (hls : IsCutoffLstsq ε env.lstsq)
    {data : List (List K)} (hpar : Parameterizes env data) {p : ℕ} (hp : 1 ≤ p) (N : ℤ) (t : ℕ)
    {n fuel : ℕ} {δ w : K} {c : Curve K} (hc : Spaced p n δ c)
    (hδ : 2 ^ t * (1 / 10 ^ 8 + 1 / 10 ^ 5) < δ) (hf : t < fuel)
    (hN : N ≤ ((p + 2 ^ t * (n - p) : ℕ) : ℤ)) (hlt : ∀ s < t, ((p + 2 ^ s * (n - p) : ℕ) : ℤ) < N)
    (hw : SpansAtMost p n c.kv w) :
    ∃ (b d : ℕ → Curve K) (rows : ℕ → List (List K)), b 0 = c ∧
      fitCurveKnotInsertion fuel env c data N = .ok (d t) ∧ 0 ≤ w ∧
      (∀ s ≤ t, FitRound env data p (p + 2 ^ s * (n - p)) (b s) (rows s) (d s) ∧ NearOptimalFor ε (rows s) (d s) ∧
        SpansAtMost p (p + 2 ^ s * (n - p)) (d s).kv (w / 2 ^ s) ∧
        knotFn (d s).kv p = 0 ∧ knotFn (d s).kv (p + 2 ^ s * (n - p)) = 1 ∧
        ∀ k < 3, coord (d s).ctrlpts k 0 = coord c.ctrlpts k 0 ∧
          coord (d s).ctrlpts k (p + 2 ^ s * (n - p) - 1) = coord c.ctrlpts k (n - 1)) ∧
      ∀ s < t, SameCurve (b (s + 1)) (d s) ∧ ∀ k < 3, ∀ D e, 0 ≤ D → 0 ≤ e →
        sqDist (rows (s + 1)) (d s) k ≤ D ^ 2 →
        (ε * (max data.length (p + 2 ^ (s + 1) * (n - p) - 2) : ℕ)) ^ 2 * data.length
          * ∑ i ∈ Ico 1 (p + 2 ^ (s + 1) * (n - p) - 1), coord (b (s + 1)).ctrlpts k i ^ 2 ≤ e ^ 2 →
        sqDist (rows (s + 1)) (d (s + 1)) k ≤ (D + e) ^ 2 := by
  obtain ⟨b, d, rows, hb0, hret, hw0, hall, hsame⟩ :=
    fit_curve_knot_insertion_spans hls.length hpar hp N t hc hδ hf hN hlt hw
  have hnear : ∀ s ≤ t, NearOptimalFor ε (rows s) (d s) := fun s hs => by
    obtain ⟨δ', hδ', hsp⟩ := (hall s hs).1.spaced
    exact nearOptimal_of_fit hls hsp hδ' (hall s hs).1.parameters (hall s hs).1.fitted
  refine ⟨b, d, rows, hb0, hret, hw0, fun s hs => ⟨(hall s hs).1, hnear s hs, (hall s hs).2⟩,
    fun s hs => ⟨hsame s hs, fun k hk D e hD he h1 h2 => ?_⟩⟩
  have hr := (hall (s + 1) (by omega)).1
  have hlen : (rows (s + 1)).length = data.length := (parameterizeCurve_range hr.parameters).1.1
  refine hnear (s + 1) (by omega) k hk (coord (b (s + 1)).ctrlpts k) D e (by unfold coord; rw [hr.first])
    (by unfold coord; rw [hr.points.2.1, hr.last]) hD he ?_ (by rw [hlen, hr.points.2.1]; exact h2)
  refine le_trans (le_of_eq ?_) h1
  unfold sqDist
  refine sum_congr rfl fun r _ => ?_
  have e := hsame s hs k hk (at2 (rows (s + 1)) r 3 0)
  rw [hr.degree.1, hr.points.1.1] at e
  rw [hr.knots.1, hr.degree.2, hr.points.2.1, e]

/-- **C186.** All three fits of `fit_curve_fixed_ctrlpts` with the cutoff (cf. C93 for an exact solver). -/
theorem fit_curve_fixed_cutoff {ε : K} {env : FitEnv K} (hls : IsCutoffLstsq ε env.lstsq)
    {data : List (List K)} (hpar : Parameterizes env data) {p n : ℕ} (hp : 1 ≤ p) {δ : K}
    {c : Curve K} (hc : Spaced p n δ c) (hδ : 0 < δ) {fuel : ℕ} (hf : 1 ≤ fuel) :
    ∃ b b' c1 c' rb rb' r1,
      b.kv.length = 2 * p + 2 ∧ (∀ i < 2 * p + 2, knotFn b.kv i = if i ≤ p then 0 else 1) ∧
      (∀ k < 3, ∀ i ≤ p, coord b.ctrlpts k i = coord c.ctrlpts k 0
        + (i : K) / p * (coord c.ctrlpts k (n - 1) - coord c.ctrlpts k 0)) ∧
      parameterizeCurve env.num (env.curveLike b) data = .ok rb ∧ NearOptimalFor ε rb b' ∧ b'.kv = b.kv ∧
      parameterizeCurve env.num (env.curveLike b') data = .ok rb' ∧ NearOptimalFor ε rb' c1 ∧ c1.kv = c.kv ∧
      parameterizeCurve env.num (env.curveLike c1) data = .ok r1 ∧ NearOptimalFor ε r1 c' ∧ c'.kv = c.kv ∧
      Shape c'.ctrlpts n 3 ∧ c'.ctrlpts.getD 0 [] = c.ctrlpts.getD 0 [] ∧
      c'.ctrlpts.getD (n - 1) [] = c.ctrlpts.getD (n - 1) [] ∧ fitCurveFixed fuel env c data = .ok c' := by
  obtain ⟨b, b', c1, c', rb, rb', r1, h1, h2, h3, h4, h5, h6, h7, h8, h9, h10, h11, h12, h13, h14, h15, h16, h17⟩ :=
    fit_curve_fixed_stages hls.length hpar hp hc hδ hf
  obtain ⟨-, -, -, e0, e1⟩ := fit_curve_fixed_keeps fuel env c c' data h17 hc.pts.2
  rw [hc.pts.1] at e1
  exact ⟨b, b', c1, c', rb, rb', r1, h2, h3, h4, h5, nearOptimal_of_fit hls h1 one_pos h5 h6, h8,
    h9, nearOptimal_of_fit hls hc hδ h9 h10, h14, h11, nearOptimal_of_fit hls h13 hδ h11 h12, h16, h15.pts, e0, e1, h17⟩

/-- **C186.** `fit_surface` with the cutoff (cf. C167 for an exact solver): the boundary is kept, and the surface is nearly as
close to the data as every surface with this boundary. -/
theorem fit_surface_cutoff {ε : K} {env : FitEnv K} (hls : IsCutoffLstsq ε env.lstsq) {s : Surface K}
    {data top bottom rows : List (List K)} (hs : ClampedSurface s) (ku : UnitKnots s.degreeU s.numU s.kvU)
    (kv : UnitKnots s.degreeV s.numV s.kvV) (ht : ∀ row ∈ top, row.length = 4) (hb : ∀ row ∈ bottom, row.length = 4)
    (hpar : parameterizeSurface env.num (env.surfLike s) data = .ok rows) :
    ∃ s', fitSurface env s data top bottom = .ok s' ∧ s' = { s with ctrlpts := s'.ctrlpts } ∧
      (∀ i < s.numU, ∀ j < s.numV, i = 0 ∨ i + 1 = s.numU ∨ j = 0 ∨ j + 1 = s.numV →
        s'.ctrlpts.getD (i * s.numV + j) [] = s.ctrlpts.getD (i * s.numV + j) []) ∧
      ∀ k < 3, ∀ (z : ℕ → K) (d e : K),
        (∀ i < s.numU, ∀ j < s.numV, i = 0 ∨ i + 1 = s.numU ∨ j = 0 ∨ j + 1 = s.numV →
          z (i * s.numV + j) = coord s.ctrlpts k (i * s.numV + j)) → 0 ≤ d → 0 ≤ e →
        ∑ r ∈ range data.length, (surface (knotFn s.kvU) s.degreeU s.numU (knotFn s.kvV) s.degreeV s.numV
            z (at2 rows r 3 0) (at2 rows r 4 0) - at2 rows r k 0) ^ 2 ≤ d ^ 2 →
        (ε * (max data.length ((s.numU - 2) * (s.numV - 2)) : ℕ)) ^ 2 * data.length
          * ∑ i ∈ Ico 1 (s.numU - 1), ∑ j ∈ Ico 1 (s.numV - 1), z (i * s.numV + j) ^ 2 ≤ e ^ 2 →
        ∑ r ∈ range data.length, (surface (knotFn s.kvU) s.degreeU s.numU (knotFn s.kvV) s.degreeV s.numV
            (coord s'.ctrlpts k) (at2 rows r 3 0) (at2 rows r 4 0) - at2 rows r k 0) ^ 2 ≤ (d + e) ^ 2 := by
  have su := hs.cu.size
  have sv := hs.cv.size
  obtain ⟨hsh, hran⟩ := parameterizeSurface_range hpar
  have u0 : knotFn s.kvU s.degreeU = 0 := (hs.cu.left _ le_rfl).trans ku.zero
  have v0 : knotFn s.kvV s.degreeV = 0 := (hs.cv.left _ le_rfl).trans kv.zero
  have u1 : knotFn s.kvU s.numU = 1 := (hs.cu.right _ le_rfl (by omega)).trans ku.one
  have v1 : knotFn s.kvV s.numV = 1 := (hs.cv.right _ le_rfl (by omega)).trans kv.one
  obtain ⟨s', h1, h2, h3⟩ := single_fit_surface_cutoff hls hs ku.first kv.first hsh
    (fun r hr => by rw [u0, u1]; exact (hran r hr).1) (fun r hr => by rw [v0, v1]; exact (hran r hr).2)
  have hfit := fit_surface_eq env s data top bottom rows ht hb hpar
  rw [npSortRows_sorted_rows hpar] at hfit
  obtain ⟨-, -, hk⟩ := single_fit_surface_keeps _ _ _ _ h1 (by omega) (by omega) hs.shape
  exact ⟨s', hfit.trans h1, h2, hk, fun k hk => (h3 k hk).2⟩

end

/-- Near a curve within `η` of all data, with interior control points of size at most `B`. -/
theorem NearOptimalFor.close {ε : ℝ} (hε : 0 ≤ ε) {rows : List (List ℝ)} {c' : Curve ℝ} (h : NearOptimalFor ε rows c')
    {k : ℕ} (hk : k < 3) {z : ℕ → ℝ} (z0 : z 0 = coord c'.ctrlpts k 0)
    (z1 : z (c'.ctrlpts.length - 1) = coord c'.ctrlpts k (c'.ctrlpts.length - 1)) {η B : ℝ} (hη : 0 ≤ η) (hB : 0 ≤ B)
    (hz : ∀ r < rows.length, |curve (knotFn c'.kv) c'.degree c'.ctrlpts.length z (at2 rows r 3 0) - at2 rows r k 0| ≤ η)
    (hzB : ∀ i < c'.ctrlpts.length, |z i| ≤ B) :
    sqDist rows c' k ≤ rows.length * (η + ε * (max rows.length (c'.ctrlpts.length - 2) : ℕ)
      * √((c'.ctrlpts.length - 2 : ℕ) : ℝ) * B) ^ 2 := by
  generalize hm : rows.length = m at *
  generalize hn : c'.ctrlpts.length = n at *
  have hsm : √(m : ℝ) ^ 2 = m := Real.sq_sqrt (Nat.cast_nonneg m)
  have hsn : √((n - 2 : ℕ) : ℝ) ^ 2 = ((n - 2 : ℕ) : ℝ) := Real.sq_sqrt (Nat.cast_nonneg _)
  have hsum : ∑ i ∈ Ico 1 (n - 1), z i ^ 2 ≤ ((n - 2 : ℕ) : ℝ) * B ^ 2 := by
    calc ∑ i ∈ Ico 1 (n - 1), z i ^ 2 ≤ ∑ _i ∈ Ico 1 (n - 1), B ^ 2 := sum_le_sum fun i hi => by
          rw [← sq_abs]
          exact pow_le_pow_left₀ (abs_nonneg _) (hzB i (by have := mem_Ico.1 hi; omega)) 2
      _ = _ := by rw [sum_const, Nat.card_Ico, nsmul_eq_mul, show n - 1 - 1 = n - 2 by omega]
  have key := h k hk z (√(m : ℝ) * η) (√(m : ℝ) * (ε * (max m (n - 2) : ℕ) * √((n - 2 : ℕ) : ℝ) * B)) z0
    (by rw [hn]; exact z1) (by positivity) (by positivity)
    (by rw [hm, hn, mul_pow, hsm]; exact sum_sq_le_of_abs_le hz)
    (by
      rw [hm, hn]
      calc _ ≤ (ε * (max m (n - 2) : ℕ)) ^ 2 * m * (((n - 2 : ℕ) : ℝ) * B ^ 2) :=
            mul_le_mul_of_nonneg_left hsum (by positivity)
        _ = √(m : ℝ) ^ 2 * ((ε * (max m (n - 2) : ℕ)) ^ 2 * √((n - 2 : ℕ) : ℝ) ^ 2 * B ^ 2) := by
            rw [hsm, hsn]; ring
        _ = _ := by ring)
  refine key.trans (le_of_eq ?_)
  rw [← mul_add, mul_pow, hsm]

/-- **C186.** Lipschitz data (C165) with the cutoff: in round `s` the mean squared distance is at most
`(L (p + 1) w / 2 ^ s + ε max(m, n - 2) √(n - 2) B)²`, where `n` is the number of control points of the round and `B` bounds
the data, enlarged by `L`. -/
theorem fit_curve_knot_insertion_cutoff_lipschitz {ε : ℝ} (hε : 0 ≤ ε) {env : FitEnv ℝ} (hls : IsCutoffLstsq ε env.lstsq)
    {data : List (List ℝ)} (hpar : Parameterizes env data) {p : ℕ} (hp : 1 ≤ p) (N : ℤ) (t : ℕ)
    {n fuel : ℕ} {δ w : ℝ} {c : Curve ℝ} (hc : Spaced p n δ c)
    (hδ : 2 ^ t * (1 / 10 ^ 8 + 1 / 10 ^ 5) < δ) (hf : t < fuel)
    (hN : N ≤ ((p + 2 ^ t * (n - p) : ℕ) : ℤ)) (hlt : ∀ s < t, ((p + 2 ^ s * (n - p) : ℕ) : ℤ) < N)
    (hw : SpansAtMost p n c.kv w) :
    ∃ (b d : ℕ → Curve ℝ) (rows : ℕ → List (List ℝ)), b 0 = c ∧
      fitCurveKnotInsertion fuel env c data N = .ok (d t) ∧
      ∀ s ≤ t, parameterizeCurve env.num (env.curveLike (b s)) data = .ok (rows s) ∧
        SpansAtMost p (p + 2 ^ s * (n - p)) (d s).kv (w / 2 ^ s) ∧
        ∀ k < 3, ∀ L B, 0 ≤ L → LipschitzData L 0 1 (coord c.ctrlpts k 0) (coord c.ctrlpts k (n - 1)) data.length
            (fun r => at2 (rows s) r 3 0) (fun r => at2 (rows s) r k 0) →
          (∀ r < data.length, |at2 (rows s) r k 0| + L ≤ B) →
          sqDist (rows s) (d s) k ≤ data.length * (L * ((p + 1) * (w / 2 ^ s))
            + ε * (max data.length (p + 2 ^ s * (n - p) - 2) : ℕ) * √((p + 2 ^ s * (n - p) - 2 : ℕ) : ℝ) * B) ^ 2 := by
  obtain ⟨b, d, rows, hb0, hret, hw0, hall, -⟩ := fit_curve_knot_insertion_cutoff hls hpar hp N t hc hδ hf hN hlt hw
  refine ⟨b, d, rows, hb0, hret, fun s hs => ?_⟩
  obtain ⟨hr, hnear, h2, h3, h4, h5⟩ := hall s hs
  refine ⟨hr.parameters, h2, fun k hk L B hL hq hB => ?_⟩
  obtain ⟨hsh, hran⟩ := parameterizeCurve_range hr.parameters
  rcases Nat.eq_zero_or_pos data.length with h0 | h0
  · unfold sqDist
    rw [hsh.1, h0]
    simp
  have hcl := hr.knots.2
  obtain ⟨z, z0, z1, hz, hzb⟩ := exists_close_curve hcl hp (h2.support hcl (by positivity)) hL (m := data.length)
    (t := fun r => at2 (rows s) r 3 0) (q := fun r => at2 (rows s) r k 0)
    (fun r hr' => by rw [h3, h4]; exact hran r hr') (by rw [h3, h4]; exact hq)
  rw [h3, h4, sub_zero, mul_one] at hzb
  have hB0 : 0 ≤ B := le_trans (add_nonneg (abs_nonneg _) hL) (hB 0 h0)
  have key := hnear.close hε hk (z0.trans (h5 k hk).1.symm) (by rw [hr.points.2.1]; exact z1.trans (h5 k hk).2.symm)
    (η := L * ((p + 1) * (w / 2 ^ s))) (B := B) (by positivity) hB0
    (fun r hr' => by rw [hr.degree.2, hr.points.2.1]; exact hz r (by rw [← hsh.1]; exact hr'))
    (fun i hi => by
      rw [hr.points.2.1] at hi
      have e1 := hzb i hi 0 h0
      have e2 := hB 0 h0
      have e3 := abs_sub_abs_le_abs_sub (z i) (at2 (rows s) 0 k 0)
      linarith)
  rw [hr.points.2.1, hsh.1] at key
  exact key

/-- **C186.** Smooth data (C176) with the cutoff: the distance decreases with the full order `(w / 2 ^ s) ^ (o + 1)` down to the
errors of the data and `ε max(m, n - 2) √(n - 2) B`, where `B` bounds the function and its derivatives in the Taylor norm. -/
theorem fit_curve_knot_insertion_cutoff_smooth {ε : ℝ} (hε : 0 ≤ ε) {env : FitEnv ℝ} (hls : IsCutoffLstsq ε env.lstsq)
    {data : List (List ℝ)} (hpar : Parameterizes env data) {p : ℕ} (hp : 1 ≤ p) (N : ℤ) (t : ℕ)
    {n fuel : ℕ} {δ w : ℝ} {c : Curve ℝ} (hc : Spaced p n δ c)
    (hδ : 2 ^ t * (1 / 10 ^ 8 + 1 / 10 ^ 5) < δ) (hf : t < fuel)
    (hN : N ≤ ((p + 2 ^ t * (n - p) : ℕ) : ℤ)) (hlt : ∀ s < t, ((p + 2 ^ s * (n - p) : ℕ) : ℤ) < N)
    (hw : SpansAtMost p n c.kv w) :
    ∃ (b d : ℕ → Curve ℝ) (rows : ℕ → List (List ℝ)), b 0 = c ∧
      fitCurveKnotInsertion fuel env c data N = .ok (d t) ∧
      ∀ s ≤ t, parameterizeCurve env.num (env.curveLike (b s)) data = .ok (rows s) ∧
        ∀ k < 3, ∀ o ≤ p, ∀ (M η : ℝ) (a : ℕ → ℝ → ℝ) (A : ℕ → ℝ), 0 ≤ M → 0 ≤ η →
          SmoothData o M η 0 1 (coord c.ctrlpts k 0) (coord c.ctrlpts k (n - 1))
            data.length (fun r => at2 (rows s) r 3 0) (fun r => at2 (rows s) r k 0) a →
          (∀ j ≤ o, ∀ x, 0 ≤ x → x ≤ 1 → |a j x| ≤ A j) →
          sqDist (rows s) (d s) k ≤ data.length * ((o + 1) * M * ((p + 1) * (w / 2 ^ s)) ^ (o + 1) + η
            + ε * (max data.length (p + 2 ^ s * (n - p) - 2) : ℕ) * √((p + 2 ^ s * (n - p) - 2 : ℕ) : ℝ)
              * ∑ j ∈ range (o + 1), A j * ((p + 1) * (w / 2 ^ s)) ^ j) ^ 2 := by
  obtain ⟨b, d, rows, hb0, hret, hw0, hall, -⟩ := fit_curve_knot_insertion_cutoff hls hpar hp N t hc hδ hf hN hlt hw
  refine ⟨b, d, rows, hb0, hret, fun s hs => ?_⟩
  obtain ⟨hr, hnear, h2, h3, h4, h5⟩ := hall s hs
  refine ⟨hr.parameters, fun k hk o ho M η a A hM hη hsm hA => ?_⟩
  obtain ⟨hsh, hran⟩ := parameterizeCurve_range hr.parameters
  have hcl := hr.knots.2
  obtain ⟨z, z0, z1, hz, hzb⟩ := exists_smooth_curve hcl hp ho (h2.support hcl (by positivity)) hM
    (by rw [h3, h4]; exact hsm.taylor)
  rw [h3] at z0
  rw [h4] at z1
  have hB := hzb A fun j hj x x0 x1 => hA j hj x (by rw [← h3]; exact x0) (by rw [← h4]; exact x1)
  have key := hnear.close hε hk (z0.trans (hsm.first.trans (h5 k hk).1.symm))
    (by rw [hr.points.2.1]; exact z1.trans (hsm.last.trans (h5 k hk).2.symm))
    (η := (o + 1) * M * ((p + 1) * (w / 2 ^ s)) ^ (o + 1) + η)
    (B := ∑ j ∈ range (o + 1), A j * ((p + 1) * (w / 2 ^ s)) ^ j) (by positivity)
    (sum_nonneg fun j hj => mul_nonneg ((abs_nonneg _).trans (hA j (by have := mem_range.1 hj; omega) 0 le_rfl zero_le_one))
      (by positivity))
    (fun r hr' => by
      rw [hsh.1] at hr'
      rw [hr.degree.2, hr.points.2.1]
      have e1 := hz (at2 (rows s) r 3 0) (by rw [h3]; exact (hran r hr').1) (by rw [h4]; exact (hran r hr').2)
      have e2 := hsm.values r hr'
      have := abs_sub_le (curve (knotFn (d s).kv) p (p + 2 ^ s * (n - p)) z (at2 (rows s) r 3 0))
        (a 0 (at2 (rows s) r 3 0)) (at2 (rows s) r k 0)
      linarith)
    (fun i hi => hB i (by rw [← hr.points.2.1]; exact hi))
  rw [hr.points.2.1, hsh.1] at key
  exact key

/-! ## Concrete cases -/

/-- An environment over the reals: the parameter of a point is its first coordinate, on a grid of thirds. -/
noncomputable def exRealEnv (ls : ℕ → List (List ℝ) → List ℝ → List ℝ) : FitEnv ℝ where
  num := ⟨fun l => |l.headD 0|, fun _ _ => true⟩
  lstsq := ls
  curveLike _ := ⟨2, fun u => .ok [u, 0, 0], fun u => .ok [[u, 0, 0], [1, 0, 0], [0, 0, 0]]⟩
  surfLike _ := ⟨2, 2, fun u v => .ok [u, v, 0], fun _ _ => .ok []⟩

noncomputable def exRealData : List (List ℝ) := [[1/3, 2, 0]]

noncomputable def exRealCurve : Curve ℝ := ⟨2, [[0, 0, 0], [1/2, 1, 0], [1, 0, 0]], [0, 0, 0, 1, 1, 1]⟩

theorem exRealEnv_rows (ls c) : parameterizeCurve (exRealEnv ls).num ((exRealEnv ls).curveLike c) exRealData
    = .ok [[1/3, 2, 0, 1/3]] := by
  have hg : initialGuessCurve (exRealEnv ls).num ((exRealEnv ls).curveLike c) [1/3, 2, 0] = .ok (1/3) := by
    norm_num [initialGuessCurve, exRealEnv, forN, grid, pyGet, pyIdx, hugeDist, vsub, List.range_succ, List.range', abs_lt]
  unfold parameterizeCurve curveInversionD curveInversion exRealData
  simp only [mapPy, hg, ok_bind]
  norm_num [curveInfo, curveCond1, exRealEnv, pyGet, pyIdx, vsub, epsDefault, npSortRows]

theorem exRealCurve_spaced : Spaced 2 3 1 exRealCurve where
  deg := rfl
  pts := ⟨rfl, by simp [exRealCurve]⟩
  clamped := exCutQuad_clamped
  zero := rfl
  one := rfl
  gap := by
    intro i h1 h2
    obtain rfl : i = 2 := by omega
    have hk2 : knotFn exRealCurve.kv 2 = 0 := rfl
    have hk3 : knotFn exRealCurve.kv (2 + 1) = 1 := rfl
    rw [hk2, hk3, sub_zero]

/-- One round of insertion with the cutoff of double precision: the data are Lipschitz with the constant 6. -/
example {ls : ℕ → List (List ℝ) → List ℝ → List ℝ} (hls : IsCutoffLstsq (1 / 2 ^ 52) ls) :
    ∃ c', fitCurveKnotInsertion 2 (exRealEnv ls) exRealCurve exRealData 4 = .ok c' ∧ SpansAtMost 2 4 c'.kv (1 / 2) ∧
      sqDist [[1/3, 2, 0, 1/3]] c' 1 ≤ (6 * (3 * (1 / 2)) + 1 / 2 ^ 52 * 2 * √2 * 8) ^ 2 := by
  have hk2 : knotFn exRealCurve.kv 2 = 0 := rfl
  have hk3 : knotFn exRealCurve.kv 3 = 1 := rfl
  obtain ⟨b, d, rows, -, h1, h2⟩ := fit_curve_knot_insertion_cutoff_lipschitz (by norm_num) (env := exRealEnv ls) hls
    (data := exRealData) (fun _ _ _ c _ _ => ⟨_, exRealEnv_rows ls c⟩) (p := 2) (by norm_num) 4 1 (n := 3) (fuel := 2)
    (w := 1) exRealCurve_spaced (by norm_num) (by norm_num) (by norm_num) (by intro s hs; interval_cases s; norm_num)
    (by intro i h1 h2; interval_cases i; rw [hk2, hk3]; norm_num)
  obtain ⟨h3, h4, h5⟩ := h2 1 le_rfl
  have e := Except.ok.inj (h3.symm.trans (exRealEnv_rows ls _))
  rw [e] at h5
  refine ⟨d 1, h1, by norm_num at h4 ⊢; exact h4, ?_⟩
  have q0 : at2 ([[1/3, 2, 0, 1/3]] : List (List ℝ)) 0 1 0 = 2 := rfl
  have t0 : at2 ([[1/3, 2, 0, 1/3]] : List (List ℝ)) 0 3 0 = 1/3 := rfl
  have p0 : coord exRealCurve.ctrlpts 1 0 = 0 := rfl
  have p1 : coord exRealCurve.ctrlpts 1 2 = 0 := rfl
  have := h5 1 (by norm_num) 6 8 (by norm_num) ⟨?_, ?_, ?_⟩ ?_
  · norm_num [exRealData] at this ⊢
    exact this
  · intro r hr s hs
    obtain rfl : r = 0 := by simp [exRealData] at hr; omega
    obtain rfl : s = 0 := by simp [exRealData] at hs; omega
    simp
  · intro r hr
    obtain rfl : r = 0 := by simp [exRealData] at hr; omega
    rw [q0, t0, p0]; norm_num
  · intro r hr
    obtain rfl : r = 0 := by simp [exRealData] at hr; omega
    rw [q0, t0, p1]; norm_num
  · intro r hr
    obtain rfl : r = 0 := by simp [exRealData] at hr; omega
    rw [q0]; norm_num

end PySpline
