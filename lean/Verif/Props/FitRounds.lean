import Verif.Props.FitStages
import Verif.Props.FitUnique

/-!
# C131: the rounds of `fit_curve_knot_insertion`
-/

set_option linter.unusedSectionVars false

namespace PySpline

open Spec Finset

section
variable {K : Type} [Field K] [LinearOrder K] [IsStrictOrderedRing K]

/-- Squared distance, in coordinate `k`, of the data in the first columns of `rows` to the points of the curve at
the parameters in column 3. -/
def sqDist (rows : List (List K)) (c : Curve K) (k : ℕ) : K :=
  ∑ r ∈ range rows.length, (curve (knotFn c.kv) c.degree c.ctrlpts.length (coord c.ctrlpts k) (at2 rows r 3 0)
    - at2 rows r k 0) ^ 2

/-- The two curves are the same functions of the parameter. -/
def SameCurve (c d : Curve K) : Prop :=
  ∀ k < 3, ∀ x, curve (knotFn c.kv) c.degree c.ctrlpts.length (coord c.ctrlpts k) x
    = curve (knotFn d.kv) d.degree d.ctrlpts.length (coord d.ctrlpts k) x

/-- `b`, `rows` and `d` are the curves before a round, the parameterized data of the round and the fitted curve. -/
structure FitRound (env : FitEnv K) (data : List (List K)) (p n : ℕ) (b : Curve K) (rows : List (List K))
    (d : Curve K) : Prop where
  parameters : parameterizeCurve env.num (env.curveLike b) data = .ok rows
  fitted : singleFitCurve env.lstsq b rows = .ok d
  degree : b.degree = p ∧ d.degree = p
  knots : d.kv = b.kv ∧ Clamped p n d.kv
  points : Shape b.ctrlpts n 3 ∧ Shape d.ctrlpts n 3
  first : d.ctrlpts.getD 0 [] = b.ctrlpts.getD 0 []
  last : d.ctrlpts.getD (n - 1) [] = b.ctrlpts.getD (n - 1) []
  spaced : ∃ δ, 0 < δ ∧ Spaced p n δ b

/-- The round of a least-squares solver: its curve is the best one for the parameters of the round. -/
structure Round (env : FitEnv K) (data : List (List K)) (p n : ℕ) (b : Curve K) (rows : List (List K))
    (d : Curve K) : Prop extends FitRound env data p n b rows d where
  optimal : OptimalFor rows d
  improves : ∀ k < 3, sqDist rows d k ≤ sqDist rows b k

theorem FitRound.of_fit {env : FitEnv K} (hls : SolverLength env.lstsq) {data : List (List K)}
    (hpar : Parameterizes env data) {p n : ℕ} {δ : K} {c : Curve K} (h : Spaced p n δ c) (hδ : 0 < δ) :
    ∃ rows d, FitRound env data p n c rows d ∧ Spaced p n δ d := by
  obtain ⟨rows, d, hrows, hd, hs, hk, e0, e1⟩ := fitStep hls hpar h hδ
  exact ⟨rows, d, ⟨hrows, hd, ⟨h.deg, hs.deg⟩, ⟨hk, hs.clamped⟩, ⟨h.pts, hs.pts⟩, e0, e1, δ, hδ, h⟩, hs⟩

theorem FitRound.round {env : FitEnv K} (hls : IsLstsq env.lstsq) {data rows : List (List K)} {p n : ℕ}
    {b d : Curve K} (h : FitRound env data p n b rows d) : Round env data p n b rows d := by
  obtain ⟨δ, hδ, hs⟩ := h.spaced
  have hopt := optimal_of_fit hls hs hδ h.parameters h.fitted
  refine ⟨h, hopt, fun k hk' => ?_⟩
  have := hopt k hk' (coord b.ctrlpts k) (by unfold coord; rw [h.first])
    (by unfold coord; rw [h.points.2.1, h.last])
  unfold sqDist
  rw [h.points.1.1, h.degree.1, ← h.knots.1]
  rw [h.points.2.1, h.degree.2] at this ⊢
  exact this

theorem Round.of_fit {env : FitEnv K} (hls : IsLstsq env.lstsq) {data : List (List K)}
    (hpar : Parameterizes env data) {p n : ℕ} {δ : K} {c : Curve K} (h : Spaced p n δ c) (hδ : 0 < δ) :
    ∃ rows d, Round env data p n c rows d ∧ Spaced p n δ d := by
  obtain ⟨rows, d, hr, hs⟩ := FitRound.of_fit hls.length hpar h hδ
  exact ⟨rows, d, hr.round hls, hs⟩

/-- **C131.** The run of `fit_curve_knot_insertion` as a sequence of rounds, with every solver: in round `s` the data are
parameterized on `b s` and fitted with the result `d s`.  `b 0` is the initial curve, `b (s+1)` is `d s` with a knot in
the middle of every span - the same curve - and the last `d` is returned. -/
theorem fit_curve_knot_insertion_fitRounds {env : FitEnv K} (hls : SolverLength env.lstsq)
    {data : List (List K)} (hpar : Parameterizes env data) {p : ℕ} (hp : 1 ≤ p) (N : ℤ) (t : ℕ) :
    ∀ {n fuel : ℕ} {δ : K} {c : Curve K}, Spaced p n δ c →
      2 ^ t * (1 / 10 ^ 8 + 1 / 10 ^ 5) < δ → t < fuel →
      N ≤ ((p + 2 ^ t * (n - p) : ℕ) : ℤ) → (∀ s < t, ((p + 2 ^ s * (n - p) : ℕ) : ℤ) < N) →
      ∃ (b d : ℕ → Curve K) (rows : ℕ → List (List K)), b 0 = c ∧
        fitCurveKnotInsertion fuel env c data N = .ok (d t) ∧
        (∀ s ≤ t, FitRound env data p (p + 2 ^ s * (n - p)) (b s) (rows s) (d s)) ∧
        (∀ s < t, SameCurve (b (s + 1)) (d s) ∧
          (∀ i ≤ 2 ^ s * (n - p), knotFn (b (s + 1)).kv (p + 2 * i) = knotFn (d s).kv (p + i)) ∧
          ∀ i < 2 ^ s * (n - p), knotFn (b (s + 1)).kv (p + 2 * i + 1)
            = (knotFn (d s).kv (p + i) + knotFn (d s).kv (p + i + 1)) / 2) := by
  have htol : (0 : K) < 1 / 10 ^ 8 + 1 / 10 ^ 5 := by positivity
  unfold fitCurveKnotInsertion
  induction t with
  | zero =>
    intro n fuel δ c h hδ hf hN _
    have hsz := h.clamped.size
    obtain ⟨fuel, rfl⟩ : ∃ f, fuel = f + 1 := ⟨fuel - 1, by omega⟩
    have hδ0 : 0 < δ := by rw [pow_zero, one_mul] at hδ; exact htol.trans hδ
    obtain ⟨rows, d, hr, hs⟩ := FitRound.of_fit hls hpar h hδ0
    have en : p + 2 ^ 0 * (n - p) = n := by rw [pow_zero]; omega
    refine ⟨fun _ => c, fun _ => d, fun _ => rows, rfl, ?_, fun s hs' => ?_, fun s hs' => by omega⟩
    · unfold knotFitLoop
      rw [en] at hN
      rw [hr.parameters, ok_bind, hr.fitted, ok_bind, hs.pts.1, if_pos hN]
    · obtain rfl : s = 0 := by omega
      rw [en]; exact hr
  | succ t ih =>
    intro n fuel δ c h hδ hf hN hlt
    have hsz := h.clamped.size
    obtain ⟨fuel, rfl⟩ : ∃ f, fuel = f + 1 := ⟨fuel - 1, by omega⟩
    have h2t : (1 : K) ≤ 2 ^ t := one_le_pow₀ (by norm_num)
    have hδ2 : 2 * (1 / 10 ^ 8 + 1 / 10 ^ 5) < δ := by
      refine lt_of_le_of_lt ?_ hδ
      have h2 : (2 : K) ≤ 2 ^ (t + 1) := by rw [pow_succ]; linarith
      exact mul_le_mul_of_nonneg_right h2 htol.le
    have hδ0 : 0 < δ := by linarith
    obtain ⟨rows0, d0, hr, hs1⟩ := FitRound.of_fit hls hpar h hδ0
    obtain ⟨c2, hc2, hs2, ev, od, hsame, -, -⟩ := insertRound hs1 hp hδ2
    have hn2 : p + 2 * (n - p) - p = 2 * (n - p) := by omega
    have hpow : ∀ s, 2 ^ s * (2 * (n - p)) = 2 ^ (s + 1) * (n - p) := fun s => by rw [pow_succ]; ring
    obtain ⟨b, d, rows, hb0, hret, hround, hins⟩ := ih (n := p + 2 * (n - p)) (fuel := fuel)
      (δ := δ / 2) (c := c2) hs2 (by rw [pow_succ] at hδ; linarith) (by omega)
      (by rw [hn2, hpow]; exact hN) (fun s hs => by rw [hn2, hpow]; exact hlt (s + 1) (by omega))
    have en : p + 2 ^ 0 * (n - p) = n := by rw [pow_zero]; omega
    have hsame' : SameCurve c2 d0 := by
      intro k hk x
      rw [hs2.deg, hs2.pts.1, hs1.deg, hs1.pts.1]
      exact hsame k hk x
    refine ⟨fun s => if s = 0 then c else b (s - 1), fun s => if s = 0 then d0 else d (s - 1),
      fun s => if s = 0 then rows0 else rows (s - 1), by simp, ?_, fun s hs => ?_, fun s hs => ?_⟩
    · simp only [Nat.add_sub_cancel, Nat.succ_ne_zero, if_false]
      unfold knotFitLoop
      have h0 := hlt 0 (by omega)
      rw [pow_zero, one_mul] at h0
      rw [hr.parameters, ok_bind, hr.fitted, ok_bind, hs1.pts.1, if_neg (by omega)]
      obtain ⟨ks, hks, hc2⟩ := bind_eq_ok hc2
      rw [hks, ok_bind, hc2, ok_bind]
      exact hret
    · by_cases e : s = 0
      · subst e; rw [en]; simpa using hr
      · obtain ⟨s, rfl⟩ : ∃ s', s = s' + 1 := ⟨s - 1, by omega⟩
        have := hround s (by omega)
        rw [hn2, hpow] at this
        simpa using this
    · by_cases e : s = 0
      · subst e
        simp only [if_true, Nat.zero_add, Nat.sub_self, Nat.one_ne_zero, if_false, hb0, pow_zero, one_mul]
        exact ⟨hsame', ev, od⟩
      · obtain ⟨s, rfl⟩ : ∃ s', s = s' + 1 := ⟨s - 1, by omega⟩
        have := hins s (by omega)
        rw [hn2, hpow] at this
        simpa using this

/-- **C131.** The run of `fit_curve_knot_insertion` as a sequence of rounds: in round `s` the data are parameterized on
`b s` and fitted with the result `d s`, the best curve with its knots and ends at these parameters.  `b 0` is the
initial curve, `b (s+1)` is `d s` with a knot in the middle of every span - the same curve - and the last `d` is
returned.  So at its own parameters every fit is at least as good as the fit of the round before. -/
theorem fit_curve_knot_insertion_rounds {env : FitEnv K} (hls : IsLstsq env.lstsq)
    {data : List (List K)} (hpar : Parameterizes env data) {p : ℕ} (hp : 1 ≤ p) (N : ℤ) (t : ℕ) :
    ∀ {n fuel : ℕ} {δ : K} {c : Curve K}, Spaced p n δ c →
      2 ^ t * (1 / 10 ^ 8 + 1 / 10 ^ 5) < δ → t < fuel →
      N ≤ ((p + 2 ^ t * (n - p) : ℕ) : ℤ) → (∀ s < t, ((p + 2 ^ s * (n - p) : ℕ) : ℤ) < N) →
      ∃ (b d : ℕ → Curve K) (rows : ℕ → List (List K)), b 0 = c ∧
        fitCurveKnotInsertion fuel env c data N = .ok (d t) ∧
        (∀ s ≤ t, Round env data p (p + 2 ^ s * (n - p)) (b s) (rows s) (d s)) ∧
        (∀ s < t, SameCurve (b (s + 1)) (d s) ∧
          (∀ i ≤ 2 ^ s * (n - p), knotFn (b (s + 1)).kv (p + 2 * i) = knotFn (d s).kv (p + i)) ∧
          ∀ i < 2 ^ s * (n - p), knotFn (b (s + 1)).kv (p + 2 * i + 1)
            = (knotFn (d s).kv (p + i) + knotFn (d s).kv (p + i + 1)) / 2) ∧
        ∀ s < t, ∀ k < 3, sqDist (rows (s + 1)) (d (s + 1)) k ≤ sqDist (rows (s + 1)) (d s) k := by
  intro n fuel δ c h hδ hf hN hlt
  obtain ⟨b, d, rows, h0, hret, hround, hins⟩ :=
    fit_curve_knot_insertion_fitRounds hls.length hpar hp N t h hδ hf hN hlt
  refine ⟨b, d, rows, h0, hret, fun s hs => (hround s hs).round hls, hins, fun s hs k hk => ?_⟩
  refine (((hround (s + 1) (by omega)).round hls).improves k hk).trans (le_of_eq ?_)
  unfold sqDist
  refine sum_congr rfl fun r _ => ?_
  rw [(hins s hs).1 k hk]

/-- **C131.** A curve that passes through the data is kept: if the curve fitted in one round passes through all data at
the parameters found on it, and these determine the next fit (C109), the next round returns the same curve. -/
theorem fit_round_keeps_exact {env : FitEnv K} (hls : IsLstsq env.lstsq) {data rows : List (List K)} {p n : ℕ}
    {b d : Curve K} (hp : 1 ≤ p) (h : Round env data p n b rows d) (hb : ∀ k < 3, sqDist rows b k = 0)
    (h01 : knotFn b.kv 0 = 0 ∧ knotFn b.kv (n + p) = 1) (hfirst : knotFn b.kv p < knotFn b.kv (p + 1))
    (hdet : Determined p n (knotFn b.kv) rows.length fun r => at2 rows r 3 0) : d = b := by
  obtain ⟨hsh, hran⟩ := parameterizeCurve_range h.parameters
  have hcl : Clamped p n b.kv := by rw [← h.knots.1]; exact h.knots.2
  have hsz := hcl.size
  have hl : rows.length = data.length := hsh.1
  have hz : ∀ k < 3, ∀ r < rows.length, curve (knotFn b.kv) p n (coord b.ctrlpts k) (at2 rows r 3 0)
      = at2 rows r k 0 := by
    intro k hk r hr
    have := hb k hk
    unfold sqDist at this
    rw [sum_eq_zero_iff_of_nonneg fun r _ => sq_nonneg _] at this
    have := this r (mem_range.2 hr)
    rw [h.degree.1, h.points.1.1] at this
    exact sub_eq_zero.1 (pow_eq_zero_iff (two_ne_zero)|>.1 this)
  have hp0 : knotFn b.kv p = 0 := by rw [hcl.left p le_rfl, h01.1]
  have hn1 : knotFn b.kv n = 1 := by rw [hcl.right n le_rfl (by omega), h01.2]
  have hdeg := h.degree.1
  have := single_fit_curve_recovers hls (c := b) (data := rows) (m := rows.length) (n := n)
    (by rw [hdeg]; exact hcl) (by rw [hdeg]; exact hp) (by rw [hdeg]; exact hfirst) h.points.1
    (by rw [hl]; exact hsh) (fun r hr => by rw [hdeg, hp0, hn1]; exact hran r (by omega))
    (by rw [hdeg]; exact hdet) (Z := b.ctrlpts) h.points.1 rfl rfl
    (fun r hr k hk => by rw [hdeg]; exact (hz k hk r hr).symm)
  exact Except.ok.inj (h.fitted.symm.trans this)

end

/-! ## Concrete cases -/

/-- C131 for the example curve with every least-squares solver: three rounds. -/
example (ls : ℕ → List (List ℚ) → List ℚ → List ℚ) (hls : IsLstsq ls) :
    ∃ (b d : ℕ → Curve ℚ) (rows : ℕ → List (List ℚ)), b 0 = exFitCurve ∧
      fitCurveKnotInsertion 3 (exEnv ls) exFitCurve exKnotData 5 = .ok (d 2) ∧
      Round (exEnv ls) exKnotData 2 4 (b 1) (rows 1) (d 1) ∧ SameCurve (b 2) (d 1) ∧
      ∀ k < 3, sqDist (rows 2) (d 2) k ≤ sqDist (rows 2) (d 1) k := by
  obtain ⟨b, d, rows, h0, h1, h2, h3, h4⟩ := fit_curve_knot_insertion_rounds (env := exEnv ls) hls
    (exEnv_parameterizes ls) (p := 2) (by norm_num) 5 2 (n := 3) (fuel := 3) exFitCurve_spaced
    (by norm_num) (by norm_num) (by norm_num) (by intro s hs; interval_cases s <;> norm_num)
  exact ⟨b, d, rows, h0, h1, h2 1 (by norm_num), (h3 1 (by norm_num)).1, h4 1 (by norm_num)⟩

/-- The segment from the origin to `(1, 0, 0)` as a curve of degree 2. -/
def exSegment : Curve ℚ := ⟨2, [[0, 0, 0], [1/2, 0, 0], [1, 0, 0]], [0, 0, 0, 1, 1, 1]⟩

def exSegmentData : List (List ℚ) := [[1/5, 0, 0], [4/5, 0, 0]]

theorem exSegment_spaced : Spaced 2 3 1 exSegment where
  deg := rfl
  pts := ⟨rfl, by decide +kernel⟩
  clamped := exFitCurve_clamped
  zero := by decide +kernel
  one := by decide +kernel
  gap := by intro i h1 h2; interval_cases i; decide +kernel

theorem exSegment_rows (ls c) : parameterizeCurve (exEnv ls).num ((exEnv ls).curveLike c) exSegmentData
    = .ok [[1/5, 0, 0, 1/5], [4/5, 0, 0, 4/5]] := by
  show parameterizeCurve ⟨fun l => (l.map fun x => |x|).sum, fun _ _ => true⟩
    ⟨3, fun u => .ok [u, 0, 0], fun u => .ok [[u, 0, 0], [1, 0, 0], [0, 0, 0]]⟩ exSegmentData = _
  decide +kernel

/-- A round of fitting data on the segment keeps the segment, whatever the solver. -/
example (ls : ℕ → List (List ℚ) → List ℚ → List ℚ) (hls : IsLstsq ls) :
    ∃ rows, Round (exEnv ls) exSegmentData 2 3 exSegment rows exSegment := by
  obtain ⟨rows, d, hr, -⟩ := Round.of_fit (env := exEnv ls) hls (data := exSegmentData)
    (fun _ _ _ c _ _ => ⟨_, exSegment_rows ls c⟩) exSegment_spaced one_pos
  have e := Except.ok.inj (hr.parameters.symm.trans (exSegment_rows ls exSegment))
  subst e
  have := fit_round_keeps_exact (env := exEnv ls) hls (by norm_num) hr (by decide +kernel)
    ⟨by decide +kernel, by decide +kernel⟩ (by decide +kernel)
    ⟨fun _ => 0, by intro j h1 h2; obtain rfl : j = 1 := by omega
                    decide +kernel, by intro j h1 h2; omega⟩
  exact ⟨_, this ▸ hr⟩

end PySpline
