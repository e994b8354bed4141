import Verif.Lemmas.KnotFit
import Verif.Props.Fitting
import Verif.Props.Knots
import Verif.SpecSolver
import Mathlib.Tactic.IntervalCases

/-!
# Fits that insert knots, and the initial curve: C53–C55, C58
-/

set_option linter.unusedSectionVars false

namespace PySpline

open Spec Finset

section
variable {K : Type} [Field K] [LinearOrder K] [IsStrictOrderedRing K]

/-! ## C53 -/

theorem knotFitLoop_count (env : FitEnv K) (data : List (List K)) (N : ℤ) (fuel : ℕ) :
    ∀ {c c' : Curve K}, knotFitLoop env data N fuel c = .ok c' →
      c.kv.length = c.ctrlpts.length + c.degree + 1 → c.degree < c.ctrlpts.length →
      c'.degree = c.degree ∧ c'.kv.length = c'.ctrlpts.length + c'.degree + 1 ∧
      ∃ t < fuel, c'.ctrlpts.length = c.degree + 2 ^ t * (c.ctrlpts.length - c.degree) ∧
        N ≤ c'.ctrlpts.length ∧
        ∀ s < t, ((c.degree + 2 ^ s * (c.ctrlpts.length - c.degree) : ℕ) : ℤ) < N := by
  induction fuel with
  | zero => intro c c' h; cases h
  | succ fuel ih =>
    intro c c' h hkv hn
    unfold knotFitLoop at h
    obtain ⟨rows, -, h⟩ := bind_eq_ok h
    obtain ⟨c1, h1, h⟩ := bind_eq_ok h
    obtain ⟨d1, k1, -, s1, -⟩ := singleFitCurve_ok h1
    have l1 := s1.1
    split at h
    · rename_i hN
      cases h
      refine ⟨d1, by rw [k1, l1, d1, hkv], 0, Nat.zero_lt_succ _, by rw [l1]; omega, hN,
        fun s hs => absurd hs (by omega)⟩
    · rename_i hN
      obtain ⟨ks, hks, h⟩ := bind_eq_ok h
      obtain ⟨c2, h2, h⟩ := bind_eq_ok h
      have lk := midKnots_length hks
      obtain ⟨d2, k2, l2⟩ := insertKnots_length ks h2
      rw [k1, d1, hkv] at lk
      obtain ⟨a1, a2, t, ht, a3, a4, a5⟩ := ih h (by rw [k2, k1, l2, l1, d2, d1]; omega)
        (by rw [d2, d1, l2, l1]; omega)
      have e : c2.ctrlpts.length - c2.degree = 2 * (c.ctrlpts.length - c.degree) := by
        rw [l2, l1, d2, d1]; omega
      rw [e, d2, d1] at a3 a5
      refine ⟨by rw [a1, d2, d1], a2, t + 1, by omega, ?_, a4, fun s hs => ?_⟩
      · rw [a3, pow_succ]; ring
      · cases s with
        | zero => rw [l1] at hN; simp only [pow_zero, one_mul]; omega
        | succ s =>
          have := a5 s (by omega)
          rw [pow_succ, mul_assoc]
          exact this

/-- **C53.** Whenever `fit_curve_knot_insertion`, started with `n₀ > degree` control points, returns,
it has inserted knots in `t` rounds and has exactly `degree + 2^t (n₀ - degree)` control points, the
first number of that form that reaches `num_pts`. -/
theorem fit_curve_knot_insertion_count (env : FitEnv K) (data : List (List K)) (N : ℤ) (fuel : ℕ)
    (c c' : Curve K) (h : fitCurveKnotInsertion fuel env c data N = .ok c')
    (hkv : c.kv.length = c.ctrlpts.length + c.degree + 1) (hn : c.degree < c.ctrlpts.length) :
    c'.degree = c.degree ∧ c'.kv.length = c'.ctrlpts.length + c'.degree + 1 ∧
      ∃ t < fuel, c'.ctrlpts.length = c.degree + 2 ^ t * (c.ctrlpts.length - c.degree) ∧
        N ≤ c'.ctrlpts.length ∧
        ∀ s < t, ((c.degree + 2 ^ s * (c.ctrlpts.length - c.degree) : ℕ) : ℤ) < N :=
  knotFitLoop_count env data N fuel h hkv hn

/-! ## C54 -/

theorem Spaced.mono {p n : ℕ} {δ ε : K} {c : Curve K} (h : Spaced p n δ c) (hle : ε ≤ δ) :
    Spaced p n ε c :=
  ⟨h.deg, h.pts, h.clamped, h.zero, h.one, fun i h1 h2 => hle.trans (h.gap i h1 h2)⟩

theorem Spaced.distinct {p n : ℕ} {δ : K} {c : Curve K} (h : Spaced p n δ c) (hδ : 0 < δ) :
    DistinctInterior p n c.kv := fun i h1 h2 => by
  have := h.gap i h1 h2
  linarith

/-- What the loop needs from the parameterization: that it does not raise on well-formed curves.
(Its parameters are in `[0, 1]` by `curve_inversion_mem`.) -/
def Parameterizes (env : FitEnv K) (data : List (List K)) : Prop :=
  ∀ (p n : ℕ) (δ : K) (c : Curve K), Spaced p n δ c → 0 < δ →
    ∃ rows, parameterizeCurve env.num (env.curveLike c) data = .ok rows

theorem parameterizeCurve_range {nm : Num K} {C : CurveLike K} {data rows : List (List K)}
    (h : parameterizeCurve nm C data = .ok rows) :
    Shape rows data.length 4 ∧ ∀ r < data.length, 0 ≤ at2 rows r 3 0 ∧ at2 rows r 3 0 ≤ 1 := by
  obtain ⟨us, hus, hperm, -, hsh⟩ := parameterize_curve_rows nm C data rows h
  refine ⟨hsh, fun r hr => ?_⟩
  have hmem : rows.getD r [] ∈ rows := by
    have : r < rows.length := by rw [hsh.1]; exact hr
    rw [List.getD_eq_getElem?_getD, List.getElem?_eq_getElem this]
    exact List.getElem_mem this
  have hmem' := hperm.mem_iff.1 hmem
  have hlen := hsh.2 _ hmem
  obtain ⟨i, hi, he⟩ := List.getElem_of_mem hmem'
  rw [List.getElem_zipWith] at he
  have hul := mapPy_length hus
  have hid : i < data.length := by
    rw [List.length_zipWith] at hi; omega
  have hui : curveInversionD nm C (data.getD i []) = .ok (us.getD i 0) := mapPy_getD hus [] 0 i hid
  have hu01 : 0 ≤ us.getD i 0 ∧ us.getD i 0 ≤ 1 := by
    unfold curveInversionD at hui
    exact curve_inversion_mem _ _ _ _ _ _ _ _ hui
  have e : at2 rows r 3 0 = us.getD i 0 := by
    unfold at2
    rw [← he] at hlen ⊢
    rw [List.length_append] at hlen
    have hl3 : (data[i]).length = 3 := by simpa using hlen
    rw [List.getD_eq_getElem?_getD, List.getElem?_append_right (by omega), hl3]
    have : i < us.length := by omega
    simp [List.getD_eq_getElem?_getD, this]
  rw [e]
  exact hu01

/-- `single_fit_curve` returns with every solver. -/
theorem single_fit_curve_returns {ls : ℕ → List (List K) → List K → List K} (hls : SolverLength ls)
    {c : Curve K} {data : List (List K)} {m n : ℕ}
    (hU : Clamped c.degree n c.kv) (hfirst : knotFn c.kv c.degree < knotFn c.kv (c.degree + 1))
    (hP : Shape c.ctrlpts n 3) (hd : Shape data m 4)
    (hdom : ∀ r < m, knotFn c.kv c.degree ≤ at2 data r 3 0 ∧ at2 data r 3 0 ≤ knotFn c.kv n) :
    ∃ c', singleFitCurve ls c data = .ok c' ∧ c'.degree = c.degree ∧ c'.kv = c.kv ∧ Shape c'.ctrlpts n 3 := by
  have hsz := hU.size
  obtain ⟨M, hM, hs, -, hun⟩ := single_fit_curve_unity hU hfirst hP.1 hd hdom
  obtain ⟨f, hf, hfl, -⟩ := curveMask_eq (n := n) (by omega)
  obtain ⟨new, hnew, hns, -⟩ := fitColumns_returns (ls := ls) (M := M) (fixed := f) (C := fun _ _ => True) hd (by omega) hP
    fun k _ => (linearFitFixed_reduce hls (R := M) (Q := data.map fun row => row.getD k 0)
      (P := c.ctrlpts.map fun row => row.getD k 0) (fixed := f) (by simpa [hd.1, hP.1] using hs)
      (by simp [hP.1, hfl])).mono fun x hx => ⟨by rw [hx.1]; simp [hP.1], trivial⟩
  refine ⟨{ c with ctrlpts := new }, ?_, rfl, rfl, hns⟩
  unfold singleFitCurve
  rw [hM, ok_bind, hun, ok_bind, hP.1, hf, ok_bind, hnew, ok_bind]

/-- One pass of parameterization and fit on a well-formed curve. -/
theorem fitStep {env : FitEnv K} (hls : SolverLength env.lstsq) {data : List (List K)}
    (hpar : Parameterizes env data) {p n : ℕ} {δ : K} {c : Curve K} (h : Spaced p n δ c) (hδ : 0 < δ) :
    ∃ rows c', parameterizeCurve env.num (env.curveLike c) data = .ok rows ∧
      singleFitCurve env.lstsq c rows = .ok c' ∧ Spaced p n δ c' ∧ c'.kv = c.kv ∧
      c'.ctrlpts.getD 0 [] = c.ctrlpts.getD 0 [] ∧
      c'.ctrlpts.getD (n - 1) [] = c.ctrlpts.getD (n - 1) [] := by
  have hsz := h.clamped.size
  obtain ⟨rows, hrows⟩ := hpar p n δ c h hδ
  obtain ⟨hsh, hran⟩ := parameterizeCurve_range hrows
  have hp0 : knotFn c.kv p = 0 := by rw [h.clamped.left p le_rfl, h.zero]
  have hn1 : knotFn c.kv n = 1 := by rw [h.clamped.right n le_rfl (by omega), h.one]
  have hdeg := h.deg
  obtain ⟨c', hc', hd', hk', hP'⟩ := single_fit_curve_returns hls (c := c) (data := rows)
    (m := data.length) (n := n) (by rw [hdeg]; exact h.clamped)
    (by rw [hdeg]; exact h.distinct hδ p le_rfl hsz) h.pts hsh
    (fun r hr => by rw [hdeg, hp0, hn1]; exact hran r hr)
  obtain ⟨-, -, -, e0, e1⟩ := single_fit_curve_keeps _ _ _ _ hc' h.pts.2
  rw [h.pts.1] at e1
  refine ⟨rows, c', hrows, hc', ⟨by rw [hd', hdeg], hP', ?_, ?_, ?_, ?_⟩, hk', e0, e1⟩
  · rw [hk']; exact h.clamped
  · rw [hk']; exact h.zero
  · rw [hk']; exact h.one
  · rw [hk']; exact h.gap

/-- **C53, C54.** On a clamped curve on `[0, 1]` whose shortest knot span `δ` is long enough for
`t` halvings (`2^t (1e-5 + 1e-8) < δ`, the tolerance of `find_multiplicity`), where `t` is the
first number with `num_pts ≤ degree + 2^t (n - degree)`: the loop terminates after `t` rounds; the
result has that number of control points and a clamped knot vector with distinct interior knots,
which divides every old span in `2^t` equal parts; the end control points are unchanged.  The solver
need not solve anything for this. -/
theorem fit_curve_knot_insertion_returns {env : FitEnv K} (hls : SolverLength env.lstsq)
    {data : List (List K)} (hpar : Parameterizes env data) {p : ℕ} (hp : 1 ≤ p) (N : ℤ) (t : ℕ) :
    ∀ {n fuel : ℕ} {δ : K} {c : Curve K}, Spaced p n δ c →
      2 ^ t * (1 / 10 ^ 8 + 1 / 10 ^ 5) < δ → t < fuel →
      N ≤ ((p + 2 ^ t * (n - p) : ℕ) : ℤ) → (∀ s < t, ((p + 2 ^ s * (n - p) : ℕ) : ℤ) < N) →
      ∃ c', fitCurveKnotInsertion fuel env c data N = .ok c' ∧
        c'.degree = p ∧ Shape c'.ctrlpts (p + 2 ^ t * (n - p)) 3 ∧
        Clamped p (p + 2 ^ t * (n - p)) c'.kv ∧ DistinctInterior p (p + 2 ^ t * (n - p)) c'.kv ∧
        (∀ i < n - p, ∀ j ≤ 2 ^ t, knotFn c'.kv (p + 2 ^ t * i + j) = knotFn c.kv (p + i)
          + (j : K) / 2 ^ t * (knotFn c.kv (p + i + 1) - knotFn c.kv (p + i))) ∧
        c'.ctrlpts.getD 0 [] = c.ctrlpts.getD 0 [] ∧
        c'.ctrlpts.getD (p + 2 ^ t * (n - p) - 1) [] = c.ctrlpts.getD (n - 1) [] := by
  have htol : (0 : K) < 1 / 10 ^ 8 + 1 / 10 ^ 5 := by positivity
  unfold fitCurveKnotInsertion
  induction t with
  | zero =>
    intro n fuel δ c h hδ hf hN _
    have hsz := h.clamped.size
    obtain ⟨fuel, rfl⟩ : ∃ f, fuel = f + 1 := ⟨fuel - 1, by omega⟩
    have hδ0 : 0 < δ := by rw [pow_zero, one_mul] at hδ; exact htol.trans hδ
    obtain ⟨rows, c', hrows, hc', hs, hk, e0, e1⟩ := fitStep hls hpar h hδ0
    have en : p + 2 ^ 0 * (n - p) = n := by rw [pow_zero]; omega
    rw [en] at hN ⊢
    refine ⟨c', ?_, hs.deg, hs.pts, hs.clamped, hs.distinct hδ0, fun i hi j hj => ?_, e0, e1⟩
    · unfold knotFitLoop
      rw [hrows, ok_bind, hc', ok_bind, hs.pts.1, if_pos hN]
    · rw [hk, pow_zero, one_mul, pow_zero, div_one]
      have : j = 0 ∨ j = 1 := by simp at hj; omega
      rcases this with rfl | rfl
      · simp
      · simp
  | succ t ih =>
    intro n fuel δ c h hδ hf hN hlt
    have hsz := h.clamped.size
    obtain ⟨fuel, rfl⟩ : ∃ f, fuel = f + 1 := ⟨fuel - 1, by omega⟩
    have h2t : (1 : K) ≤ 2 ^ t := one_le_pow₀ (by norm_num)
    have hδ2 : 2 * (1 / 10 ^ 8 + 1 / 10 ^ 5) < δ := by
      refine lt_of_le_of_lt ?_ hδ
      have h2 : (2 : K) ≤ 2 ^ (t + 1) := by rw [pow_succ]; linarith
      exact mul_le_mul_of_nonneg_right h2 htol.le
    have hδ0 : 0 < δ := by linarith
    obtain ⟨rows, c1, hrows, hc1, hs1, hk1, e0, e1⟩ := fitStep hls hpar h hδ0
    obtain ⟨c2, hc2, hs2, ev, od, -, f0, f1⟩ := insertRound hs1 hp hδ2
    have hn2 : p + 2 * (n - p) - p = 2 * (n - p) := by omega
    obtain ⟨c', hret, g1, g2, g3, g4, g5, g6, g7⟩ := ih (n := p + 2 * (n - p)) (fuel := fuel)
      (δ := δ / 2) (c := c2) hs2 (by rw [pow_succ] at hδ; linarith) (by omega)
      (by rw [hn2]
          have : p + 2 ^ t * (2 * (n - p)) = p + 2 ^ (t + 1) * (n - p) := by rw [pow_succ]; ring
          rw [this]; exact hN)
      (fun s hs => by
        rw [hn2]
        have : p + 2 ^ s * (2 * (n - p)) = p + 2 ^ (s + 1) * (n - p) := by rw [pow_succ]; ring
        rw [this]; exact hlt (s + 1) (by omega))
    rw [hn2, show p + 2 ^ t * (2 * (n - p)) = p + 2 ^ (t + 1) * (n - p) by rw [pow_succ]; ring]
      at g2 g3 g4 g7
    rw [hn2] at g5
    refine ⟨c', ?_, g1, g2, g3, g4, fun i hi j hj => ?_, by rw [g6, f0, e0], by rw [g7, f1, e1]⟩
    · unfold knotFitLoop
      have h0 := hlt 0 (by omega)
      rw [pow_zero, one_mul] at h0
      rw [hrows, ok_bind, hc1, ok_bind, hs1.pts.1, if_neg (by omega)]
      obtain ⟨ks, hks, hc2⟩ := bind_eq_ok hc2
      rw [hks, ok_bind, hc2, ok_bind]
      exact hret
    · rw [hk1] at ev od
      have hpow : (2 : K) ^ (t + 1) = 2 ^ t * 2 := pow_succ 2 t
      have hne : (2 : K) ^ t ≠ 0 := by positivity
      by_cases hj2 : j ≤ 2 ^ t
      · have := g5 (2 * i) (by omega) j hj2
        rw [show p + 2 ^ t * (2 * i) + j = p + 2 ^ (t + 1) * i + j by rw [pow_succ]; ring,
          ev i (by omega), od i hi] at this
        rw [this, hpow]
        field_simp
        ring
      · have hpn : 2 ^ (t + 1) = 2 ^ t + 2 ^ t := by rw [pow_succ]; omega
        have := g5 (2 * i + 1) (by omega) (j - 2 ^ t) (by omega)
        have e : p + 2 ^ t * (2 * i + 1) + (j - 2 ^ t) = p + 2 ^ (t + 1) * i + j := by
          have : 2 ^ t * (2 * i + 1) = 2 ^ (t + 1) * i + 2 ^ t := by rw [pow_succ]; ring
          omega
        rw [e, ← add_assoc, od i hi, show p + 2 * i + 1 + 1 = p + 2 * (i + 1) by ring,
          ev (i + 1) (by omega), Nat.cast_sub (by omega)] at this
        rw [this, hpow, ← add_assoc]
        push_cast
        field_simp
        ring

/-! ## C55 -/

/-- **C55.** The knot-insertion fit that `fit_curve_fixed_ctrlpts` starts with asks for as many
control points as it has: it never inserts a knot. -/
theorem fit_curve_fixed_no_insertion (fuel : ℕ) (env : FitEnv K) (c : Curve K)
    (data : List (List K)) :
    fitCurveKnotInsertion (fuel + 1) env c data c.ctrlpts.length = (do
      let rows ← parameterizeCurve env.num (env.curveLike c) data
      singleFitCurve env.lstsq c rows) := by
  unfold fitCurveKnotInsertion knotFitLoop
  cases parameterizeCurve env.num (env.curveLike c) data with
  | error e => rfl
  | ok rows =>
    rw [ok_bind, ok_bind]
    cases hf : singleFitCurve env.lstsq c rows with
    | error e => rfl
    | ok c' =>
      rw [ok_bind, if_pos]
      rw [(singleFitCurve_ok hf).2.2.2.1.1]

/-- **C55.** Whenever `fit_curve_fixed_ctrlpts` returns: degree, knots, number of control points and
end points are those of the input. -/
theorem fit_curve_fixed_keeps (fuel : ℕ) (env : FitEnv K) (c c' : Curve K) (data : List (List K))
    (h : fitCurveFixed fuel env c data = .ok c') (h3 : ∀ row ∈ c.ctrlpts, row.length = 3) :
    c'.degree = c.degree ∧ c'.kv = c.kv ∧ Shape c'.ctrlpts c.ctrlpts.length 3 ∧
      c'.ctrlpts.getD 0 [] = c.ctrlpts.getD 0 [] ∧
      c'.ctrlpts.getD (c.ctrlpts.length - 1) [] = c.ctrlpts.getD (c.ctrlpts.length - 1) [] := by
  unfold fitCurveFixed at h
  obtain ⟨first, -, h⟩ := bind_eq_ok h
  obtain ⟨last, -, h⟩ := bind_eq_ok h
  obtain ⟨init, -, h⟩ := bind_eq_ok h
  obtain ⟨fit, -, h⟩ := bind_eq_ok h
  obtain ⟨rows, -, h⟩ := bind_eq_ok h
  obtain ⟨c1, h1, h⟩ := bind_eq_ok h
  obtain ⟨rows', -, h⟩ := bind_eq_ok h
  obtain ⟨a1, a2, a3, a4, a5⟩ := single_fit_curve_keeps _ _ _ _ h1 h3
  obtain ⟨b1, b2, b3, b4, b5⟩ := single_fit_curve_keeps _ _ _ _ h a3.2
  rw [a3.1] at b3 b5
  exact ⟨b1.trans a1, b2.trans a2, b3, b4.trans a4, b5.trans a5⟩

/-! ## C58 -/

/-- **C58.** The initial curve: equally spaced control points on the segment, a valid uniform knot
vector. -/
theorem initialize_curve_points {s e : List K} (hs : s.length = 3) (he : e.length = 3) {p n : ℕ}
    (h : p < n) (hn : 2 ≤ n) :
    ∃ c : Curve K, initializeCurve s e p n = .ok c ∧ c.degree = p ∧ Shape c.ctrlpts n 3 ∧
      (∀ k < 3, ∀ i < n, coord c.ctrlpts k i
        = s.getD k 0 + (i : K) / ((n : K) - 1) * (e.getD k 0 - s.getD k 0)) ∧
      generateUniform p n = .ok c.kv ∧ Clamped p n c.kv ∧ DistinctInterior p n c.kv ∧
      knotFn c.kv 0 = 0 ∧ knotFn c.kv (n + p) = 1 ∧
      (∀ i, p ≤ i → i < n → knotFn c.kv (i + 1) - knotFn c.kv i = 1 / ((n : K) - p)) := by
  obtain ⟨U, hU, hcl, hdi, h0, h1, hg, -⟩ := generate_uniform_valid (K := K) h
  have lin : ∀ a b : K, linspace a b (n : ℤ)
      = .ok ((List.range n).map fun (i : ℕ) => a + (i : K) * ((b - a) / ((n : K) - 1))) := by
    intro a b
    unfold linspace
    rw [if_neg (by omega), if_neg (by omega)]
    simp
  set L : K → K → List K := fun a b =>
    (List.range n).map fun (i : ℕ) => a + (i : K) * ((b - a) / ((n : K) - 1)) with hL
  have lL : ∀ a b, (L a b).length = n := fun a b => by simp [hL]
  have vL : ∀ a b, ∀ i < n, (L a b).getD i 0 = a + (i : K) / ((n : K) - 1) * (b - a) := by
    intro a b i hi
    simp [hL, List.getD_eq_getElem?_getD, hi]
    ring
  set pts := (List.range n).map fun i => [(L (s.getD 0 0) (e.getD 0 0)).getD i 0,
    (L (s.getD 1 0) (e.getD 1 0)).getD i 0, (L (s.getD 2 0) (e.getD 2 0)).getD i 0] with hpts
  have lpts : pts.length = n := by simp [hpts]
  refine ⟨⟨p, pts, U⟩, ?_, rfl, ⟨lpts, ?_⟩, ?_, hU, hcl, hdi, h0, h1, hg⟩
  · unfold initializeCurve
    rw [if_neg (by omega), pyGet_nat s 0 0 0 rfl (by omega), ok_bind, pyGet_nat e 0 0 0 rfl (by omega),
      ok_bind, lin, ok_bind, pyGet_nat s 1 1 0 rfl (by omega), ok_bind,
      pyGet_nat e 1 1 0 rfl (by omega), ok_bind, lin, ok_bind, pyGet_nat s 2 2 0 rfl (by omega),
      ok_bind, pyGet_nat e 2 2 0 rfl (by omega), ok_bind, lin, ok_bind]
    unfold columnStack3
    rw [if_pos ⟨by rw [lL, lL], by rw [lL, lL]⟩, ok_bind, lL]
    show (do let kv ← generateUniform p pts.length
             Except.ok (⟨p, pts, kv⟩ : Curve K)) = _
    rw [lpts, hU, ok_bind]
  · intro row hrow
    obtain ⟨i, -, rfl⟩ := List.mem_map.1 hrow
    rfl
  · intro k hk i hi
    have hrow : pts.getD i [] = [(L (s.getD 0 0) (e.getD 0 0)).getD i 0,
        (L (s.getD 1 0) (e.getD 1 0)).getD i 0, (L (s.getD 2 0) (e.getD 2 0)).getD i 0] := by
      rw [hpts, List.getD_eq_getElem?_getD]
      simp [hi]
    unfold coord
    dsimp only
    rw [hrow]
    match k, hk with
    | 0, _ => exact vL _ _ i hi
    | 1, _ => exact vL _ _ i hi
    | 2, _ => exact vL _ _ i hi

/-- **C58.** Every point of the initial curve is on the segment from `start` to `end`; the curve
starts at `start` and ends at `end`.  (For more than `900000` spans a parameter next to the end
would be taken for the end parameter, see C33.) -/
theorem initialize_curve_segment {s e : List K} (hs : s.length = 3) (he : e.length = 3) {p n : ℕ}
    (hp : 1 ≤ p) (h : p < n) (hbig : n - p ≤ 900000) :
    ∃ c : Curve K, initializeCurve s e p n = .ok c ∧ c.singlePoint 0 = .ok s ∧ c.singlePoint 1 = .ok e ∧
      ∀ u, 0 ≤ u → u ≤ 1 → ∃ l, 0 ≤ l ∧ l ≤ 1 ∧
        c.singlePoint u = .ok [s.getD 0 0 + l * (e.getD 0 0 - s.getD 0 0),
          s.getD 1 0 + l * (e.getD 1 0 - s.getD 1 0), s.getD 2 0 + l * (e.getD 2 0 - s.getD 2 0)] := by
  obtain ⟨⟨p', P, U⟩, hc, rfl, hP, hv, -, hcl, hdi, h0, h1, hg⟩ :=
    initialize_curve_points hs he h (by omega)
  dsimp only at hP hv hcl hdi h0 h1 hg h hp hbig
  have hnK : (0 : K) < (n : K) - 1 := by
    have : (2 : K) ≤ n := by exact_mod_cast (by omega : 2 ≤ n)
    linarith
  refine ⟨_, hc, ?_, ?_, fun u hu0 hu1 => ?_⟩
  · rw [single_point_first hcl hp hP h0 (hdi p' le_rfl h) h1.ge]
    congr 1
    rw [row_eq_three (hP.row (by omega : 0 < n)), row_eq_three hs]
    have a := hv 0 (by omega) 0 (by omega)
    have b := hv 1 (by omega) 0 (by omega)
    have d := hv 2 (by omega) 0 (by omega)
    unfold coord at a b d
    rw [a, b, d]
    simp
  · rw [single_point_last hcl hp hP h1 (by
      have := hdi (n - 1) (by omega) (by omega)
      rwa [show n - 1 + 1 = n by omega] at this)]
    congr 1
    rw [row_eq_three (hP.row (by omega : n - 1 < n)), row_eq_three he]
    have a := hv 0 (by omega) (n - 1) (by omega)
    have b := hv 1 (by omega) (n - 1) (by omega)
    have d := hv 2 (by omega) (n - 1) (by omega)
    unfold coord at a b d
    rw [a, b, d, Nat.cast_sub (by omega), Nat.cast_one, div_self hnK.ne']
    simp
  · have hlast : |u - 1| ≤ 1 / 10 ^ 8 + 1 / 10 ^ 6 → knotFn U (n - 1) ≤ u := by
      intro hu
      have hgl := hg (n - 1) (by omega) (by omega)
      rw [show n - 1 + 1 = n by omega, hcl.right n le_rfl (by omega), h1] at hgl
      have hd : (0 : K) < (n : K) - p' := by
        have : (p' : K) < n := by exact_mod_cast h
        linarith
      have hd2 : (n : K) - p' ≤ 900000 := by
        have : (n : K) ≤ 900000 + p' := by exact_mod_cast (by omega : n ≤ 900000 + p')
        linarith
      have hd3 : (1 : K) / 900000 ≤ 1 / ((n : K) - p') := one_div_le_one_div_of_le hd hd2
      have := neg_le_abs (u - 1)
      have : (1 / 10 ^ 8 + 1 / 10 ^ 6 : K) < 1 / 900000 := by norm_num
      linarith
    have hr := regular_of_distinct hcl hdi h0 h1 hu0 hu1 hlast
    rw [single_point_bspline_sum hcl hp hP le_rfl hu0 hu1 hr]
    set l := curve (knotFn U) p' n (fun i => (i : K) / ((n : K) - 1)) u with hl
    have hN := fun i => Nclosed_nonneg (monotone_knotFn hcl.mono) p' n i u
    have hsum := sum_Nclosed hcl hr.lo hr.hi
    have hk : ∀ k < 3, curve (knotFn U) p' n (coord P k) u
        = s.getD k 0 + l * (e.getD k 0 - s.getD k 0) := by
      intro k hk
      rw [hl]
      unfold curve
      rw [sum_congr rfl fun i hi => by rw [hv k hk i (mem_range.1 hi)], sum_mul]
      have : s.getD k 0 = ∑ i ∈ range n, s.getD k 0 * Nclosed (knotFn U) p' n i u := by
        rw [← mul_sum, hsum, mul_one]
      conv_rhs => rw [this, ← sum_add_distrib]
      refine sum_congr rfl fun i _ => ?_
      rw [← this]
      ring
    refine ⟨l, ?_, ?_, ?_⟩
    · exact sum_nonneg fun i _ => mul_nonneg (div_nonneg (Nat.cast_nonneg i) hnK.le) (hN i)
    · rw [hl]; unfold curve
      refine le_of_le_of_eq (sum_le_sum fun i hi => ?_) hsum
      have : (i : K) / ((n : K) - 1) ≤ 1 := by
        rw [div_le_one hnK]
        have : (i : K) + 1 ≤ n := by exact_mod_cast mem_range.1 hi
        linarith
      have := mul_le_mul_of_nonneg_right this (hN i)
      linarith
    · rw [hk 0 (by omega), hk 1 (by omega), hk 2 (by omega)]

end

/-! ## Concrete cases -/

/-- C58: three control points from `(0, 0, 0)` to `(2, 4, 6)`. -/
example : initializeCurve [0, 0, 0] [2, 4, 6] 2 3
    = .ok (⟨2, [[0, 0, 0], [1, 2, 3], [2, 4, 6]], [0, 0, 0, 1, 1, 1]⟩ : Curve ℚ) := by
  decide +kernel

/-- Points are inverted on the line `u ↦ (u, 0, 0)`. -/
def exEnv (ls : ℕ → List (List ℚ) → List ℚ → List ℚ) : FitEnv ℚ where
  num := ⟨fun l => (l.map fun x => |x|).sum, fun _ _ => true⟩
  lstsq := ls
  curveLike _ := ⟨3, fun u => .ok [u, 0, 0], fun u => .ok [[u, 0, 0], [1, 0, 0], [0, 0, 0]]⟩
  surfLike _ := ⟨2, 2, fun u v => .ok [u, v, 0], fun _ _ => .ok []⟩

def exKnotData : List (List ℚ) := [[1/4, 1, 0], [1/2, 2, 1/2], [3/4, 1, 1]]

theorem exFitCurve_spaced : Spaced 2 3 1 exFitCurve where
  deg := rfl
  pts := ⟨rfl, by decide +kernel⟩
  clamped := exFitCurve_clamped
  zero := by decide +kernel
  one := by decide +kernel
  gap := by intro i h1 h2; interval_cases i; decide +kernel

theorem exEnv_parameterizes (ls) : Parameterizes (exEnv ls) exKnotData := fun _ _ _ _ _ _ =>
  ⟨[[1/4, 1, 0, 1/5], [1/2, 2, 1/2, 2/5], [3/4, 1, 1, 4/5]], by
    show parameterizeCurve ⟨fun l => (l.map fun x => |x|).sum, fun _ _ => true⟩
      ⟨3, fun u => .ok [u, 0, 0], fun u => .ok [[u, 0, 0], [1, 0, 0], [0, 0, 0]]⟩ exKnotData = _
    decide +kernel⟩

/-- C53, C54: asking for five control points gives `2 + 2^2 · (3 - 2) = 6`. -/
example : (fitCurveKnotInsertion 3 (exEnv exLs) exFitCurve exKnotData 5).map
    (fun c => (c.ctrlpts.length, c.kv)) = .ok (6, [0, 0, 0, 1/4, 1/2, 3/4, 1, 1, 1]) := by
  decide +kernel

/-- Two rounds do not suffice for five control points. -/
example : fitCurveKnotInsertion 2 (exEnv exLs) exFitCurve exKnotData 5 = .error .diverged := by
  decide +kernel

/-- C53, C54 apply to this curve with every solver. -/
example (ls : ℕ → List (List ℚ) → List ℚ → List ℚ) (hls : SolverLength ls) :
    ∃ c', fitCurveKnotInsertion 3 (exEnv ls) exFitCurve exKnotData 5 = .ok c' ∧
      Shape c'.ctrlpts 6 3 ∧ DistinctInterior 2 6 c'.kv := by
  obtain ⟨c', h1, -, h2, -, h3, -⟩ := fit_curve_knot_insertion_returns (env := exEnv ls) hls
    (exEnv_parameterizes ls) (p := 2) (by norm_num) 5 2 (n := 3) (fuel := 3) exFitCurve_spaced
    (by norm_num) (by norm_num) (by norm_num) (by intro s hs; interval_cases s <;> norm_num)
  exact ⟨c', h1, h2, h3⟩

/-- C55 on the same curve. -/
example : (fitCurveFixed 1 (exEnv exLs) exFitCurve exKnotData).map
    (fun c => (c.degree, c.ctrlpts.head?, c.ctrlpts.getLast?, c.kv))
      = .ok (2, some [0, 0, 0], some [2, 0, 2], [0, 0, 0, 1, 1, 1]) := by decide +kernel

end PySpline
