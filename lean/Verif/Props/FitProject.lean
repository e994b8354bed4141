import Verif.Lemmas.FitProject

/-!
# C168: fits are orthogonal projections of the data

Valid for every least-squares solver; only the statement on control points needs data that determine the fit.
-/

set_option linter.unusedSectionVars false

namespace PySpline

open Spec Finset

variable {K : Type} [Field K] [LinearOrder K] [IsStrictOrderedRing K]

section
variable {ls ls' : ℕ → List (List K) → List K → List K} {c c₁ c₂ : Curve K} {data data₁ data₂ data₃ : List (List K)}
  {m n : ℕ}

/-- **C168.** Pythagoras: the squared distance of any curve with the same ends to the data is that of the fit plus the
squared distance of the two curves at the data parameters. -/
theorem single_fit_curve_projection (hls : IsLstsq ls) (hU : Clamped c.degree n c.kv)
    (hfirst : knotFn c.kv c.degree < knotFn c.kv (c.degree + 1)) (hP : Shape c.ctrlpts n 3) (hd : Shape data m 4)
    (hdom : ∀ r < m, knotFn c.kv c.degree ≤ at2 data r 3 0 ∧ at2 data r 3 0 ≤ knotFn c.kv n) :
    ∃ c', singleFitCurve ls c data = .ok c' ∧ ∀ k < 3, ∀ z : ℕ → K, z 0 = coord c.ctrlpts k 0 →
      z (n - 1) = coord c.ctrlpts k (n - 1) →
      ∑ r ∈ range m, (curve (knotFn c.kv) c.degree n z (at2 data r 3 0) - at2 data r k 0) ^ 2
        = ∑ r ∈ range m, (curve (knotFn c.kv) c.degree n (coord c'.ctrlpts k) (at2 data r 3 0) - at2 data r k 0) ^ 2
          + ∑ r ∈ range m, (curve (knotFn c.kv) c.degree n z (at2 data r 3 0)
              - curve (knotFn c.kv) c.degree n (coord c'.ctrlpts k) (at2 data r 3 0)) ^ 2 := by
  obtain ⟨c', h, -, -, -, hn⟩ := single_fit_curve_normal hls hU hfirst hP hd hdom
  refine ⟨c', h, fun k hk z z0 z1 => ?_⟩
  obtain ⟨e0, e1, hnk⟩ := hn k hk
  exact normal_projection (F := fun x r => curve (knotFn c.kv) c.degree n x (at2 data r 3 0))
    (d := fun r => at2 data r k 0) (free := fun e => e 0 = 0 ∧ e (n - 1) = 0)
    (fun x e s r => curve_add_mul x e s _) (fun e he => hnk e he.1 he.2) ⟨by dsimp only; rw [z0, e0]; ring, by dsimp only; rw [z1, e1]; ring⟩

/-- **C168.** Changing the data at fixed parameters does not change the fitted values by more than the data (sums of
squares), whatever solvers are used. -/
theorem single_fit_curve_nonexpansive (hls : IsLstsq ls) (hls' : IsLstsq ls') (hU : Clamped c₁.degree n c₁.kv)
    (hfirst : knotFn c₁.kv c₁.degree < knotFn c₁.kv (c₁.degree + 1)) (hdeg : c₂.degree = c₁.degree) (hkv : c₂.kv = c₁.kv)
    (hP₁ : Shape c₁.ctrlpts n 3) (hP₂ : Shape c₂.ctrlpts n 3)
    (hends : ∀ k < 3, coord c₂.ctrlpts k 0 = coord c₁.ctrlpts k 0 ∧ coord c₂.ctrlpts k (n - 1) = coord c₁.ctrlpts k (n - 1))
    (hd₁ : Shape data₁ m 4) (hd₂ : Shape data₂ m 4) (hpar : ∀ r < m, at2 data₂ r 3 0 = at2 data₁ r 3 0)
    (hdom : ∀ r < m, knotFn c₁.kv c₁.degree ≤ at2 data₁ r 3 0 ∧ at2 data₁ r 3 0 ≤ knotFn c₁.kv n) :
    ∃ c₁' c₂', singleFitCurve ls c₁ data₁ = .ok c₁' ∧ singleFitCurve ls' c₂ data₂ = .ok c₂' ∧ ∀ k < 3,
      ∑ r ∈ range m, (curve (knotFn c₁.kv) c₁.degree n (coord c₁'.ctrlpts k) (at2 data₁ r 3 0)
          - curve (knotFn c₁.kv) c₁.degree n (coord c₂'.ctrlpts k) (at2 data₁ r 3 0)) ^ 2
        ≤ ∑ r ∈ range m, (at2 data₁ r k 0 - at2 data₂ r k 0) ^ 2 := by
  obtain ⟨c₁', h₁, -, -, -, n₁⟩ := single_fit_curve_normal hls hU hfirst hP₁ hd₁ hdom
  obtain ⟨c₂', h₂, -, -, -, n₂⟩ := single_fit_curve_normal (c := c₂) (data := data₂) hls' (by rw [hdeg, hkv]; exact hU)
    (by rw [hdeg, hkv]; exact hfirst) hP₂ hd₂ (fun r hr => by rw [hdeg, hkv, hpar r hr]; exact hdom r hr)
  refine ⟨c₁', c₂', h₁, h₂, fun k hk => ?_⟩
  obtain ⟨a0, a1, a2⟩ := n₁ k hk
  obtain ⟨b0, b1, b2⟩ := n₂ k hk
  obtain ⟨e0, e1⟩ := hends k hk
  rw [hdeg, hkv] at b2
  refine normal_nonexpansive (F := fun x r => curve (knotFn c₁.kv) c₁.degree n x (at2 data₁ r 3 0))
    (d := fun r => at2 data₁ r k 0) (d' := fun r => at2 data₂ r k 0) (free := fun e => e 0 = 0 ∧ e (n - 1) = 0)
    (fun x e s r => curve_add_mul x e s _) (fun e he => a2 e he.1 he.2) (fun e he => ?_)
    ⟨by dsimp only; rw [a0, b0, e0]; ring, by dsimp only; rw [a1, b1, e1]; ring⟩
  refine Eq.trans (sum_congr rfl fun r hr => ?_) (b2 e he.1 he.2)
  rw [hpar r (mem_range.1 hr)]

/-- **C168.** The fitted values at the data parameters are the same for all solvers and all inner control points at the
start, also if the fit is not determined by the data. -/
theorem single_fit_curve_values (hls : IsLstsq ls) (hls' : IsLstsq ls') (hU : Clamped c₁.degree n c₁.kv)
    (hfirst : knotFn c₁.kv c₁.degree < knotFn c₁.kv (c₁.degree + 1)) (hdeg : c₂.degree = c₁.degree) (hkv : c₂.kv = c₁.kv)
    (hP₁ : Shape c₁.ctrlpts n 3) (hP₂ : Shape c₂.ctrlpts n 3)
    (hends : ∀ k < 3, coord c₂.ctrlpts k 0 = coord c₁.ctrlpts k 0 ∧ coord c₂.ctrlpts k (n - 1) = coord c₁.ctrlpts k (n - 1))
    (hd : Shape data m 4)
    (hdom : ∀ r < m, knotFn c₁.kv c₁.degree ≤ at2 data r 3 0 ∧ at2 data r 3 0 ≤ knotFn c₁.kv n) :
    ∃ c₁' c₂', singleFitCurve ls c₁ data = .ok c₁' ∧ singleFitCurve ls' c₂ data = .ok c₂' ∧ ∀ k < 3, ∀ r < m,
      curve (knotFn c₁.kv) c₁.degree n (coord c₁'.ctrlpts k) (at2 data r 3 0)
        = curve (knotFn c₁.kv) c₁.degree n (coord c₂'.ctrlpts k) (at2 data r 3 0) := by
  obtain ⟨c₁', c₂', h₁, h₂, h⟩ := single_fit_curve_nonexpansive (data₂ := data) hls hls' hU hfirst hdeg hkv hP₁ hP₂ hends
    hd hd (fun _ _ => rfl) hdom
  refine ⟨c₁', c₂', h₁, h₂, fun k hk r hr => ?_⟩
  have h := h k hk
  simp only [sub_self, ne_eq, OfNat.ofNat_ne_zero, not_false_eq_true, zero_pow, sum_const_zero] at h
  have := (sum_eq_zero_iff_of_nonneg fun r _ => sq_nonneg _).1 (le_antisymm h (sum_nonneg fun r _ => sq_nonneg _)) r
    (mem_range.2 hr)
  exact sub_eq_zero.1 (pow_eq_zero_iff two_ne_zero |>.1 this)

/-- **C168.** If only one data point moves, no fitted value moves further than it (in any coordinate). -/
theorem single_fit_curve_one_datum (hls : IsLstsq ls) (hls' : IsLstsq ls') (hU : Clamped c.degree n c.kv)
    (hfirst : knotFn c.kv c.degree < knotFn c.kv (c.degree + 1)) (hP : Shape c.ctrlpts n 3)
    (hd₁ : Shape data₁ m 4) (hd₂ : Shape data₂ m 4) (hpar : ∀ r < m, at2 data₂ r 3 0 = at2 data₁ r 3 0)
    (hdom : ∀ r < m, knotFn c.kv c.degree ≤ at2 data₁ r 3 0 ∧ at2 data₁ r 3 0 ≤ knotFn c.kv n) {q : ℕ} (hq : q < m)
    (hsame : ∀ r < m, r ≠ q → ∀ k < 3, at2 data₂ r k 0 = at2 data₁ r k 0) :
    ∃ c₁' c₂', singleFitCurve ls c data₁ = .ok c₁' ∧ singleFitCurve ls' c data₂ = .ok c₂' ∧ ∀ k < 3, ∀ r < m,
      |curve (knotFn c.kv) c.degree n (coord c₁'.ctrlpts k) (at2 data₁ r 3 0)
          - curve (knotFn c.kv) c.degree n (coord c₂'.ctrlpts k) (at2 data₁ r 3 0)|
        ≤ |at2 data₁ q k 0 - at2 data₂ q k 0| := by
  obtain ⟨c₁', c₂', h₁, h₂, h⟩ := single_fit_curve_nonexpansive hls hls' hU hfirst rfl rfl hP hP (fun _ _ => ⟨rfl, rfl⟩)
    hd₁ hd₂ hpar hdom
  refine ⟨c₁', c₂', h₁, h₂, fun k hk r hr => ?_⟩
  have e : ∑ r ∈ range m, (at2 data₁ r k 0 - at2 data₂ r k 0) ^ 2 = (at2 data₁ q k 0 - at2 data₂ q k 0) ^ 2 := by
    refine sum_eq_single_of_mem q (mem_range.2 hq) fun r hr hne => ?_
    rw [hsame r (mem_range.1 hr) hne k hk]
    ring
  have h := h k hk
  rw [e] at h
  exact sq_le_sq.1 ((single_le_sum (f := fun r => (curve (knotFn c.kv) c.degree n (coord c₁'.ctrlpts k) (at2 data₁ r 3 0)
    - curve (knotFn c.kv) c.degree n (coord c₂'.ctrlpts k) (at2 data₁ r 3 0)) ^ 2) (fun r _ => sq_nonneg _)
    (mem_range.2 hr)).trans h)

/-- **C168.** Superposition: if data and end points are the combination `a * first + b * second` of two problems, so are
the fitted values and, if the data determine the fit, the control points. -/
theorem single_fit_curve_superposition (hls : IsLstsq ls) (hU : Clamped c.degree n c.kv) (hp : 1 ≤ c.degree)
    (hfirst : knotFn c.kv c.degree < knotFn c.kv (c.degree + 1)) {P₁ P₂ P₃ : List (List K)}
    (hP₁ : Shape P₁ n 3) (hP₂ : Shape P₂ n 3) (hP₃ : Shape P₃ n 3) (hd₁ : Shape data₁ m 4) (hd₂ : Shape data₂ m 4)
    (hd₃ : Shape data₃ m 4) (par₂ : ∀ r < m, at2 data₂ r 3 0 = at2 data₁ r 3 0)
    (par₃ : ∀ r < m, at2 data₃ r 3 0 = at2 data₁ r 3 0)
    (hdom : ∀ r < m, knotFn c.kv c.degree ≤ at2 data₁ r 3 0 ∧ at2 data₁ r 3 0 ≤ knotFn c.kv n) (a b : K)
    (hends : ∀ k < 3, coord P₃ k 0 = a * coord P₁ k 0 + b * coord P₂ k 0 ∧
      coord P₃ k (n - 1) = a * coord P₁ k (n - 1) + b * coord P₂ k (n - 1))
    (hdata : ∀ k < 3, ∀ r < m, at2 data₃ r k 0 = a * at2 data₁ r k 0 + b * at2 data₂ r k 0) :
    ∃ c₁ c₂ c₃, singleFitCurve ls { c with ctrlpts := P₁ } data₁ = .ok c₁ ∧
      singleFitCurve ls { c with ctrlpts := P₂ } data₂ = .ok c₂ ∧
      singleFitCurve ls { c with ctrlpts := P₃ } data₃ = .ok c₃ ∧ ∀ k < 3,
      (∀ r < m, curve (knotFn c.kv) c.degree n (coord c₃.ctrlpts k) (at2 data₁ r 3 0)
        = a * curve (knotFn c.kv) c.degree n (coord c₁.ctrlpts k) (at2 data₁ r 3 0)
          + b * curve (knotFn c.kv) c.degree n (coord c₂.ctrlpts k) (at2 data₁ r 3 0)) ∧
      (Determined c.degree n (knotFn c.kv) m (fun r => at2 data₁ r 3 0) →
        ∀ i < n, coord c₃.ctrlpts k i = a * coord c₁.ctrlpts k i + b * coord c₂.ctrlpts k i) := by
  obtain ⟨c₁, h₁, -, -, -, n₁⟩ := single_fit_curve_normal (c := { c with ctrlpts := P₁ }) hls hU hfirst hP₁ hd₁ hdom
  obtain ⟨c₂, h₂, -, -, -, n₂⟩ := single_fit_curve_normal (c := { c with ctrlpts := P₂ }) (data := data₂) hls hU hfirst hP₂
    hd₂ (fun r hr => by rw [par₂ r hr]; exact hdom r hr)
  obtain ⟨c₃, h₃, -, -, -, n₃⟩ := single_fit_curve_normal (c := { c with ctrlpts := P₃ }) (data := data₃) hls hU hfirst hP₃
    hd₃ (fun r hr => by rw [par₃ r hr]; exact hdom r hr)
  refine ⟨c₁, c₂, c₃, h₁, h₂, h₃, fun k hk => ?_⟩
  obtain ⟨x0, x1, x2⟩ := n₁ k hk
  obtain ⟨y0, y1, y2⟩ := n₂ k hk
  obtain ⟨z0, z1, z2⟩ := n₃ k hk
  obtain ⟨e0, e1⟩ := hends k hk
  dsimp only at x0 x1 x2 y0 y1 y2 z0 z1 z2
  have y2' : ∀ e : ℕ → K, e 0 = 0 → e (n - 1) = 0 →
      ∑ r ∈ range m, (curve (knotFn c.kv) c.degree n (coord c₂.ctrlpts k) (at2 data₁ r 3 0) - at2 data₂ r k 0)
        * curve (knotFn c.kv) c.degree n e (at2 data₁ r 3 0) = 0 := fun e f0 f1 => by
    refine Eq.trans (sum_congr rfl fun r hr => ?_) (y2 e f0 f1)
    rw [par₂ r (mem_range.1 hr)]
  have z2' : ∀ e : ℕ → K, e 0 = 0 → e (n - 1) = 0 →
      ∑ r ∈ range m, (curve (knotFn c.kv) c.degree n (coord c₃.ctrlpts k) (at2 data₁ r 3 0) - at2 data₃ r k 0)
        * curve (knotFn c.kv) c.degree n e (at2 data₁ r 3 0) = 0 := fun e f0 f1 => by
    refine Eq.trans (sum_congr rfl fun r hr => ?_) (z2 e f0 f1)
    rw [par₃ r (mem_range.1 hr)]
  have hF : ∀ (x e : ℕ → K) (s : K) (r : ℕ), curve (knotFn c.kv) c.degree n (fun i => x i + s * e i) (at2 data₁ r 3 0)
      = curve (knotFn c.kv) c.degree n x (at2 data₁ r 3 0) + s * curve (knotFn c.kv) c.degree n e (at2 data₁ r 3 0) :=
    fun x e s r => curve_add_mul x e s _
  have hcomb := normal_comb (F := fun x r => curve (knotFn c.kv) c.degree n x (at2 data₁ r 3 0))
    (free := fun e => e 0 = 0 ∧ e (n - 1) = 0) (d := fun r => at2 data₁ r k 0) (d' := fun r => at2 data₂ r k 0)
    (x := coord c₁.ctrlpts k) (y := coord c₂.ctrlpts k) hF (fun e he => x2 e he.1 he.2)
    (fun e he => y2' e he.1 he.2) a b (d'' := fun r => at2 data₃ r k 0) (hdata k hk)
  constructor
  · intro r hr
    have := normal_values (F := fun x r => curve (knotFn c.kv) c.degree n x (at2 data₁ r 3 0))
      (free := fun e => e 0 = 0 ∧ e (n - 1) = 0) (d := fun r => at2 data₃ r k 0) hF (fun e he => z2' e he.1 he.2) hcomb
      ⟨by dsimp only; rw [z0, x0, y0, e0]; ring, by dsimp only; rw [z1, x1, y1, e1]; ring⟩ r hr
    rw [this]
    unfold curve
    rw [mul_sum, mul_sum, ← sum_add_distrib]
    exact sum_congr rfl fun i _ => by ring
  · intro hdet i hi
    exact (normal_unique hU hp hdet (x := coord c₃.ctrlpts k)
      (z := fun i => a * coord c₁.ctrlpts k i + b * coord c₂.ctrlpts k i) (by rw [z0, x0, y0, e0])
      (by rw [z1, x1, y1, e1]) z2' (fun e f0 f1 => hcomb e ⟨f0, f1⟩) i hi).symm

/-- The data can be matched, in increasing order, to some of the inner basis functions, each parameter inside the support
of its function. -/
def Matched (p n : ℕ) (U : ℕ → K) (m : ℕ) (t : ℕ → K) : Prop :=
  ∃ j : ℕ → ℕ, (∀ r < m, 1 ≤ j r ∧ j r + 1 < n ∧ U (j r) < t r ∧ t r < U (j r + p + 1)) ∧
    ∀ r s, r < s → s < m → j r < j s ∧ t r < t s

/-- **C168.** Interpolation: the fit passes through all data that can be matched in this sense, also if it is not
determined by them. -/
theorem single_fit_curve_interpolates (hls : IsLstsq ls) (hU : Clamped c.degree n c.kv) (hp : 1 ≤ c.degree)
    (hfirst : knotFn c.kv c.degree < knotFn c.kv (c.degree + 1))
    (hreg : ∀ i, 1 ≤ i → i + 1 < n → knotFn c.kv i < knotFn c.kv (i + c.degree + 1))
    (hP : Shape c.ctrlpts n 3) (hd : Shape data m 4)
    (hmat : Matched c.degree n (knotFn c.kv) m fun r => at2 data r 3 0) :
    ∃ c', singleFitCurve ls c data = .ok c' ∧ ∀ k < 3, ∀ r < m,
      curve (knotFn c.kv) c.degree n (coord c'.ctrlpts k) (at2 data r 3 0) = at2 data r k 0 := by
  have hsz := hU.size
  have hmono : Monotone (knotFn c.kv) := monotone_knotFn hU.mono
  obtain ⟨j, hj, hinc⟩ := hmat
  have hdom : ∀ r < m, knotFn c.kv c.degree ≤ at2 data r 3 0 ∧ at2 data r 3 0 ≤ knotFn c.kv n := by
    intro r hr
    obtain ⟨j1, j2, j3, j4⟩ := hj r hr
    constructor
    · refine le_trans ?_ j3.le
      rw [hU.left _ le_rfl, ← hU.left 0 (by omega)]
      exact hmono (by omega)
    · refine j4.le.trans ?_
      rw [hU.right n le_rfl (by omega)]
      exact hmono (by omega)
  obtain ⟨c', h, -, -, -, -, hopt⟩ := single_fit_curve_optimal hls hU hfirst hP hd hdom
  refine ⟨c', h, fun k hk => ?_⟩
  obtain ⟨s, s1, s2, s3, -⟩ := fill_parameters hmono hreg hj hinc (n - 2) (by omega)
  classical
  obtain ⟨z, z0, z1, hz⟩ := exists_interpolant hU hp (s := s) (fun i i1 i2 => s1 i i1 (by omega))
    (fun i i1 i2 => s2 i i1 (by omega)) (coord c.ctrlpts k)
    (fun i => if h : ∃ r < m, j r = i then at2 data h.choose k 0 else 0)
  have hzero : ∑ r ∈ range m, (curve (knotFn c.kv) c.degree n z (at2 data r 3 0) - at2 data r k 0) ^ 2 = 0 := by
    refine sum_eq_zero fun r hr => ?_
    have hr := mem_range.1 hr
    obtain ⟨j1, j2, -, -⟩ := hj r hr
    have hex : ∃ r' < m, j r' = j r := ⟨r, hr, rfl⟩
    have e1 := hz (j r) j1 j2
    rw [s3 r hr (by omega), dif_pos hex] at e1
    have e2 : hex.choose = r := by
      obtain ⟨q1, q2⟩ := hex.choose_spec
      rcases lt_trichotomy hex.choose r with h | h | h
      · have := (hinc _ _ h hr).1; omega
      · exact h
      · have := (hinc _ _ h q1).1; omega
    rw [e2] at e1
    rw [e1]
    ring
  have hle := hopt k hk z z0 z1
  rw [hzero] at hle
  intro r hr
  have := (sum_eq_zero_iff_of_nonneg fun r _ => sq_nonneg _).1 (le_antisymm hle (sum_nonneg fun r _ => sq_nonneg _)) r
    (mem_range.2 hr)
  exact sub_eq_zero.1 (pow_eq_zero_iff two_ne_zero |>.1 this)

end

section
variable {ls ls' : ℕ → List (List K) → List K → List K} {s : Surface K} {data data₁ data₂ : List (List K)} {m : ℕ}

/-- **C168.** Pythagoras for surface fits. -/
theorem single_fit_surface_projection (hls : IsLstsq ls) (hs : ClampedSurface s)
    (fu : knotFn s.kvU s.degreeU < knotFn s.kvU (s.degreeU + 1))
    (fv : knotFn s.kvV s.degreeV < knotFn s.kvV (s.degreeV + 1)) (hd : Shape data m 5)
    (hu : ∀ r < m, knotFn s.kvU s.degreeU ≤ at2 data r 3 0 ∧ at2 data r 3 0 ≤ knotFn s.kvU s.numU)
    (hv : ∀ r < m, knotFn s.kvV s.degreeV ≤ at2 data r 4 0 ∧ at2 data r 4 0 ≤ knotFn s.kvV s.numV) :
    ∃ s', singleFitSurface ls s data = .ok s' ∧ ∀ k < 3, ∀ z : ℕ → K,
      (∀ i < s.numU, ∀ j < s.numV, OnBoundary s i j → z (i * s.numV + j) = coord s.ctrlpts k (i * s.numV + j)) →
      ∑ r ∈ range m, (surface (knotFn s.kvU) s.degreeU s.numU (knotFn s.kvV) s.degreeV s.numV z (at2 data r 3 0)
            (at2 data r 4 0) - at2 data r k 0) ^ 2
        = ∑ r ∈ range m, (surface (knotFn s.kvU) s.degreeU s.numU (knotFn s.kvV) s.degreeV s.numV (coord s'.ctrlpts k)
              (at2 data r 3 0) (at2 data r 4 0) - at2 data r k 0) ^ 2
          + ∑ r ∈ range m, (surface (knotFn s.kvU) s.degreeU s.numU (knotFn s.kvV) s.degreeV s.numV z (at2 data r 3 0)
                (at2 data r 4 0)
              - surface (knotFn s.kvU) s.degreeU s.numU (knotFn s.kvV) s.degreeV s.numV (coord s'.ctrlpts k)
                (at2 data r 3 0) (at2 data r 4 0)) ^ 2 := by
  obtain ⟨Z, h, -, hn⟩ := single_fit_surface_normal hls hs fu fv hd hu hv
  refine ⟨_, h, fun k hk z hz => ?_⟩
  obtain ⟨hb, hnk⟩ := hn k hk
  exact normal_projection (F := fun x r => surface (knotFn s.kvU) s.degreeU s.numU (knotFn s.kvV) s.degreeV s.numV x
      (at2 data r 3 0) (at2 data r 4 0))
    (d := fun r => at2 data r k 0)
    (free := fun e => ∀ i < s.numU, ∀ j < s.numV, OnBoundary s i j → e (i * s.numV + j) = 0)
    (fun x e q r => surface_add_mul x e q _ _) (fun e he => hnk e he)
    (fun i hi j hj h => by dsimp only; rw [hz i hi j hj h, hb i hi j hj h]; ring)

/-- **C168.** Surface fits do not amplify changes of the data either. -/
theorem single_fit_surface_nonexpansive (hls : IsLstsq ls) (hls' : IsLstsq ls') (hs : ClampedSurface s)
    (fu : knotFn s.kvU s.degreeU < knotFn s.kvU (s.degreeU + 1))
    (fv : knotFn s.kvV s.degreeV < knotFn s.kvV (s.degreeV + 1)) (hd₁ : Shape data₁ m 5) (hd₂ : Shape data₂ m 5)
    (hpar : ∀ r < m, at2 data₂ r 3 0 = at2 data₁ r 3 0 ∧ at2 data₂ r 4 0 = at2 data₁ r 4 0)
    (hu : ∀ r < m, knotFn s.kvU s.degreeU ≤ at2 data₁ r 3 0 ∧ at2 data₁ r 3 0 ≤ knotFn s.kvU s.numU)
    (hv : ∀ r < m, knotFn s.kvV s.degreeV ≤ at2 data₁ r 4 0 ∧ at2 data₁ r 4 0 ≤ knotFn s.kvV s.numV) :
    ∃ s₁ s₂, singleFitSurface ls s data₁ = .ok s₁ ∧ singleFitSurface ls' s data₂ = .ok s₂ ∧ ∀ k < 3,
      ∑ r ∈ range m, (surface (knotFn s.kvU) s.degreeU s.numU (knotFn s.kvV) s.degreeV s.numV (coord s₁.ctrlpts k)
            (at2 data₁ r 3 0) (at2 data₁ r 4 0)
          - surface (knotFn s.kvU) s.degreeU s.numU (knotFn s.kvV) s.degreeV s.numV (coord s₂.ctrlpts k)
            (at2 data₁ r 3 0) (at2 data₁ r 4 0)) ^ 2
        ≤ ∑ r ∈ range m, (at2 data₁ r k 0 - at2 data₂ r k 0) ^ 2 := by
  obtain ⟨Z₁, h₁, -, n₁⟩ := single_fit_surface_normal hls hs fu fv hd₁ hu hv
  obtain ⟨Z₂, h₂, -, n₂⟩ := single_fit_surface_normal (data := data₂) hls' hs fu fv hd₂
    (fun r hr => by rw [(hpar r hr).1]; exact hu r hr) (fun r hr => by rw [(hpar r hr).2]; exact hv r hr)
  refine ⟨_, _, h₁, h₂, fun k hk => ?_⟩
  obtain ⟨b₁, x₁⟩ := n₁ k hk
  obtain ⟨b₂, x₂⟩ := n₂ k hk
  refine normal_nonexpansive (F := fun x r => surface (knotFn s.kvU) s.degreeU s.numU (knotFn s.kvV) s.degreeV s.numV x
      (at2 data₁ r 3 0) (at2 data₁ r 4 0))
    (d := fun r => at2 data₁ r k 0) (d' := fun r => at2 data₂ r k 0)
    (free := fun e => ∀ i < s.numU, ∀ j < s.numV, OnBoundary s i j → e (i * s.numV + j) = 0)
    (fun x e q r => surface_add_mul x e q _ _) x₁ (fun e he => ?_)
    (fun i hi j hj h => by dsimp only; rw [b₁ i hi j hj h, b₂ i hi j hj h]; ring)
  refine Eq.trans (sum_congr rfl fun r hr => ?_) (x₂ e he)
  rw [(hpar r (mem_range.1 hr)).1, (hpar r (mem_range.1 hr)).2]

/-- **C168.** A surface fit passes through all data at different nodes of a grid whose lines interlace the knots in both
directions. -/
theorem single_fit_surface_interpolates (hls : IsLstsq ls) (hs : ClampedSurface s)
    (fu : knotFn s.kvU s.degreeU < knotFn s.kvU (s.degreeU + 1))
    (fv : knotFn s.kvV s.degreeV < knotFn s.kvV (s.degreeV + 1)) (hd : Shape data m 5) {a b : ℕ → K} {i j : ℕ → ℕ}
    (ha : ∀ i, 1 ≤ i → i + 1 < s.numU → knotFn s.kvU i < a i ∧ a i < knotFn s.kvU (i + s.degreeU + 1))
    (ha' : ∀ i, 1 ≤ i → i + 2 < s.numU → a i < a (i + 1))
    (hb : ∀ j, 1 ≤ j → j + 1 < s.numV → knotFn s.kvV j < b j ∧ b j < knotFn s.kvV (j + s.degreeV + 1))
    (hb' : ∀ j, 1 ≤ j → j + 2 < s.numV → b j < b (j + 1))
    (hij : ∀ r < m, 1 ≤ i r ∧ i r + 1 < s.numU ∧ 1 ≤ j r ∧ j r + 1 < s.numV ∧
      at2 data r 3 0 = a (i r) ∧ at2 data r 4 0 = b (j r))
    (hne : ∀ r < m, ∀ q < m, i r = i q → j r = j q → r = q) :
    ∃ s', singleFitSurface ls s data = .ok s' ∧ ∀ k < 3, ∀ r < m,
      surface (knotFn s.kvU) s.degreeU s.numU (knotFn s.kvV) s.degreeV s.numV (coord s'.ctrlpts k) (at2 data r 3 0)
        (at2 data r 4 0) = at2 data r k 0 := by
  have su := hs.cu.size
  have sv := hs.cv.size
  have mu : Monotone (knotFn s.kvU) := monotone_knotFn hs.cu.mono
  have mv : Monotone (knotFn s.kvV) := monotone_knotFn hs.cv.mono
  have hu : ∀ r < m, knotFn s.kvU s.degreeU ≤ at2 data r 3 0 ∧ at2 data r 3 0 ≤ knotFn s.kvU s.numU := by
    intro r hr
    obtain ⟨i1, i2, -, -, e, -⟩ := hij r hr
    obtain ⟨a1, a2⟩ := ha _ i1 i2
    rw [e, hs.cu.left _ le_rfl, ← hs.cu.left 0 (by omega), hs.cu.right _ le_rfl (by omega)]
    exact ⟨le_trans (mu (by omega)) a1.le, a2.le.trans (mu (by omega))⟩
  have hv : ∀ r < m, knotFn s.kvV s.degreeV ≤ at2 data r 4 0 ∧ at2 data r 4 0 ≤ knotFn s.kvV s.numV := by
    intro r hr
    obtain ⟨-, -, j1, j2, -, e⟩ := hij r hr
    obtain ⟨b1, b2⟩ := hb _ j1 j2
    rw [e, hs.cv.left _ le_rfl, ← hs.cv.left 0 (by omega), hs.cv.right _ le_rfl (by omega)]
    exact ⟨le_trans (mv (by omega)) b1.le, b2.le.trans (mv (by omega))⟩
  obtain ⟨s', h, -, hopt⟩ := single_fit_surface_optimal hls hs fu fv hd hu hv
  refine ⟨s', h, fun k hk => ?_⟩
  classical
  obtain ⟨z, z0, hz⟩ := exists_interpolant_surface hs ha ha' hb hb' (coord s.ctrlpts k)
    (fun p q => if h : ∃ r < m, i r = p ∧ j r = q then at2 data h.choose k 0 else 0)
  have hzero : ∑ r ∈ range m, (surface (knotFn s.kvU) s.degreeU s.numU (knotFn s.kvV) s.degreeV s.numV z (at2 data r 3 0)
      (at2 data r 4 0) - at2 data r k 0) ^ 2 = 0 := by
    refine sum_eq_zero fun r hr => ?_
    have hr := mem_range.1 hr
    obtain ⟨i1, i2, j1, j2, e3, e4⟩ := hij r hr
    have hex : ∃ q < m, i q = i r ∧ j q = j r := ⟨r, hr, rfl, rfl⟩
    have e1 := hz (i r) (j r) i1 i2 j1 j2
    rw [dif_pos hex, hne _ hex.choose_spec.1 r hr hex.choose_spec.2.1 hex.choose_spec.2.2] at e1
    rw [e3, e4, e1]
    ring
  have hle := hopt k hk z z0
  rw [hzero] at hle
  intro r hr
  have := (sum_eq_zero_iff_of_nonneg fun r _ => sq_nonneg _).1 (le_antisymm hle (sum_nonneg fun r _ => sq_nonneg _)) r
    (mem_range.2 hr)
  exact sub_eq_zero.1 (pow_eq_zero_iff two_ne_zero |>.1 this)

end

/-! ## Concrete cases -/

/-- Two data points leave the three inner control points of `exWhitney` undetermined; the curve passes through both. -/
example (ls : ℕ → List (List ℚ) → List ℚ → List ℚ) (hls : IsLstsq ls) :
    ∃ c', singleFitCurve ls exWhitney [[1, 2, 3, 1/8], [2, 0, 1, 1/4]] = .ok c' ∧ ∀ k < 3, ∀ r < 2,
      curve (knotFn exWhitney.kv) 3 5 (coord c'.ctrlpts k) (at2 [[1, 2, 3, 1/8], [2, 0, 1, 1/4]] r 3 0)
        = at2 [[1, 2, 3, 1/8], [2, 0, 1, 1/4]] r k 0 :=
  single_fit_curve_interpolates (m := 2) hls exWhitney_clamped (by decide) (by decide +kernel)
    (by intro i h1 h2
        have : i < 4 := Nat.lt_of_succ_lt_succ h2
        interval_cases i <;> decide +kernel)
    ⟨rfl, by decide +kernel⟩ ⟨rfl, by decide +kernel⟩
    ⟨fun r => 2 * r + 1, by intro r hr; interval_cases r <;> decide +kernel,
      by intro r s h1 h2; obtain ⟨rfl, rfl⟩ : r = 0 ∧ s = 1 := by omega
         decide +kernel⟩

/-- With a repeated parameter nothing can pass through different data: the hypothesis matters. -/
example (z : ℕ → ℚ) : ¬ ∀ r < 2, curve (knotFn exWhitney.kv) 3 5 z (at2 [[1, 2, 3, 1/4], [2, 0, 1, 1/4]] r 3 0)
    = at2 [[1, 2, 3, 1/4], [2, 0, 1, 1/4]] r 0 0 := by
  intro h
  have h0 := h 0 (by norm_num)
  have h1 := h 1 (by norm_num)
  have e : at2 [[(1 : ℚ), 2, 3, 1/4], [2, 0, 1, 1/4]] 0 3 0 = at2 [[(1 : ℚ), 2, 3, 1/4], [2, 0, 1, 1/4]] 1 3 0 := rfl
  rw [e, h1] at h0
  exact absurd h0 (by decide +kernel)

/-- Moving the second of four data points by 3 moves no fitted value by more than 3. -/
example (ls ls' : ℕ → List (List ℚ) → List ℚ → List ℚ) (hls : IsLstsq ls) (hls' : IsLstsq ls') :
    ∃ c₁ c₂, singleFitCurve ls exWhitney exWhitneyData = .ok c₁ ∧
      singleFitCurve ls' exWhitney [[1, 2, 3, 1/4], [5, 0, 1, 1/2], [3, 3, 3, 3/4], [5, 0, 1, 1/4]] = .ok c₂ ∧
      ∀ k < 3, ∀ r < 4, |curve (knotFn exWhitney.kv) 3 5 (coord c₁.ctrlpts k) (at2 exWhitneyData r 3 0)
          - curve (knotFn exWhitney.kv) 3 5 (coord c₂.ctrlpts k) (at2 exWhitneyData r 3 0)| ≤ 3 := by
  obtain ⟨c₁, c₂, h₁, h₂, h⟩ := single_fit_curve_one_datum (c := exWhitney) (n := 5) (m := 4) (data₁ := exWhitneyData)
    (data₂ := [[1, 2, 3, 1/4], [5, 0, 1, 1/2], [3, 3, 3, 3/4], [5, 0, 1, 1/4]]) hls hls' exWhitney_clamped
    (by decide +kernel) ⟨rfl, by decide +kernel⟩ ⟨rfl, by decide +kernel⟩ ⟨rfl, by decide +kernel⟩
    (by intro r hr; interval_cases r <;> decide +kernel) (by intro r hr; interval_cases r <;> decide +kernel)
    (q := 1) (by norm_num)
    (by intro r hr hne k hk; interval_cases r <;> first | exact absurd rfl hne | (interval_cases k <;> decide +kernel))
  refine ⟨c₁, c₂, h₁, h₂, fun k hk r hr => (h k hk r hr).trans ?_⟩
  interval_cases k <;> decide +kernel

/-- The two inner control points of `exS` and two data points. -/
example (ls : ℕ → List (List ℚ) → List ℚ → List ℚ) (hls : IsLstsq ls) :
    ∃ s', singleFitSurface ls exS exSData = .ok s' ∧ ∀ k < 3, ∀ r < 2,
      surface (knotFn exS.kvU) exS.degreeU exS.numU (knotFn exS.kvV) exS.degreeV exS.numV (coord s'.ctrlpts k)
        (at2 exSData r 3 0) (at2 exSData r 4 0) = at2 exSData r k 0 :=
  single_fit_surface_interpolates (m := 2) hls exS_clamped (by decide +kernel) (by decide +kernel) ⟨rfl, by decide +kernel⟩
    (a := fun i => if i = 1 then 1/4 else 3/4) (b := fun _ => 1/2) (i := fun r => r + 1) (j := fun _ => 1)
    (by intro i h1 h2; have : i < 3 := Nat.lt_of_succ_lt_succ h2
        interval_cases i <;> decide +kernel)
    (by intro i h1 h2; have : i < 2 := Nat.lt_of_succ_lt_succ (Nat.lt_of_succ_lt_succ h2)
        interval_cases i; decide +kernel)
    (by intro i h1 h2; have : i < 2 := Nat.lt_of_succ_lt_succ h2
        interval_cases i; decide +kernel)
    (by intro i h1 h2; have : i < 1 := Nat.lt_of_succ_lt_succ (Nat.lt_of_succ_lt_succ h2)
        omega)
    (by intro r hr; interval_cases r <;> decide +kernel) (by intro r hr q hq h _; simpa using h)

/-- Pythagoras for four data points and the initial curve itself. -/
example (ls : ℕ → List (List ℚ) → List ℚ → List ℚ) (hls : IsLstsq ls) :
    ∃ c', singleFitCurve ls exWhitney exWhitneyData = .ok c' ∧
      ∑ r ∈ range 4, (curve (knotFn exWhitney.kv) 3 5 (coord exWhitney.ctrlpts 1) (at2 exWhitneyData r 3 0)
          - at2 exWhitneyData r 1 0) ^ 2
        = ∑ r ∈ range 4, (curve (knotFn exWhitney.kv) 3 5 (coord c'.ctrlpts 1) (at2 exWhitneyData r 3 0)
            - at2 exWhitneyData r 1 0) ^ 2
          + ∑ r ∈ range 4, (curve (knotFn exWhitney.kv) 3 5 (coord exWhitney.ctrlpts 1) (at2 exWhitneyData r 3 0)
            - curve (knotFn exWhitney.kv) 3 5 (coord c'.ctrlpts 1) (at2 exWhitneyData r 3 0)) ^ 2 := by
  obtain ⟨c', h, hp⟩ := single_fit_curve_projection (c := exWhitney) (n := 5) (m := 4) (data := exWhitneyData) hls
    exWhitney_clamped (by decide +kernel) ⟨rfl, by decide +kernel⟩ ⟨rfl, by decide +kernel⟩
    (by intro r hr; interval_cases r <;> decide +kernel)
  exact ⟨c', h, hp 1 (by norm_num) _ rfl rfl⟩

/-- Undetermined by two data points, but all solvers and starting points agree at the data. -/
example (ls ls' : ℕ → List (List ℚ) → List ℚ → List ℚ) (hls : IsLstsq ls) (hls' : IsLstsq ls') :=
  single_fit_curve_values (c₁ := exWhitney) (c₂ := { exWhitney with ctrlpts := exWhitneyTarget }) (n := 5) (m := 2)
    (data := [[1, 2, 3, 1/8], [2, 0, 1, 1/4]]) hls hls' exWhitney_clamped (by decide +kernel) rfl rfl
    ⟨rfl, by decide +kernel⟩ ⟨rfl, by decide +kernel⟩ (by intro k hk; interval_cases k <;> decide +kernel)
    ⟨rfl, by decide +kernel⟩ (by intro r hr; interval_cases r <;> decide +kernel)

/-- The difference of two data sets. -/
example (ls : ℕ → List (List ℚ) → List ℚ → List ℚ) (hls : IsLstsq ls) :=
  single_fit_curve_superposition (c := exWhitney) (n := 5) (m := 2) (P₁ := exWhitney.ctrlpts) (P₂ := exWhitneyTarget)
    (P₃ := List.replicate 5 [0, 0, 0]) (data₁ := [[1, 2, 3, 1/8], [2, 0, 1, 1/4]])
    (data₂ := [[0, 2, 5, 1/8], [2, 7, 1, 1/4]]) (data₃ := [[1, 0, -2, 1/8], [0, -7, 0, 1/4]]) hls exWhitney_clamped (by decide)
    (by decide +kernel) ⟨rfl, by decide +kernel⟩ ⟨rfl, by decide +kernel⟩ ⟨rfl, by decide +kernel⟩
    ⟨rfl, by decide +kernel⟩ ⟨rfl, by decide +kernel⟩ ⟨rfl, by decide +kernel⟩
    (by intro r hr; interval_cases r <;> decide +kernel) (by intro r hr; interval_cases r <;> decide +kernel)
    (by intro r hr; interval_cases r <;> decide +kernel) 1 (-1) (by intro k hk; interval_cases k <;> decide +kernel)
    (by intro k hk r hr; interval_cases r <;> interval_cases k <;> decide +kernel)

/-- Surface fits: Pythagoras, and two data sets. -/
example (ls : ℕ → List (List ℚ) → List ℚ → List ℚ) (hls : IsLstsq ls) :=
  single_fit_surface_projection (s := exS) (m := 2) (data := exSData) hls exS_clamped (by decide +kernel) (by decide +kernel)
    ⟨rfl, by decide +kernel⟩ (by intro r hr; interval_cases r <;> decide +kernel)
    (by intro r hr; interval_cases r <;> decide +kernel)

example (ls ls' : ℕ → List (List ℚ) → List ℚ → List ℚ) (hls : IsLstsq ls) (hls' : IsLstsq ls') :=
  single_fit_surface_nonexpansive (s := exS) (m := 2) (data₁ := exSData)
    (data₂ := [[1, 1, 6, 1/4, 1/2], [2, 5, -3, 3/4, 1/2]]) hls hls' exS_clamped (by decide +kernel) (by decide +kernel)
    ⟨rfl, by decide +kernel⟩ ⟨rfl, by decide +kernel⟩ (by intro r hr; interval_cases r <;> decide +kernel)
    (by intro r hr; interval_cases r <;> decide +kernel) (by intro r hr; interval_cases r <;> decide +kernel)

end PySpline
