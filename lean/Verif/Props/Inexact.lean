import Verif.Lemmas.Inexact

/-!
# C171: fits with an inexact solver
-/

set_option linter.unusedSectionVars false

namespace PySpline

open Spec Finset

variable {K : Type} [Field K] [LinearOrder K] [IsStrictOrderedRing K]

section
variable {ls ls' : ℕ → List (List K) → List K → List K} {c c' : Curve K} {data : List (List K)} {m n : ℕ}

/-- **C171.** Whatever the solver returns: the squared distance at the data parameters between the curve computed with it
and the least-squares fit is the excess of its squared distance to the data over the least one. -/
theorem single_fit_curve_excess (hls : IsLstsq ls) (hU : Clamped c.degree n c.kv)
    (hfirst : knotFn c.kv c.degree < knotFn c.kv (c.degree + 1)) (hP : Shape c.ctrlpts n 3) (hd : Shape data m 4)
    (hdom : ∀ r < m, knotFn c.kv c.degree ≤ at2 data r 3 0 ∧ at2 data r 3 0 ≤ knotFn c.kv n)
    (h' : singleFitCurve ls' c data = .ok c') :
    ∃ c₀, singleFitCurve ls c data = .ok c₀ ∧ ∀ k < 3,
      ∑ r ∈ range m, (curve (knotFn c.kv) c.degree n (coord c'.ctrlpts k) (at2 data r 3 0)
          - curve (knotFn c.kv) c.degree n (coord c₀.ctrlpts k) (at2 data r 3 0)) ^ 2
        = ∑ r ∈ range m, (curve (knotFn c.kv) c.degree n (coord c'.ctrlpts k) (at2 data r 3 0) - at2 data r k 0) ^ 2
          - ∑ r ∈ range m, (curve (knotFn c.kv) c.degree n (coord c₀.ctrlpts k) (at2 data r 3 0) - at2 data r k 0) ^ 2 := by
  obtain ⟨c₀, h, hpy⟩ := single_fit_curve_projection hls hU hfirst hP hd hdom
  obtain ⟨-, -, -, e0, e1⟩ := single_fit_curve_keeps ls' c c' data h' hP.2
  rw [hP.1] at e1
  refine ⟨c₀, h, fun k hk => ?_⟩
  rw [hpy k hk (coord c'.ctrlpts k) (by unfold coord; rw [e0]) (by unfold coord; rw [e1])]
  ring

/-- **C171.** If the parameters determine the fit, the control points are stable: there is a constant for the knots and
the parameters alone such that, for all data, all starting points and all solvers, the squared error of every control
point is at most the constant times the excess of the squared distance; and if the normal equations hold up to `G`, the
control points are within `κ G` and the squared distance of the curves at the parameters is at most `κ G²`. -/
theorem single_fit_curve_stable {p : ℕ} {U : List K} {t : ℕ → K} (hU : Clamped p n U) (hp : 1 ≤ p)
    (hfirst : knotFn U p < knotFn U (p + 1)) (hdom : ∀ r < m, knotFn U p ≤ t r ∧ t r ≤ knotFn U n)
    (hdet : Determined p n (knotFn U) m t) :
    ∃ κ : K, 0 ≤ κ ∧ ∀ (ls ls' : ℕ → List (List K) → List K → List K) (c c' : Curve K) (data : List (List K)),
      IsLstsq ls → c.degree = p → c.kv = U → Shape c.ctrlpts n 3 → Shape data m 4 → (∀ r < m, at2 data r 3 0 = t r) →
      singleFitCurve ls' c data = .ok c' → ∃ c₀, singleFitCurve ls c data = .ok c₀ ∧ ∀ k < 3,
        let S (c : Curve K) := ∑ r ∈ range m, (curve (knotFn U) p n (coord c.ctrlpts k) (t r) - at2 data r k 0) ^ 2
        let G := ∑ i ∈ Ioo 0 (n - 1), |∑ r ∈ range m, (curve (knotFn U) p n (coord c'.ctrlpts k) (t r) - at2 data r k 0)
          * Nclosed (knotFn U) p n i (t r)|
        (∀ i < n, (coord c'.ctrlpts k i - coord c₀.ctrlpts k i) ^ 2 ≤ κ * (S c' - S c₀)) ∧
        (∀ i < n, |coord c'.ctrlpts k i - coord c₀.ctrlpts k i| ≤ κ * G) ∧ S c' - S c₀ ≤ κ * G ^ 2 := by
  have hsz := hU.size
  obtain ⟨κ, hκ0, hκ⟩ := exists_stability (n := n) (m := m) (F := fun x r => curve (knotFn U) p n x (t r))
    (fun x e s r => curve_add_mul x e s _) (fun x y h r => curve_congr h _) (fun i => i = 0 ∨ i = n - 1)
    (fun e h0 hz => eq_zero_of_determined hU hp hdet (h0 0 (by omega) (Or.inl rfl)) (h0 (n - 1) (by omega) (Or.inr rfl)) hz)
  refine ⟨κ, hκ0, ?_⟩
  rintro ls ls' c c' data hls rfl rfl hP hd hpar h'
  have hdom' : ∀ r < m, knotFn c.kv c.degree ≤ at2 data r 3 0 ∧ at2 data r 3 0 ≤ knotFn c.kv n := fun r hr => by
    rw [hpar r hr]; exact hdom r hr
  obtain ⟨c₀, h, hex⟩ := single_fit_curve_excess hls hU hfirst hP hd hdom' h'
  obtain ⟨c₁, h₁, -, -, -, hn⟩ := single_fit_curve_normal hls hU hfirst hP hd hdom'
  cases Except.ok.inj (h.symm.trans h₁)
  obtain ⟨-, -, -, e0, e1⟩ := single_fit_curve_keeps ls' c c' data h' hP.2
  rw [hP.1] at e1
  refine ⟨c₀, h, fun k hk => ?_⟩
  obtain ⟨f0, f1, hnk⟩ := hn k hk
  dsimp only
  have hS : ∀ (c₂ : Curve K), ∑ r ∈ range m, (curve (knotFn c.kv) c.degree n (coord c₂.ctrlpts k) (t r) - at2 data r k 0) ^ 2
      = ∑ r ∈ range m, (curve (knotFn c.kv) c.degree n (coord c₂.ctrlpts k) (at2 data r 3 0) - at2 data r k 0) ^ 2 :=
    fun c₂ => sum_congr rfl fun r hr => by rw [hpar r (mem_range.1 hr)]
  have hfree : ∀ i < n, i = 0 ∨ i = n - 1 → coord c'.ctrlpts k i + (-1) * coord c₀.ctrlpts k i = 0 := by
    rintro i - (rfl | rfl)
    · rw [f0]; unfold coord; rw [e0]; ring
    · rw [f1]; unfold coord; rw [e1]; ring
  rw [hS, hS, ← hex k hk]
  have hD : ∑ r ∈ range m, (curve (knotFn c.kv) c.degree n (coord c'.ctrlpts k) (at2 data r 3 0)
          - curve (knotFn c.kv) c.degree n (coord c₀.ctrlpts k) (at2 data r 3 0)) ^ 2
      = ∑ r ∈ range m, (curve (knotFn c.kv) c.degree n (coord c'.ctrlpts k) (t r)
          - curve (knotFn c.kv) c.degree n (coord c₀.ctrlpts k) (t r)) ^ 2 :=
    sum_congr rfl fun r hr => by rw [hpar r (mem_range.1 hr)]
  rw [hD]
  refine ⟨fun i hi => ?_, ?_⟩
  · have := hκ _ hfree i hi
    rw [show coord c'.ctrlpts k i + (-1) * coord c₀.ctrlpts k i = coord c'.ctrlpts k i - coord c₀.ctrlpts k i by ring] at this
    refine this.trans_eq ?_
    congr 1
    refine sum_congr rfl fun r _ => ?_
    rw [curve_add_mul]
    ring
  · refine normal_gradient (F := fun x r => curve (knotFn c.kv) c.degree n x (t r)) (d := fun r => at2 data r k 0)
      (by omega) (fun x e s r => curve_add_mul x e s _) hκ0 hκ (fun e he => ?_) hfree (sum_nonneg fun i _ => abs_nonneg _)
      (fun e he B hB => ?_)
    · refine Eq.trans (sum_congr rfl fun r hr => ?_) (hnk e (he 0 (by omega) (Or.inl rfl)) (he (n - 1) (by omega) (Or.inr rfl)))
      rw [hpar r (mem_range.1 hr)]
    · have h1 : ∑ r ∈ range m, (curve (knotFn c.kv) c.degree n (coord c'.ctrlpts k) (t r) - at2 data r k 0)
          * curve (knotFn c.kv) c.degree n e (t r) = ∑ i ∈ range n, e i * ∑ r ∈ range m,
            (curve (knotFn c.kv) c.degree n (coord c'.ctrlpts k) (t r) - at2 data r k 0)
              * Nclosed (knotFn c.kv) c.degree n i (t r) := by
        simp only [mul_sum]
        rw [sum_comm]
        refine sum_congr rfl fun r _ => ?_
        rw [show curve (knotFn c.kv) c.degree n e (t r) = ∑ i ∈ range n, e i * Nclosed (knotFn c.kv) c.degree n i (t r)
          from rfl, mul_sum]
        exact sum_congr rfl fun i _ => by ring
      rw [h1, sum_mul]
      have h2 : Ioo 0 (n - 1) ⊆ range n := fun i hi => mem_range.2 (by have := mem_Ioo.1 hi; omega)
      rw [← sum_subset h2 fun i hi hni => by
        have hi := mem_range.1 hi
        rw [he i hi (by by_contra hne; exact hni (mem_Ioo.2 (by omega))), zero_mul]]
      refine sum_le_sum fun i hi => ?_
      have hi := mem_Ioo.1 hi
      refine (le_abs_self _).trans ?_
      rw [abs_mul, mul_comm]
      exact mul_le_mul_of_nonneg_left (hB i (by omega)) (abs_nonneg _)

/-- **C171.** If the parameters determine the fit, the control points depend continuously on the data: with the same ends
and parameters, the squared change of every control point is at most a constant, for the knots and the parameters alone,
times the squared change of the data. -/
theorem single_fit_curve_continuous {p : ℕ} {U : List K} {t : ℕ → K} (hU : Clamped p n U) (hp : 1 ≤ p)
    (hfirst : knotFn U p < knotFn U (p + 1)) (hdom : ∀ r < m, knotFn U p ≤ t r ∧ t r ≤ knotFn U n)
    (hdet : Determined p n (knotFn U) m t) :
    ∃ κ : K, 0 ≤ κ ∧ ∀ (ls ls' : ℕ → List (List K) → List K → List K) (c₁ c₂ : Curve K) (data₁ data₂ : List (List K)),
      IsLstsq ls → IsLstsq ls' → c₁.degree = p → c₁.kv = U → c₂.degree = p → c₂.kv = U →
      Shape c₁.ctrlpts n 3 → Shape c₂.ctrlpts n 3 →
      (∀ k < 3, coord c₂.ctrlpts k 0 = coord c₁.ctrlpts k 0 ∧ coord c₂.ctrlpts k (n - 1) = coord c₁.ctrlpts k (n - 1)) →
      Shape data₁ m 4 → Shape data₂ m 4 → (∀ r < m, at2 data₁ r 3 0 = t r) → (∀ r < m, at2 data₂ r 3 0 = t r) →
      ∃ d₁ d₂, singleFitCurve ls c₁ data₁ = .ok d₁ ∧ singleFitCurve ls' c₂ data₂ = .ok d₂ ∧ ∀ k < 3, ∀ i < n,
        (coord d₁.ctrlpts k i - coord d₂.ctrlpts k i) ^ 2
          ≤ κ * ∑ r ∈ range m, (at2 data₁ r k 0 - at2 data₂ r k 0) ^ 2 := by
  have hsz := hU.size
  obtain ⟨κ, hκ0, hκ⟩ := exists_stability (n := n) (m := m) (F := fun x r => curve (knotFn U) p n x (t r))
    (fun x e s r => curve_add_mul x e s _) (fun x y h r => curve_congr h _) (fun i => i = 0 ∨ i = n - 1)
    (fun e h0 hz => eq_zero_of_determined hU hp hdet (h0 0 (by omega) (Or.inl rfl)) (h0 (n - 1) (by omega) (Or.inr rfl)) hz)
  refine ⟨κ, hκ0, ?_⟩
  rintro ls ls' c₁ c₂ data₁ data₂ hls hls' rfl rfl hdeg hkv hP₁ hP₂ hends hd₁ hd₂ par₁ par₂
  have hdom₁ : ∀ r < m, knotFn c₁.kv c₁.degree ≤ at2 data₁ r 3 0 ∧ at2 data₁ r 3 0 ≤ knotFn c₁.kv n := fun r hr => by
    rw [par₁ r hr]; exact hdom r hr
  obtain ⟨d₁, d₂, h₁, h₂, hne⟩ := single_fit_curve_nonexpansive hls hls' hU hfirst hdeg hkv hP₁ hP₂ hends hd₁ hd₂
    (fun r hr => by rw [par₁ r hr, par₂ r hr]) hdom₁
  refine ⟨d₁, d₂, h₁, h₂, fun k hk i hi => ?_⟩
  obtain ⟨-, -, -, e0, e1⟩ := single_fit_curve_keeps ls c₁ d₁ data₁ h₁ hP₁.2
  obtain ⟨-, -, -, f0, f1⟩ := single_fit_curve_keeps ls' c₂ d₂ data₂ h₂ hP₂.2
  rw [hP₁.1] at e1
  rw [hP₂.1] at f1
  obtain ⟨g0, g1⟩ := hends k hk
  have := hκ (fun i => coord d₁.ctrlpts k i + (-1) * coord d₂.ctrlpts k i) (by
    rintro i - (rfl | rfl)
    · have : coord d₁.ctrlpts k 0 = coord d₂.ctrlpts k 0 := by
        unfold coord at g0 ⊢; rw [e0, f0, g0]
      rw [this]; ring
    · have : coord d₁.ctrlpts k (n - 1) = coord d₂.ctrlpts k (n - 1) := by
        unfold coord at g1 ⊢; rw [e1, f1, g1]
      rw [this]; ring) i hi
  rw [show coord d₁.ctrlpts k i + (-1) * coord d₂.ctrlpts k i = coord d₁.ctrlpts k i - coord d₂.ctrlpts k i by ring] at this
  refine this.trans (mul_le_mul_of_nonneg_left (le_trans (le_of_eq (sum_congr rfl fun r hr => ?_)) (hne k hk)) hκ0)
  rw [curve_add_mul, par₁ r (mem_range.1 hr)]
  ring

end

section
variable {ls ls' : ℕ → List (List K) → List K → List K} {s s' : Surface K} {data : List (List K)} {m : ℕ}

/-- **C171.** The same for surfaces. -/
theorem single_fit_surface_excess (hls : IsLstsq ls) (hs : ClampedSurface s)
    (fu : knotFn s.kvU s.degreeU < knotFn s.kvU (s.degreeU + 1))
    (fv : knotFn s.kvV s.degreeV < knotFn s.kvV (s.degreeV + 1)) (hd : Shape data m 5)
    (hu : ∀ r < m, knotFn s.kvU s.degreeU ≤ at2 data r 3 0 ∧ at2 data r 3 0 ≤ knotFn s.kvU s.numU)
    (hv : ∀ r < m, knotFn s.kvV s.degreeV ≤ at2 data r 4 0 ∧ at2 data r 4 0 ≤ knotFn s.kvV s.numV)
    (h' : singleFitSurface ls' s data = .ok s') :
    ∃ s₀, singleFitSurface ls s data = .ok s₀ ∧ ∀ k < 3,
      let value (P : List (List K)) (r : ℕ) := surface (knotFn s.kvU) s.degreeU s.numU (knotFn s.kvV) s.degreeV s.numV
        (coord P k) (at2 data r 3 0) (at2 data r 4 0)
      ∑ r ∈ range m, (value s'.ctrlpts r - value s₀.ctrlpts r) ^ 2
        = ∑ r ∈ range m, (value s'.ctrlpts r - at2 data r k 0) ^ 2
          - ∑ r ∈ range m, (value s₀.ctrlpts r - at2 data r k 0) ^ 2 := by
  have su := hs.cu.size
  have sv := hs.cv.size
  obtain ⟨s₀, h, hpy⟩ := single_fit_surface_projection hls hs fu fv hd hu hv
  obtain ⟨-, -, hb⟩ := single_fit_surface_keeps ls' s s' data h' (by omega) (by omega) hs.shape
  refine ⟨s₀, h, fun k hk => ?_⟩
  dsimp only
  rw [hpy k hk (coord s'.ctrlpts k) (fun i hi j hj hij => by unfold coord; rw [hb i hi j hj hij])]
  ring

/-- **C171.** If the data contain a grid that determines the surface, its control points are stable, with a constant that
depends on the knots and the parameters only. -/
theorem single_fit_surface_stable {S : Surface K} {a b : ℕ → K} (hS : ClampedSurface S)
    (fu : knotFn S.kvU S.degreeU < knotFn S.kvU (S.degreeU + 1))
    (fv : knotFn S.kvV S.degreeV < knotFn S.kvV (S.degreeV + 1))
    (hu : ∀ r < m, knotFn S.kvU S.degreeU ≤ a r ∧ a r ≤ knotFn S.kvU S.numU)
    (hv : ∀ r < m, knotFn S.kvV S.degreeV ≤ b r ∧ b r ≤ knotFn S.kvV S.numV) (hdet : GridDetermined S m a b) :
    ∃ κ : K, 0 ≤ κ ∧ ∀ (ls ls' : ℕ → List (List K) → List K → List K) (P : List (List K)) (s' : Surface K)
      (data : List (List K)), IsLstsq ls → Shape P (S.numU * S.numV) 3 → Shape data m 5 →
      (∀ r < m, at2 data r 3 0 = a r ∧ at2 data r 4 0 = b r) →
      singleFitSurface ls' { S with ctrlpts := P } data = .ok s' →
      ∃ s₀, singleFitSurface ls { S with ctrlpts := P } data = .ok s₀ ∧ ∀ k < 3,
        let value (P : List (List K)) (r : ℕ) := surface (knotFn S.kvU) S.degreeU S.numU (knotFn S.kvV) S.degreeV S.numV
          (coord P k) (a r) (b r)
        let E := ∑ r ∈ range m, (value s'.ctrlpts r - at2 data r k 0) ^ 2
          - ∑ r ∈ range m, (value s₀.ctrlpts r - at2 data r k 0) ^ 2
        let G := ∑ i ∈ Ioo 0 (S.numU - 1), ∑ j ∈ Ioo 0 (S.numV - 1), |∑ r ∈ range m,
          (value s'.ctrlpts r - at2 data r k 0)
            * (Nclosed (knotFn S.kvU) S.degreeU S.numU i (a r) * Nclosed (knotFn S.kvV) S.degreeV S.numV j (b r))|
        (∀ i < S.numU * S.numV, (coord s'.ctrlpts k i - coord s₀.ctrlpts k i) ^ 2 ≤ κ * E) ∧
        (∀ i < S.numU * S.numV, |coord s'.ctrlpts k i - coord s₀.ctrlpts k i| ≤ κ * G) ∧ E ≤ κ * G ^ 2 := by
  have su := hS.cu.size
  have sv := hS.cv.size
  have hsplit : ∀ t < S.numU * S.numV, t / S.numV < S.numU ∧ t % S.numV < S.numV ∧ t / S.numV * S.numV + t % S.numV = t :=
    fun t ht => ⟨Nat.div_lt_of_lt_mul (by rw [mul_comm]; exact ht), Nat.mod_lt _ (by omega), Nat.div_add_mod' t S.numV⟩
  have hjoin : ∀ i < S.numU, ∀ j < S.numV, i * S.numV + j < S.numU * S.numV ∧ (i * S.numV + j) / S.numV = i ∧
      (i * S.numV + j) % S.numV = j := by
    intro i hi j hj
    have h1 : i * S.numV + j < (i + 1) * S.numV := by rw [add_mul, one_mul]; omega
    refine ⟨lt_of_lt_of_le h1 (Nat.mul_le_mul_right _ hi), ?_, ?_⟩
    · rw [mul_comm, Nat.mul_add_div (by omega), Nat.div_eq_of_lt hj, add_zero]
    · rw [mul_comm, Nat.mul_add_mod, Nat.mod_eq_of_lt hj]
  have hfree : ∀ e : ℕ → K, (∀ t < S.numU * S.numV, OnBoundary S (t / S.numV) (t % S.numV) → e t = 0) ↔
      ∀ i < S.numU, ∀ j < S.numV, OnBoundary S i j → e (i * S.numV + j) = 0 := by
    intro e
    constructor
    · intro h i hi j hj hb
      obtain ⟨h1, h2, h3⟩ := hjoin i hi j hj
      exact h _ h1 (by rw [h2, h3]; exact hb)
    · intro h t ht hb
      obtain ⟨h1, h2, h3⟩ := hsplit t ht
      have := h _ h1 _ h2 hb
      rwa [h3] at this
  obtain ⟨κ, hκ0, hκ⟩ := exists_stability (n := S.numU * S.numV) (m := m)
    (F := fun x r => surface (knotFn S.kvU) S.degreeU S.numU (knotFn S.kvV) S.degreeV S.numV x (a r) (b r))
    (fun x e q r => surface_add_mul x e q _ _) (fun x y h r => surface_local h _ _)
    (fun t => OnBoundary S (t / S.numV) (t % S.numV))
    (fun e h0 hz t ht => by
      obtain ⟨h1, h2, h3⟩ := hsplit t ht
      have := surface_eq_zero_of_determined hS hdet ((hfree e).1 h0) hz _ h1 _ h2
      rwa [h3] at this)
  refine ⟨κ, hκ0, ?_⟩
  intro ls ls' P s' data hls hP hd hpar h'
  set s : Surface K := { S with ctrlpts := P } with hs_def
  have hs : ClampedSurface s := { cu := hS.cu, cv := hS.cv, du := hS.du, dv := hS.dv, shape := hP }
  have hu' : ∀ r < m, knotFn s.kvU s.degreeU ≤ at2 data r 3 0 ∧ at2 data r 3 0 ≤ knotFn s.kvU s.numU := fun r hr => by
    rw [(hpar r hr).1]; exact hu r hr
  have hv' : ∀ r < m, knotFn s.kvV s.degreeV ≤ at2 data r 4 0 ∧ at2 data r 4 0 ≤ knotFn s.kvV s.numV := fun r hr => by
    rw [(hpar r hr).2]; exact hv r hr
  obtain ⟨s₀, h, hex⟩ := single_fit_surface_excess hls hs fu fv hd hu' hv' h'
  obtain ⟨Z, h₁, hZ, hn⟩ := single_fit_surface_normal hls hs fu fv hd hu' hv'
  cases Except.ok.inj (h.symm.trans h₁)
  obtain ⟨-, -, hb⟩ := single_fit_surface_keeps ls' s s' data h' (by show 0 < S.numU; omega) (by show 0 < S.numV; omega) hP
  refine ⟨_, h, fun k hk => ?_⟩
  obtain ⟨hbk, hnk⟩ := hn k hk
  have hexk := hex k hk
  dsimp only at hexk hbk hnk hb ⊢
  have hval : ∀ (P : List (List K)) (d : ℕ → K),
      ∑ r ∈ range m, (surface (knotFn S.kvU) S.degreeU S.numU (knotFn S.kvV) S.degreeV S.numV (coord P k)
          (at2 data r 3 0) (at2 data r 4 0) - d r) ^ 2
        = ∑ r ∈ range m, (surface (knotFn S.kvU) S.degreeU S.numU (knotFn S.kvV) S.degreeV S.numV (coord P k)
          (a r) (b r) - d r) ^ 2 :=
    fun P d => sum_congr rfl fun r hr => by rw [(hpar r (mem_range.1 hr)).1, (hpar r (mem_range.1 hr)).2]
  have hE : ∑ r ∈ range m, (surface (knotFn S.kvU) S.degreeU S.numU (knotFn S.kvV) S.degreeV S.numV (coord s'.ctrlpts k)
        (a r) (b r) - at2 data r k 0) ^ 2
      - ∑ r ∈ range m, (surface (knotFn S.kvU) S.degreeU S.numU (knotFn S.kvV) S.degreeV S.numV (coord Z k)
        (a r) (b r) - at2 data r k 0) ^ 2
      = ∑ r ∈ range m, (surface (knotFn S.kvU) S.degreeU S.numU (knotFn S.kvV) S.degreeV S.numV (coord s'.ctrlpts k)
          (a r) (b r)
        - surface (knotFn S.kvU) S.degreeU S.numU (knotFn S.kvV) S.degreeV S.numV (coord Z k) (a r) (b r)) ^ 2 := by
    rw [← hval s'.ctrlpts, ← hval Z]
    refine hexk.symm.trans (sum_congr rfl fun r hr => ?_)
    rw [(hpar r (mem_range.1 hr)).1, (hpar r (mem_range.1 hr)).2]
  rw [hE]
  have hz : ∀ t < S.numU * S.numV, OnBoundary S (t / S.numV) (t % S.numV) →
      coord s'.ctrlpts k t + (-1) * coord Z k t = 0 := by
    refine (hfree fun t => coord s'.ctrlpts k t + (-1) * coord Z k t).2 fun i hi j hj hij => ?_
    have e1 : coord s'.ctrlpts k (i * S.numV + j) = coord P k (i * S.numV + j) := by
      unfold coord; rw [hb i hi j hj hij]
    rw [e1, hbk i hi j hj hij]
    ring
  refine ⟨fun i hi => ?_, ?_⟩
  · have := hκ _ hz i hi
    rw [show coord s'.ctrlpts k i + (-1) * coord Z k i = coord s'.ctrlpts k i - coord Z k i by ring] at this
    refine this.trans_eq ?_
    congr 1
    refine sum_congr rfl fun r _ => ?_
    rw [surface_add_mul]
    ring
  · refine normal_gradient
      (F := fun x r => surface (knotFn S.kvU) S.degreeU S.numU (knotFn S.kvV) S.degreeV S.numV x (a r) (b r))
      (d := fun r => at2 data r k 0) (Nat.mul_pos (by omega) (by omega)) (fun x e q r => surface_add_mul x e q _ _) hκ0 hκ
      (fun e he => ?_) hz (sum_nonneg fun i _ => sum_nonneg fun j _ => abs_nonneg _) (fun e he B hB => ?_)
    · refine Eq.trans (sum_congr rfl fun r hr => ?_) (hnk e ((hfree e).1 he))
      rw [(hpar r (mem_range.1 hr)).1, (hpar r (mem_range.1 hr)).2]
    · have h1 : ∑ r ∈ range m, (surface (knotFn S.kvU) S.degreeU S.numU (knotFn S.kvV) S.degreeV S.numV
            (coord s'.ctrlpts k) (a r) (b r) - at2 data r k 0)
          * surface (knotFn S.kvU) S.degreeU S.numU (knotFn S.kvV) S.degreeV S.numV e (a r) (b r)
          = ∑ i ∈ range S.numU, ∑ j ∈ range S.numV, e (i * S.numV + j) * ∑ r ∈ range m,
            (surface (knotFn S.kvU) S.degreeU S.numU (knotFn S.kvV) S.degreeV S.numV (coord s'.ctrlpts k) (a r) (b r)
              - at2 data r k 0)
              * (Nclosed (knotFn S.kvU) S.degreeU S.numU i (a r) * Nclosed (knotFn S.kvV) S.degreeV S.numV j (b r)) := by
        simp only [mul_sum]
        rw [sum_congr rfl fun i _ => sum_comm, sum_comm]
        refine sum_congr rfl fun r _ => ?_
        rw [show surface (knotFn S.kvU) S.degreeU S.numU (knotFn S.kvV) S.degreeV S.numV e (a r) (b r)
          = ∑ i ∈ range S.numU, ∑ j ∈ range S.numV, e (i * S.numV + j) * Nclosed (knotFn S.kvU) S.degreeU S.numU i (a r)
            * Nclosed (knotFn S.kvV) S.degreeV S.numV j (b r) from rfl, mul_sum]
        refine sum_congr rfl fun i _ => ?_
        rw [mul_sum]
        exact sum_congr rfl fun j _ => by ring
      rw [h1, sum_mul]
      have he' := (hfree e).1 he
      have h2 : Ioo 0 (S.numU - 1) ⊆ range S.numU := fun i hi => mem_range.2 (by have := mem_Ioo.1 hi; omega)
      have h3 : Ioo 0 (S.numV - 1) ⊆ range S.numV := fun i hi => mem_range.2 (by have := mem_Ioo.1 hi; omega)
      rw [← sum_subset h2 fun i hi hni => by
        have hi := mem_range.1 hi
        refine sum_eq_zero fun j hj => ?_
        rw [he' i hi j (mem_range.1 hj) (by
          by_contra hne
          unfold OnBoundary at hne
          exact hni (mem_Ioo.2 (by omega))), zero_mul]]
      refine sum_le_sum fun i hi => ?_
      have hi := mem_Ioo.1 hi
      rw [sum_mul, ← sum_subset h3 fun j hj hnj => by
        have hj := mem_range.1 hj
        rw [he' i (by omega) j hj (by
          by_contra hne
          unfold OnBoundary at hne
          exact hnj (mem_Ioo.2 (by omega))), zero_mul]]
      refine sum_le_sum fun j hj => ?_
      have hj := mem_Ioo.1 hj
      refine (le_abs_self _).trans ?_
      rw [abs_mul, mul_comm]
      exact mul_le_mul_of_nonneg_left (hB _ (hjoin i (by omega) j (by omega)).1) (abs_nonneg _)

end

/-! ## Concrete cases -/

/-- A solver that does not even try. -/
def exLazy (n : ℕ) (_ : List (List ℚ)) (_ : List ℚ) : List ℚ := List.replicate n 0

/-- The lazy solver returns the curve with inner control points at the origin; by how much it misses the fit at the four
data parameters can be read off the two sums of squares. -/
example (ls : ℕ → List (List ℚ) → List ℚ → List ℚ) (hls : IsLstsq ls) : ∃ c' c₀,
    singleFitCurve exLazy exWhitney exWhitneyData = .ok c' ∧ c'.ctrlpts.getD 1 [] = [0, 0, 0] ∧
    singleFitCurve ls exWhitney exWhitneyData = .ok c₀ ∧ ∀ k < 3,
      ∑ r ∈ range 4, (curve (knotFn exWhitney.kv) 3 5 (coord c'.ctrlpts k) (at2 exWhitneyData r 3 0)
          - curve (knotFn exWhitney.kv) 3 5 (coord c₀.ctrlpts k) (at2 exWhitneyData r 3 0)) ^ 2
        = ∑ r ∈ range 4, (curve (knotFn exWhitney.kv) 3 5 (coord c'.ctrlpts k) (at2 exWhitneyData r 3 0)
            - at2 exWhitneyData r k 0) ^ 2
          - ∑ r ∈ range 4, (curve (knotFn exWhitney.kv) 3 5 (coord c₀.ctrlpts k) (at2 exWhitneyData r 3 0)
            - at2 exWhitneyData r k 0) ^ 2 := by
  obtain ⟨c', h', hc⟩ : ∃ c', singleFitCurve exLazy exWhitney exWhitneyData = .ok c' ∧ c'.ctrlpts.getD 1 [] = [0, 0, 0] :=
    ⟨{ exWhitney with ctrlpts := [[0, 0, 0], [0, 0, 0], [0, 0, 0], [0, 0, 0], [4, 0, 0]] }, by decide +kernel, by decide +kernel⟩
  obtain ⟨c₀, h, hex⟩ := single_fit_curve_excess (c := exWhitney) (n := 5) (m := 4) (data := exWhitneyData) hls
    exWhitney_clamped (by decide +kernel) ⟨rfl, by decide +kernel⟩ ⟨rfl, by decide +kernel⟩
    (by intro r hr; interval_cases r <;> decide +kernel) h'
  exact ⟨c', c₀, h', hc, h, hex⟩

/-- The parameters of these data have a constant. -/
example := single_fit_curve_stable (m := 4) exWhitney_clamped (by decide) (by decide +kernel)
  (by intro r hr; interval_cases r <;> decide +kernel) exWhitney_determined
example := single_fit_curve_continuous (m := 4) exWhitney_clamped (by decide) (by decide +kernel)
  (by intro r hr; interval_cases r <;> decide +kernel) exWhitney_determined

/-- One inner control point and one datum: the fit passes through the datum, the error of the control point is 2, the
excess is 1 and the normal equation is missed by 1/2; no constant below 4 would do. -/
example : singleFitCurve (fun _ _ _ => [2]) ⟨2, [[0, 0, 0], [7, 7, 7], [0, 0, 0]], [0, 0, 0, 1, 1, 1]⟩ [[1, 1, 1, 1/2]]
      = .ok (⟨2, [[0, 0, 0], [2, 2, 2], [0, 0, 0]], [0, 0, 0, 1, 1, 1]⟩ : Curve ℚ) ∧
    curve (knotFn [0, 0, 0, 1, 1, 1]) 2 3 (coord [[0, 0, 0], [2, 2, 2], [0, 0, 0]] 0) (1/2) = (1 : ℚ) ∧
    singleFitCurve exLazy ⟨2, [[0, 0, 0], [7, 7, 7], [0, 0, 0]], [0, 0, 0, 1, 1, 1]⟩ [[1, 1, 1, 1/2]]
      = .ok ⟨2, [[0, 0, 0], [0, 0, 0], [0, 0, 0]], [0, 0, 0, 1, 1, 1]⟩ ∧
    curve (knotFn [0, 0, 0, 1, 1, 1]) 2 3 (coord [[0, 0, 0], [0, 0, 0], [0, 0, 0]] 0) (1/2) = (0 : ℚ) ∧
    |((0 : ℚ) - 1) * Nclosed (knotFn [0, 0, 0, 1, 1, 1]) 2 3 1 (1/2)| = 1/2 := by decide +kernel

/-- Without data nothing is determined: both curves are least-squares fits and their control points differ. -/
example : singleFitCurve exLazy ⟨2, [[0, 0, 0], [7, 7, 7], [0, 0, 0]], [0, 0, 0, 1, 1, 1]⟩ []
    ≠ singleFitCurve (fun _ _ _ => [2]) (⟨2, [[0, 0, 0], [7, 7, 7], [0, 0, 0]], [0, 0, 0, 1, 1, 1]⟩ : Curve ℚ) [] := by
  decide +kernel

/-- The two inner control points of `exS`. -/
example := single_fit_surface_stable (m := 2) exS_clamped (by decide +kernel) (by decide +kernel)
  (by intro r hr; interval_cases r <;> decide +kernel) (by intro r hr; interval_cases r <;> decide +kernel) exS_determined

end PySpline
