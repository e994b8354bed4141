import Verif.Lemmas.Decay
import Verif.Lemmas.Inexact
import Verif.Props.FitUnique

/-!
# C177: a change of the data acts locally on a fit
-/

set_option linter.unusedSectionVars false

namespace PySpline

open Spec Finset

variable {K : Type} [Field K] [LinearOrder K] [IsStrictOrderedRing K]

section
variable {p n m : ℕ} {U : List K} {t : ℕ → K} {lam D : K}

/-- **C177.** Let the data determine the inner control points stably (moving them by `e` moves the curve at the parameters of
the data by at least `lam` in the mean square) and let `D` bound the weight of the data in the support of a basis function.
If two data sets with the same parameters differ only strictly between the knots `a` and `b`, then the fitted control points
differ less and less away from these knots: by the factor `D / (D + 2 lam)` in the square for every `2 p` indices.  The same
holds for the curves themselves. -/
theorem single_fit_curve_decay (hU : Clamped p n U) (hfirst : knotFn U p < knotFn U (p + 1))
    (hdom : ∀ r < m, knotFn U p ≤ t r ∧ t r ≤ knotFn U n) (hlam : 0 < lam) (hD0 : 0 ≤ D)
    (hD : ∀ i, 0 < i → i < n - 1 → ∑ r ∈ range m, Nclosed (knotFn U) p n i (t r) ≤ D)
    (hlow : ∀ e : ℕ → K, e 0 = 0 → e (n - 1) = 0 →
      lam * ∑ i ∈ range n, e i ^ 2 ≤ ∑ r ∈ range m, curve (knotFn U) p n e (t r) ^ 2)
    {ls₁ ls₂ : ℕ → List (List K) → List K → List K} (h₁ : IsLstsq ls₁) (h₂ : IsLstsq ls₂)
    {P₁ P₂ data₁ data₂ : List (List K)} (hP₁ : Shape P₁ n 3) (hP₂ : Shape P₂ n 3) (hd₁ : Shape data₁ m 4)
    (hd₂ : Shape data₂ m 4) (hends : ∀ k < 3, coord P₂ k 0 = coord P₁ k 0 ∧ coord P₂ k (n - 1) = coord P₁ k (n - 1))
    (hpar : ∀ r < m, at2 data₁ r 3 0 = t r ∧ at2 data₂ r 3 0 = t r) :
    ∃ c₁ c₂, singleFitCurve ls₁ ⟨p, P₁, U⟩ data₁ = .ok c₁ ∧ singleFitCurve ls₂ ⟨p, P₂, U⟩ data₂ = .ok c₂ ∧
      ∀ k < 3, ∀ a b : ℕ, (∀ r < m, t r ≤ knotFn U a ∨ knotFn U b ≤ t r → at2 data₂ r k 0 = at2 data₁ r k 0) →
        (∀ s, ∀ i < n, i + p + 1 + 2 * p * s ≤ a ∨ b + 2 * p * s ≤ i →
          lam * (coord c₂.ctrlpts k i - coord c₁.ctrlpts k i) ^ 2
            ≤ (D / (D + 2 * lam)) ^ s * ∑ r ∈ range m, (at2 data₂ r k 0 - at2 data₁ r k 0) ^ 2) ∧
        ∀ s q u, knotFn U p ≤ u → u ≤ knotFn U n →
          (q + p + 2 * p * s ≤ a ∧ u < knotFn U q) ∨ (b + p + 2 * p * s ≤ q ∧ knotFn U q ≤ u) →
          lam * (curve (knotFn U) p n (coord c₂.ctrlpts k) u - curve (knotFn U) p n (coord c₁.ctrlpts k) u) ^ 2
            ≤ (D / (D + 2 * lam)) ^ s * ∑ r ∈ range m, (at2 data₂ r k 0 - at2 data₁ r k 0) ^ 2 := by
  have hsz := hU.size
  have hV := monotone_knotFn hU.mono
  obtain ⟨c₁, f₁, -, -, -, n₁⟩ := single_fit_curve_normal (c := ⟨p, P₁, U⟩) h₁ hU hfirst hP₁ hd₁
    (fun r hr => by rw [(hpar r hr).1]; exact hdom r hr)
  obtain ⟨c₂, f₂, -, -, -, n₂⟩ := single_fit_curve_normal (c := ⟨p, P₂, U⟩) h₂ hU hfirst hP₂ hd₂
    (fun r hr => by rw [(hpar r hr).2]; exact hdom r hr)
  refine ⟨c₁, c₂, f₁, f₂, fun k hk a b hab => ?_⟩
  obtain ⟨a0, a1, ha⟩ := n₁ k hk
  obtain ⟨b0, b1, hb⟩ := n₂ k hk
  dsimp only at a0 a1 ha b0 b1 hb
  set y : ℕ → K := fun i => coord c₂.ctrlpts k i + (-1) * coord c₁.ctrlpts k i with hy
  have y0 : y 0 = 0 := by simp only [hy]; rw [a0, b0, (hends k hk).1]; ring
  have y1 : y (n - 1) = 0 := by simp only [hy]; rw [a1, b1, (hends k hk).2]; ring
  have hyv : ∀ i, y i = coord c₂.ctrlpts k i - coord c₁.ctrlpts k i := fun i => by simp only [hy]; ring
  have hyc : ∀ u, curve (knotFn U) p n y u
      = curve (knotFn U) p n (coord c₂.ctrlpts k) u - curve (knotFn U) p n (coord c₁.ctrlpts k) u := fun u => by
    rw [hy, curve_add_mul]; ring
  have hn : ∀ e : ℕ → K, e 0 = 0 → e (n - 1) = 0 → ∑ r ∈ range m, (curve (knotFn U) p n y (t r)
      - (at2 data₂ r k 0 - at2 data₁ r k 0)) * curve (knotFn U) p n e (t r) = 0 := fun e e0 e1 => by
    have := congrArg₂ (· - ·) (hb e e0 e1) (ha e e0 e1)
    rw [sub_zero, ← sum_sub_distrib] at this
    refine Eq.trans (sum_congr rfl fun r hr => ?_) this
    rw [(hpar r (mem_range.1 hr)).1, (hpar r (mem_range.1 hr)).2, hyc]
    ring
  have hg : ∀ r < m, ∀ i < n, i + (p + 1) ≤ a ∨ b ≤ i →
      (at2 data₂ r k 0 - at2 data₁ r k 0) * Nclosed (knotFn U) p n i (t r) = 0 := fun r hr i _ h => by
    by_cases hz : Nclosed (knotFn U) p n i (t r) = 0
    · rw [hz, mul_zero]
    · obtain ⟨s1, s2⟩ := Nclosed_support hV hz
      rw [hab r hr (h.imp (fun h => s2.trans (hV h)) fun h => (hV h).trans s1), sub_self, zero_mul]
  have main : ∀ s, ∀ i < n, i + p + 1 + 2 * p * s ≤ a ∨ b + 2 * p * s ≤ i →
      lam * y i ^ 2 ≤ (D / (D + 2 * lam)) ^ s * ∑ r ∈ range m, (at2 data₂ r k 0 - at2 data₁ r k 0) ^ 2 := by
    rintro s i hi (h | h)
    · exact curve_decay_left hU hdom hlam hD0 hD hlow y0 y1 hn (k := a - (p + 1))
        (fun r hr i hi h => hg r hr i hi (.inl (by omega))) hi (by omega)
    · exact curve_decay_right hU hdom hlam hD0 hD hlow y0 y1 hn (k := b)
        (fun r hr i hi h => hg r hr i hi (.inr h)) hi h
  refine ⟨fun s i hi h => by rw [← hyv]; exact main s i hi h, fun s q u u1 u2 h => ?_⟩
  rw [← hyc]
  refine curve_sq_le hU u1 u2 (fun i hi hz => ?_) hlam.le
  rcases h with ⟨h1, h2⟩ | ⟨h1, h2⟩
  · have : i < q := by
      by_contra hc
      exact absurd ((hV (not_lt.1 hc)).trans (Nclosed_support hV hz).1) (not_le.2 h2)
    exact main s i hi (.inl (by omega))
  · by_cases hc : q ≤ i + p
    · exact main s i hi (.inr (by omega))
    · -- only the last point of the domain
      have hlt : n - 1 = i := by
        unfold Nclosed at hz
        by_cases hu : u = knotFn U (n + p)
        · rw [if_pos hu] at hz
          by_contra hne
          exact hz (if_neg (by omega))
        · rw [if_neg hu] at hz
          exact absurd ((N_support hV hz).2.trans_le ((hV (show i + p + 1 ≤ q by omega)).trans h2)) (lt_irrefl _)
      rw [← hlt, y1]
      have hpos : 0 < D + 2 * lam := by linarith
      have := mul_nonneg (pow_nonneg (div_nonneg hD0 hpos.le) s)
        (sum_nonneg fun r (_ : r ∈ range m) => sq_nonneg (at2 data₂ r k 0 - at2 data₁ r k 0))
      simpa using this

/-- **C177.** Moving an end point of the curve, with the same data, acts locally in the same way: it moves the fitted control
points away from this end less and less. -/
theorem single_fit_curve_decay_ends (hU : Clamped p n U) (hfirst : knotFn U p < knotFn U (p + 1))
    (hdom : ∀ r < m, knotFn U p ≤ t r ∧ t r ≤ knotFn U n) (hlam : 0 < lam) (hD0 : 0 ≤ D)
    (hD : ∀ i < n, ∑ r ∈ range m, Nclosed (knotFn U) p n i (t r) ≤ D)
    (hlow : ∀ e : ℕ → K, e 0 = 0 → e (n - 1) = 0 →
      lam * ∑ i ∈ range n, e i ^ 2 ≤ ∑ r ∈ range m, curve (knotFn U) p n e (t r) ^ 2)
    {ls₁ ls₂ : ℕ → List (List K) → List K → List K} (h₁ : IsLstsq ls₁) (h₂ : IsLstsq ls₂)
    {P₁ P₂ data : List (List K)} (hP₁ : Shape P₁ n 3) (hP₂ : Shape P₂ n 3) (hd : Shape data m 4)
    (hpar : ∀ r < m, at2 data r 3 0 = t r) :
    ∃ c₁ c₂, singleFitCurve ls₁ ⟨p, P₁, U⟩ data = .ok c₁ ∧ singleFitCurve ls₂ ⟨p, P₂, U⟩ data = .ok c₂ ∧
      ∀ k < 3, ∀ s, ∀ i < n,
        (coord P₂ k (n - 1) = coord P₁ k (n - 1) → p + 1 + 2 * p * s ≤ i →
          lam * (coord c₂.ctrlpts k i - coord c₁.ctrlpts k i) ^ 2
            ≤ (D / (D + 2 * lam)) ^ s * (D * (coord P₂ k 0 - coord P₁ k 0) ^ 2)) ∧
        (coord P₂ k 0 = coord P₁ k 0 → i + p + 2 + 2 * p * s ≤ n →
          lam * (coord c₂.ctrlpts k i - coord c₁.ctrlpts k i) ^ 2
            ≤ (D / (D + 2 * lam)) ^ s * (D * (coord P₂ k (n - 1) - coord P₁ k (n - 1)) ^ 2)) := by
  have hsz := hU.size
  have hV := monotone_knotFn hU.mono
  have hpos : 0 < D + 2 * lam := by linarith
  obtain ⟨c₁, f₁, -, -, -, n₁⟩ := single_fit_curve_normal (c := ⟨p, P₁, U⟩) h₁ hU hfirst hP₁ hd
    (fun r hr => by rw [hpar r hr]; exact hdom r hr)
  obtain ⟨c₂, f₂, -, -, -, n₂⟩ := single_fit_curve_normal (c := ⟨p, P₂, U⟩) h₂ hU hfirst hP₂ hd
    (fun r hr => by rw [hpar r hr]; exact hdom r hr)
  refine ⟨c₁, c₂, f₁, f₂, fun k hk s => ?_⟩
  obtain ⟨a0, a1, ha⟩ := n₁ k hk
  obtain ⟨b0, b1, hb⟩ := n₂ k hk
  dsimp only at a0 a1 ha b0 b1 hb
  set z : ℕ → K := fun i => coord c₂.ctrlpts k i + (-1) * coord c₁.ctrlpts k i with hz
  have hzv : ∀ i, z i = coord c₂.ctrlpts k i - coord c₁.ctrlpts k i := fun i => by simp only [hz]; ring
  have hzc : ∀ u, curve (knotFn U) p n z u
      = curve (knotFn U) p n (coord c₂.ctrlpts k) u - curve (knotFn U) p n (coord c₁.ctrlpts k) u := fun u => by
    rw [hz, curve_add_mul]; ring
  have hn : ∀ e : ℕ → K, e 0 = 0 → e (n - 1) = 0 →
      ∑ r ∈ range m, curve (knotFn U) p n z (t r) * curve (knotFn U) p n e (t r) = 0 := fun e e0 e1 => by
    have := congrArg₂ (· - ·) (hb e e0 e1) (ha e e0 e1)
    rw [sub_zero, ← sum_sub_distrib] at this
    refine Eq.trans (sum_congr rfl fun r hr => ?_) this
    rw [hpar r (mem_range.1 hr), hzc]
    ring
  -- moving the end with index `E` is a change of the data
  have hsplit : ∀ E < n, ∀ u, curve (knotFn U) p n z u
      = curve (knotFn U) p n (fun i => if i = E then 0 else z i) u + z E * Nclosed (knotFn U) p n E u := fun E hE u => by
    unfold curve
    rw [← add_sum_erase _ _ (mem_range.2 hE), ← add_sum_erase _ (fun i => (if i = E then 0 else z i) * _) (mem_range.2 hE)]
    rw [if_pos rfl, zero_mul, zero_add, add_comm]
    congr 1
    exact sum_congr rfl fun i hi => by rw [if_neg (ne_of_mem_erase hi)]
  have hnorm : ∀ E < n, ∀ e : ℕ → K, e 0 = 0 → e (n - 1) = 0 →
      ∑ r ∈ range m, (curve (knotFn U) p n (fun i => if i = E then 0 else z i) (t r)
        - (-(z E * Nclosed (knotFn U) p n E (t r)))) * curve (knotFn U) p n e (t r) = 0 := fun E hE e e0 e1 => by
    refine Eq.trans (sum_congr rfl fun r _ => ?_) (hn e e0 e1)
    rw [hsplit E hE]
    ring
  have hsq : ∀ E < n, ∑ r ∈ range m, (-(z E * Nclosed (knotFn U) p n E (t r))) ^ 2 ≤ D * z E ^ 2 := fun E hE => by
    refine (sum_le_sum (g := fun r => z E ^ 2 * Nclosed (knotFn U) p n E (t r)) fun r hr => ?_).trans ?_
    · have hr := mem_range.1 hr
      have n0 := Nclosed_nonneg hV p n E (t r)
      have n1 : Nclosed (knotFn U) p n E (t r) ≤ 1 := by
        rw [← sum_Nclosed hU (hdom r hr).1 (hdom r hr).2]
        exact single_le_sum (f := fun i => Nclosed (knotFn U) p n i (t r)) (fun i _ => Nclosed_nonneg hV p n i (t r))
          (mem_range.2 hE)
      rw [neg_sq, mul_pow]
      exact mul_le_mul_of_nonneg_left (by nlinarith) (sq_nonneg _)
    · rw [← mul_sum, mul_comm]
      exact mul_le_mul_of_nonneg_right (hD E hE) (sq_nonneg _)
  have hθ := pow_nonneg (div_nonneg hD0 hpos.le) s
  intro i hi
  constructor
  · intro hend hs
    have z1 : z (n - 1) = 0 := by rw [hzv, a1, b1, hend, sub_self]
    have z0 : z 0 = coord P₂ k 0 - coord P₁ k 0 := by rw [hzv, a0, b0]
    have := curve_decay_right hU hdom hlam hD0 (fun i _ h => hD i (by omega)) hlow (y := fun i => if i = 0 then 0 else z i)
      (if_pos rfl) (by rw [z1, ite_self]) (hnorm 0 (by omega)) (k := p + 1) (fun r _ i _ h => by
        by_cases hz : Nclosed (knotFn U) p n i (t r) = 0
        · rw [hz, mul_zero]
        by_cases hz' : Nclosed (knotFn U) p n 0 (t r) = 0
        · rw [hz']; ring
        have := Nclosed_band hV hz hz'
        omega) hi hs
    rw [if_neg (by omega), hzv i] at this
    rw [← z0]
    exact this.trans (mul_le_mul_of_nonneg_left (hsq 0 (by omega)) hθ)
  · intro hend hs
    have z0 : z 0 = 0 := by rw [hzv, a0, b0, hend, sub_self]
    have z1 : z (n - 1) = coord P₂ k (n - 1) - coord P₁ k (n - 1) := by rw [hzv, a1, b1]
    have := curve_decay_left hU hdom hlam hD0 (fun i _ h => hD i (by omega)) hlow
      (y := fun i => if i = n - 1 then 0 else z i) (by rw [z0, ite_self]) (if_pos rfl)
      (hnorm (n - 1) (by omega)) (k := n - (p + 2)) (s := s) (fun r _ i _ h => by
        by_cases hz : Nclosed (knotFn U) p n i (t r) = 0
        · rw [hz, mul_zero]
        by_cases hz' : Nclosed (knotFn U) p n (n - 1) (t r) = 0
        · rw [hz']; ring
        have := Nclosed_band hV hz' hz
        omega) hi (by omega)
    rw [if_neg (by omega), hzv i] at this
    rw [← z1]
    exact this.trans (mul_le_mul_of_nonneg_left (hsq (n - 1) (by omega)) hθ)

end

section
variable {p n m : ℕ} {V t : ℕ → K}

/-- **C177.** Data at parameters where single basis functions are one (such as the inner knots of a curve of degree one) are
stable with `lam = 1`. -/
theorem stable_of_peaks (σ : ℕ → ℕ) (hσ : ∀ i, 0 < i → i < n - 1 → σ i < m ∧ ∀ j < n, Nclosed V p n j (t (σ i)) = if j = i then 1 else 0)
    (hinj : ∀ i j, 0 < i → i < n - 1 → 0 < j → j < n - 1 → σ i = σ j → i = j) {e : ℕ → K} (e0 : e 0 = 0)
    (e1 : e (n - 1) = 0) : 1 * ∑ i ∈ range n, e i ^ 2 ≤ ∑ r ∈ range m, curve V p n e (t r) ^ 2 := by
  have hval : ∀ i, 0 < i → i < n - 1 → curve V p n e (t (σ i)) = e i := fun i h0 h1 => by
    unfold curve
    rw [sum_congr rfl fun j hj => by rw [(hσ i h0 h1).2 j (mem_range.1 hj)], sum_eq_single i]
    · simp
    · intro j _ hj; simp [hj]
    · intro h; exact absurd (mem_range.2 (by omega)) h
  rw [one_mul]
  have h1 : ∑ i ∈ range n, e i ^ 2 = ∑ i ∈ (range n).filter (fun i => 0 < i ∧ i < n - 1), curve V p n e (t (σ i)) ^ 2 := by
    rw [sum_filter]
    refine sum_congr rfl fun i hi => ?_
    have hi := mem_range.1 hi
    by_cases h : 0 < i ∧ i < n - 1
    · rw [if_pos h, hval i h.1 h.2]
    · rw [if_neg h]
      rcases Nat.eq_zero_or_pos i with rfl | hp
      · rw [e0]; ring
      · rw [show i = n - 1 by omega, e1]; ring
  rw [h1, ← sum_image (f := fun r => curve V p n e (t r) ^ 2) (g := σ) fun i hi j hj h => by
    have hi := (mem_filter.1 hi).2
    have hj := (mem_filter.1 hj).2
    exact hinj i j hi.1 hi.2 hj.1 hj.2 h]
  refine sum_le_sum_of_subset_of_nonneg (fun r hr => ?_) fun r _ _ => sq_nonneg _
  obtain ⟨i, hi, rfl⟩ := mem_image.1 hr
  have hi := (mem_filter.1 hi).2
  exact mem_range.2 (hσ i hi.1 hi.2).1

/-- **C177.** Parameters that determine the curve are stable with some `lam`. -/
theorem stable_of_determined {U : List K} (hU : Clamped p n U) (hp : 1 ≤ p) (hdet : Determined p n (knotFn U) m t) :
    ∃ lam : K, 0 < lam ∧ ∀ e : ℕ → K, e 0 = 0 → e (n - 1) = 0 →
      lam * ∑ i ∈ range n, e i ^ 2 ≤ ∑ r ∈ range m, curve (knotFn U) p n e (t r) ^ 2 := by
  have hsz := hU.size
  obtain ⟨κ, hκ0, hκ⟩ := exists_stability (n := n) (m := m) (F := fun x r => curve (knotFn U) p n x (t r))
    (fun x e s r => curve_add_mul x e s _) (fun x y h r => curve_congr h _) (fun i => i = 0 ∨ i = n - 1)
    (fun e h0 hz => eq_zero_of_determined hU hp hdet (h0 0 (by omega) (Or.inl rfl)) (h0 (n - 1) (by omega) (Or.inr rfl)) hz)
  have hpos : 0 < n * κ + 1 := by positivity
  refine ⟨1 / (n * κ + 1), by positivity, fun e e0 e1 => ?_⟩
  have h := hκ e (by rintro i - (rfl | rfl) <;> assumption)
  have hs : ∑ i ∈ range n, e i ^ 2 ≤ n * (κ * ∑ r ∈ range m, curve (knotFn U) p n e (t r) ^ 2) := by
    refine (sum_le_sum fun i hi => h i (mem_range.1 hi)).trans ?_
    rw [sum_const, card_range, nsmul_eq_mul]
  have hF : 0 ≤ ∑ r ∈ range m, curve (knotFn U) p n e (t r) ^ 2 := sum_nonneg fun r _ => sq_nonneg _
  rw [div_mul_eq_mul_div, one_mul, div_le_iff₀ hpos]
  linarith

end

section
variable {s : Surface K} {m : ℕ} {u v : ℕ → K} {lam D : K}

local notation "srf" => surface (knotFn s.kvU) s.degreeU s.numU (knotFn s.kvV) s.degreeV s.numV

/-- **C177.** The same for surface fits, in each of the two directions: if the data differ only strictly between the knots
`a` and `b` of the first (second) direction, then the fitted control points differ less and less in the rows (columns) away from
these knots. -/
theorem single_fit_surface_decay (hs : ClampedSurface s)
    (fu : knotFn s.kvU s.degreeU < knotFn s.kvU (s.degreeU + 1))
    (fv : knotFn s.kvV s.degreeV < knotFn s.kvV (s.degreeV + 1))
    (hu : ∀ r < m, knotFn s.kvU s.degreeU ≤ u r ∧ u r ≤ knotFn s.kvU s.numU)
    (hv : ∀ r < m, knotFn s.kvV s.degreeV ≤ v r ∧ v r ≤ knotFn s.kvV s.numV) (hlam : 0 < lam) (hD0 : 0 ≤ D)
    (hD : ∀ i < s.numU, ∀ j < s.numV, ¬ OnBoundary s i j → ∑ r ∈ range m,
      Nclosed (knotFn s.kvU) s.degreeU s.numU i (u r) * Nclosed (knotFn s.kvV) s.degreeV s.numV j (v r) ≤ D)
    (hlow : ∀ e : ℕ → K, (∀ i < s.numU, ∀ j < s.numV, OnBoundary s i j → e (i * s.numV + j) = 0) →
      lam * ∑ i ∈ range s.numU, ∑ j ∈ range s.numV, e (i * s.numV + j) ^ 2 ≤ ∑ r ∈ range m, srf e (u r) (v r) ^ 2)
    {ls₁ ls₂ : ℕ → List (List K) → List K → List K} (h₁ : IsLstsq ls₁) (h₂ : IsLstsq ls₂)
    {P₁ P₂ data₁ data₂ : List (List K)} (hP₁ : Shape P₁ (s.numU * s.numV) 3) (hP₂ : Shape P₂ (s.numU * s.numV) 3)
    (hd₁ : Shape data₁ m 5) (hd₂ : Shape data₂ m 5)
    (hbd : ∀ k < 3, ∀ i < s.numU, ∀ j < s.numV, OnBoundary s i j →
      coord P₂ k (i * s.numV + j) = coord P₁ k (i * s.numV + j))
    (hpar : ∀ r < m, (at2 data₁ r 3 0 = u r ∧ at2 data₁ r 4 0 = v r) ∧ at2 data₂ r 3 0 = u r ∧ at2 data₂ r 4 0 = v r) :
    ∃ Z₁ Z₂, singleFitSurface ls₁ { s with ctrlpts := P₁ } data₁ = .ok { s with ctrlpts := Z₁ } ∧
      singleFitSurface ls₂ { s with ctrlpts := P₂ } data₂ = .ok { s with ctrlpts := Z₂ } ∧
      ∀ k < 3, ∀ a b : ℕ,
        ((∀ r < m, u r ≤ knotFn s.kvU a ∨ knotFn s.kvU b ≤ u r → at2 data₂ r k 0 = at2 data₁ r k 0) →
          ∀ w, ∀ i < s.numU, ∀ j < s.numV,
            i + s.degreeU + 1 + 2 * s.degreeU * w ≤ a ∨ b + 2 * s.degreeU * w ≤ i →
            lam * (coord Z₂ k (i * s.numV + j) - coord Z₁ k (i * s.numV + j)) ^ 2
              ≤ (D / (D + 2 * lam)) ^ w * ∑ r ∈ range m, (at2 data₂ r k 0 - at2 data₁ r k 0) ^ 2) ∧
        ((∀ r < m, v r ≤ knotFn s.kvV a ∨ knotFn s.kvV b ≤ v r → at2 data₂ r k 0 = at2 data₁ r k 0) →
          ∀ w, ∀ i < s.numU, ∀ j < s.numV,
            j + s.degreeV + 1 + 2 * s.degreeV * w ≤ a ∨ b + 2 * s.degreeV * w ≤ j →
            lam * (coord Z₂ k (i * s.numV + j) - coord Z₁ k (i * s.numV + j)) ^ 2
              ≤ (D / (D + 2 * lam)) ^ w * ∑ r ∈ range m, (at2 data₂ r k 0 - at2 data₁ r k 0) ^ 2) := by
  have su := hs.cu.size
  have sv := hs.cv.size
  have hVu := monotone_knotFn hs.cu.mono
  have hVv := monotone_knotFn hs.cv.mono
  have hcl : ∀ {P : List (List K)}, Shape P (s.numU * s.numV) 3 → ClampedSurface { s with ctrlpts := P } :=
    fun h => ⟨hs.cu, hs.cv, hs.du, hs.dv, h⟩
  obtain ⟨Z₁, f₁, -, n₁⟩ := single_fit_surface_normal (s := { s with ctrlpts := P₁ }) h₁ (hcl hP₁) fu fv hd₁
    (fun r hr => by rw [(hpar r hr).1.1]; exact hu r hr) (fun r hr => by rw [(hpar r hr).1.2]; exact hv r hr)
  obtain ⟨Z₂, f₂, -, n₂⟩ := single_fit_surface_normal (s := { s with ctrlpts := P₂ }) h₂ (hcl hP₂) fu fv hd₂
    (fun r hr => by rw [(hpar r hr).2.1]; exact hu r hr) (fun r hr => by rw [(hpar r hr).2.2]; exact hv r hr)
  refine ⟨Z₁, Z₂, f₁, f₂, fun k hk a b => ?_⟩
  obtain ⟨a0, ha⟩ := n₁ k hk
  obtain ⟨b0, hb⟩ := n₂ k hk
  dsimp only at a0 ha b0 hb
  have hdm : ∀ i j, j < s.numV → (i * s.numV + j) / s.numV = i ∧ (i * s.numV + j) % s.numV = j := fun i j hj => by
    constructor
    · rw [mul_comm, Nat.mul_add_div (by omega), Nat.div_eq_of_lt hj, add_zero]
    · rw [mul_comm, Nat.mul_add_mod, Nat.mod_eq_of_lt hj]
  set S := range s.numU ×ˢ range s.numV with hS
  set B : ℕ → ℕ × ℕ → K := fun r i =>
    Nclosed (knotFn s.kvU) s.degreeU s.numU i.1 (u r) * Nclosed (knotFn s.kvV) s.degreeV s.numV i.2 (v r) with hB
  have hmem : ∀ i : ℕ × ℕ, i ∈ S → i.1 < s.numU ∧ i.2 < s.numV := fun i hi => by
    rw [hS, mem_product, mem_range, mem_range] at hi
    exact hi
  -- coefficients indexed by pairs
  have hflat : ∀ (e : ℕ × ℕ → K) r, lin S B e r = srf (fun l => e (l / s.numV, l % s.numV)) (u r) (v r) := fun e r => by
    rw [← lin_surface]
    unfold lin
    refine sum_congr rfl fun i hi => ?_
    obtain ⟨d1, d2⟩ := hdm i.1 i.2 (hmem i hi).2
    dsimp only
    rw [d1, d2]
  have hfree : ∀ e : ℕ × ℕ → K, (∀ i ∈ S, OnBoundary s i.1 i.2 → e i = 0) → ∀ i < s.numU, ∀ j < s.numV, OnBoundary s i j →
      (fun l => e (l / s.numV, l % s.numV)) (i * s.numV + j) = 0 := fun e he i hi j hj hbd => by
    obtain ⟨d1, d2⟩ := hdm i j hj
    dsimp only
    rw [d1, d2]
    exact he (i, j) (mem_product.2 ⟨mem_range.2 hi, mem_range.2 hj⟩) hbd
  set z : ℕ → K := fun l => coord Z₂ k l + (-1) * coord Z₁ k l with hz
  have hzv : ∀ l, z l = coord Z₂ k l - coord Z₁ k l := fun i => by simp only [hz]; ring
  have main : ∀ (pos : ℕ × ℕ → ℕ) (p κ : ℕ), (∀ r < m, ∀ i ∈ S, ∀ j ∈ S, B r i ≠ 0 → B r j ≠ 0 → pos i ≤ pos j + p) →
      (∀ r < m, ∀ i ∈ S, κ ≤ pos i → (at2 data₂ r k 0 - at2 data₁ r k 0) * B r i = 0) → ∀ w, ∀ i < s.numU, ∀ j < s.numV,
      κ + 2 * p * w ≤ pos (i, j) → lam * (coord Z₂ k (i * s.numV + j) - coord Z₁ k (i * s.numV + j)) ^ 2
        ≤ (D / (D + 2 * lam)) ^ w * ∑ r ∈ range m, (at2 data₂ r k 0 - at2 data₁ r k 0) ^ 2 := by
    intro pos p κ hband hg w i hi j hj h
    rw [← hzv]
    refine decay_coeff (S := S) (B := B) (p := p) (k := κ) (fixed := fun i => OnBoundary s i.1 i.2) (pos := pos)
      (x := fun i => z (i.1 * s.numV + i.2)) hlam hD0
      (fun r _ i _ => mul_nonneg (Nclosed_nonneg hVu _ _ _ _) (Nclosed_nonneg hVv _ _ _ _)) ?_
      (fun i hi hf => hD i.1 (hmem i hi).1 i.2 (hmem i hi).2 hf) ?_ hband ?_ ?_ hg
      (mem_product.2 ⟨mem_range.2 hi, mem_range.2 hj⟩) h
    · intro r hr
      rw [hS, sum_product]
      simp only [hB]
      rw [← sum_mul_sum, sum_Nclosed hs.cu (hu r hr).1 (hu r hr).2, sum_Nclosed hs.cv (hv r hr).1 (hv r hr).2, one_mul]
    · intro e he
      have := hlow (fun l => e (l / s.numV, l % s.numV)) (hfree e he)
      rw [hS, sum_product]
      refine le_trans (le_of_eq ?_) (this.trans (le_of_eq (sum_congr rfl fun r _ => by rw [hflat])))
      congr 1
      refine sum_congr rfl fun i _ => sum_congr rfl fun j hj => ?_
      obtain ⟨d1, d2⟩ := hdm i j (mem_range.1 hj)
      rw [d1, d2]
    · intro i hi hf
      rw [hzv, a0 _ (hmem i hi).1 _ (hmem i hi).2 hf, b0 _ (hmem i hi).1 _ (hmem i hi).2 hf,
        hbd k hk _ (hmem i hi).1 _ (hmem i hi).2 hf, sub_self]
    · intro e he
      have := congrArg₂ (· - ·) (hb (fun l => e (l / s.numV, l % s.numV)) (hfree e he))
        (ha (fun l => e (l / s.numV, l % s.numV)) (hfree e he))
      rw [sub_zero, ← sum_sub_distrib] at this
      refine Eq.trans (sum_congr rfl fun r hr => ?_) this
      have hr := mem_range.1 hr
      rw [(hpar r hr).1.1, (hpar r hr).1.2, (hpar r hr).2.1, (hpar r hr).2.2, hflat e r,
        show lin S B (fun i => z (i.1 * s.numV + i.2)) r = srf z (u r) (v r) from lin_surface _ _ _ _ _ _ _ _ _ _,
        hz, surface_add_mul]
      ring
  have hne : ∀ r (i : ℕ × ℕ), B r i ≠ 0 → Nclosed (knotFn s.kvU) s.degreeU s.numU i.1 (u r) ≠ 0 ∧
      Nclosed (knotFn s.kvV) s.degreeV s.numV i.2 (v r) ≠ 0 := fun r i h => ⟨left_ne_zero_of_mul h, right_ne_zero_of_mul h⟩
  constructor
  · intro hab
    have hg : ∀ r < m, ∀ i : ℕ × ℕ, i.1 + (s.degreeU + 1) ≤ a ∨ b ≤ i.1 →
        (at2 data₂ r k 0 - at2 data₁ r k 0) * B r i = 0 := fun r hr i h => by
      by_cases h0 : B r i = 0
      · rw [h0, mul_zero]
      · obtain ⟨s1, s2⟩ := Nclosed_support hVu (hne r i h0).1
        rw [hab r hr (h.imp (fun h => s2.trans (hVu h)) fun h => (hVu h).trans s1), sub_self, zero_mul]
    rintro w i hi j hj (h | h)
    · refine main (fun i => a - (s.degreeU + 1) + 1 - i.1) s.degreeU 1 (fun r _ i _ j _ h1 h2 => ?_)
        (fun r hr i _ h => hg r hr i (.inl (by omega))) w i hi j hj (by dsimp only; omega)
      have := Nclosed_band hVu (hne r j h2).1 (hne r i h1).1
      omega
    · exact main (fun i => i.1) s.degreeU b (fun r _ i _ j _ h1 h2 => Nclosed_band hVu (hne r i h1).1 (hne r j h2).1)
        (fun r hr i _ h => hg r hr i (.inr h)) w i hi j hj h
  · intro hab
    have hg : ∀ r < m, ∀ i : ℕ × ℕ, i.2 + (s.degreeV + 1) ≤ a ∨ b ≤ i.2 →
        (at2 data₂ r k 0 - at2 data₁ r k 0) * B r i = 0 := fun r hr i h => by
      by_cases h0 : B r i = 0
      · rw [h0, mul_zero]
      · obtain ⟨s1, s2⟩ := Nclosed_support hVv (hne r i h0).2
        rw [hab r hr (h.imp (fun h => s2.trans (hVv h)) fun h => (hVv h).trans s1), sub_self, zero_mul]
    rintro w i hi j hj (h | h)
    · refine main (fun i => a - (s.degreeV + 1) + 1 - i.2) s.degreeV 1 (fun r _ i _ j _ h1 h2 => ?_)
        (fun r hr i _ h => hg r hr i (.inl (by omega))) w i hi j hj (by dsimp only; omega)
      have := Nclosed_band hVv (hne r j h2).2 (hne r i h1).2
      omega
    · exact main (fun i => i.2) s.degreeV b (fun r _ i _ j _ h1 h2 => Nclosed_band hVv (hne r i h1).2 (hne r j h2).2)
        (fun r hr i _ h => hg r hr i (.inr h)) w i hi j hj h

end

/-! ## Examples -/

section Examples

/-- A polygon with seven vertices. -/
def exDecayKnots : List ℚ := [0, 0, 1, 2, 3, 4, 5, 6, 6]

theorem exDecay_clamped : Clamped 1 7 exDecayKnots where
  len := by decide +kernel
  mono := by decide +kernel
  size := by decide
  left := by intro i hi; interval_cases i <;> decide +kernel
  right := by intro i h1 h2; interval_cases i <;> decide +kernel

/-- Data at the inner knots and half way between. -/
def exDecayPar (r : ℕ) : ℚ := (r + 1) / 2

def exDecayPts : List (List ℚ) := (List.range 7).map fun i => [(i : ℚ), 0, 0]

def exDecayData (h : ℚ) : List (List ℚ) :=
  (List.range 11).map fun r => [exDecayPar r, if r = 0 then h else 0, 0, exDecayPar r]

theorem exDecay_stable (e : ℕ → ℚ) (e0 : e 0 = 0) (e1 : e (7 - 1) = 0) :
    1 * ∑ i ∈ range 7, e i ^ 2 ≤ ∑ r ∈ range 11, curve (knotFn exDecayKnots) 1 7 e (exDecayPar r) ^ 2 :=
  stable_of_peaks (fun i => 2 * i - 1)
    (by intro i h1 h2
        have : i < 6 := h2
        interval_cases i <;> exact ⟨by decide, by decide +kernel⟩)
    (by intro i j h1 h2 h3 h4 h; omega) e0 e1

/-- Moving the first datum up by `8`: the vertices from the fourth on move by at most `6`, and the following ones even less. -/
example (ls : ℕ → List (List ℚ) → List ℚ → List ℚ) (hls : IsLstsq ls) :
    ∃ c₁ c₂, singleFitCurve ls ⟨1, exDecayPts, exDecayKnots⟩ (exDecayData 0) = .ok c₁ ∧
      singleFitCurve ls ⟨1, exDecayPts, exDecayKnots⟩ (exDecayData 8) = .ok c₂ ∧
      ∀ i, 4 ≤ i → i < 7 → |coord c₂.ctrlpts 1 i - coord c₁.ctrlpts 1 i| < 6 := by
  obtain ⟨c₁, c₂, h1, h2, h⟩ := single_fit_curve_decay (m := 11) (t := exDecayPar) (lam := 1) (D := 2) exDecay_clamped
    (by decide +kernel) (by decide +kernel) one_pos (by norm_num)
    (by intro i h1 h2
        have : i < 6 := h2
        interval_cases i <;> decide +kernel) exDecay_stable hls hls
    (P₁ := exDecayPts) (P₂ := exDecayPts) (data₁ := exDecayData 0) (data₂ := exDecayData 8)
    ⟨rfl, by decide +kernel⟩ ⟨rfl, by decide +kernel⟩ ⟨rfl, by decide +kernel⟩ ⟨rfl, by decide +kernel⟩
    (fun k _ => ⟨rfl, rfl⟩) (by decide +kernel)
  refine ⟨c₁, c₂, h1, h2, fun i hi hi' => ?_⟩
  have := (h 1 (by norm_num) 0 2 (by decide +kernel)).1 1 i hi' (.inr (by omega))
  have e : ∑ r ∈ range 11, (at2 (exDecayData 8) r 1 0 - at2 (exDecayData 0) r 1 0) ^ 2 = (64 : ℚ) := by decide +kernel
  rw [e] at this
  refine abs_lt_of_sq_lt_sq (lt_of_le_of_lt (b := (32 : ℚ)) ?_ (by norm_num)) (by norm_num)
  norm_num at this
  linarith

/-- Moving the first vertex. -/
example (ls : ℕ → List (List ℚ) → List ℚ → List ℚ) (hls : IsLstsq ls) (y : ℚ) :
    ∃ c₁ c₂, singleFitCurve ls ⟨1, exDecayPts, exDecayKnots⟩ (exDecayData 0) = .ok c₁ ∧
      singleFitCurve ls ⟨1, [0, y, 0] :: exDecayPts.tail, exDecayKnots⟩ (exDecayData 0) = .ok c₂ ∧
      (coord c₂.ctrlpts 1 4 - coord c₁.ctrlpts 1 4) ^ 2 ≤ y ^ 2 ∧ (coord c₂.ctrlpts 1 2 - coord c₁.ctrlpts 1 2) ^ 2 ≤ 2 * y ^ 2 := by
  obtain ⟨c₁, c₂, h1, h2, h⟩ := single_fit_curve_decay_ends (m := 11) (t := exDecayPar) (lam := 1) (D := 2) exDecay_clamped
    (by decide +kernel) (by decide +kernel) one_pos (by norm_num) (by decide +kernel) exDecay_stable hls hls
    (P₁ := exDecayPts) (P₂ := [0, y, 0] :: exDecayPts.tail) (data := exDecayData 0)
    ⟨rfl, by decide +kernel⟩ ⟨rfl, by
      intro row hrow
      rcases List.mem_cons.1 hrow with rfl | h
      · rfl
      · exact (show ∀ row ∈ exDecayPts.tail, row.length = 3 by decide +kernel) row h⟩ ⟨rfl, by decide +kernel⟩ (by decide +kernel)
  have e : coord ([0, y, 0] :: exDecayPts.tail) 1 0 - coord exDecayPts 1 0 = y := sub_zero y
  refine ⟨c₁, c₂, h1, h2, ?_, ?_⟩
  · have := (h 1 (by norm_num) 1 4 (by norm_num)).1 rfl (by norm_num)
    rw [e] at this
    norm_num at this
    linarith
  · have := (h 1 (by norm_num) 0 2 (by norm_num)).1 rfl (by norm_num)
    rw [e] at this
    norm_num at this
    linarith

/-- A cubic with three free control points and four data. -/
example : ∃ lam : ℚ, 0 < lam ∧ ∀ e : ℕ → ℚ, e 0 = 0 → e (5 - 1) = 0 →
    lam * ∑ i ∈ range 5, e i ^ 2 ≤ ∑ r ∈ range 4, curve (knotFn exWhitney.kv) 3 5 e (at2 exWhitneyData r 3 0) ^ 2 :=
  stable_of_determined exWhitney_clamped (by decide) exWhitney_determined

/-- A strip of bilinear patches with five inner control points. -/
def exDecaySurface : Surface ℚ where
  degreeU := 1
  degreeV := 1
  numU := 7
  numV := 3
  ctrlpts := (List.range 21).map fun i => [(i / 3 : ℕ), (i % 3 : ℕ), 0]
  kvU := exDecayKnots
  kvV := [0, 0, 1, 2, 2]

def exDecaySurfaceData (h : ℚ) : List (List ℚ) :=
  (List.range 11).map fun r => [exDecayPar r, 1, if r = 0 then h else 0, exDecayPar r, 1]

theorem exDecaySurface_clamped : ClampedSurface exDecaySurface where
  cu := exDecay_clamped
  cv := ⟨⟨by decide +kernel, by decide +kernel, by decide⟩, by intro i hi; have hi : i ≤ 1 := hi; interval_cases i <;> decide +kernel,
    by intro i h1 h2; have h1 : 3 ≤ i := h1; have h2 : i ≤ 4 := h2; interval_cases i <;> decide +kernel⟩
  du := by decide
  dv := by decide
  shape := ⟨rfl, by decide +kernel⟩

theorem exDecaySurface_stable (e : ℕ → ℚ) (he : ∀ i < 7, ∀ j < 3, OnBoundary exDecaySurface i j → e (i * 3 + j) = 0) :
    1 * ∑ i ∈ range 7, ∑ j ∈ range 3, e (i * 3 + j) ^ 2
      ≤ ∑ r ∈ range 11, surface (knotFn exDecayKnots) 1 7 (knotFn [0, 0, 1, 2, 2]) 1 3 e (exDecayPar r) 1 ^ 2 := by
  have h := exDecay_stable (fun i => e (i * 3 + 1)) (he 0 (by decide) 1 (by decide) (by unfold OnBoundary; decide))
    (he 6 (by decide) 1 (by decide) (by unfold OnBoundary; decide))
  refine le_trans (le_of_eq ?_) (h.trans (le_of_eq ?_))
  · congr 1
    refine sum_congr rfl fun i hi => ?_
    have hi := mem_range.1 hi
    rw [sum_range_succ, sum_range_succ, sum_range_one, he i hi 0 (by decide) (by unfold OnBoundary; omega),
      he i hi 2 (by decide) (.inr (.inr (.inr rfl)))]
    ring
  · refine sum_congr rfl fun r _ => ?_
    congr 1
    unfold surface curve
    refine sum_congr rfl fun i _ => ?_
    rw [sum_range_succ, sum_range_succ, sum_range_one,
      show Nclosed (knotFn [0, 0, 1, 2, 2]) 1 3 0 (1 : ℚ) = 0 by decide +kernel,
      show Nclosed (knotFn [0, 0, 1, 2, 2]) 1 3 1 (1 : ℚ) = 1 by decide +kernel,
      show Nclosed (knotFn [0, 0, 1, 2, 2]) 1 3 2 (1 : ℚ) = 0 by decide +kernel]
    ring

/-- Moving the first datum by `h` moves the inner control points from the fourth row on by at most `h / √2`. -/
example (ls : ℕ → List (List ℚ) → List ℚ → List ℚ) (hls : IsLstsq ls) (h : ℚ) :
    ∃ Z₁ Z₂, singleFitSurface ls exDecaySurface (exDecaySurfaceData 0) = .ok { exDecaySurface with ctrlpts := Z₁ } ∧
      singleFitSurface ls exDecaySurface (exDecaySurfaceData h) = .ok { exDecaySurface with ctrlpts := Z₂ } ∧
      ∀ i, 4 ≤ i → i < 7 → (coord Z₂ 2 (i * 3 + 1) - coord Z₁ 2 (i * 3 + 1)) ^ 2 ≤ h ^ 2 / 2 := by
  obtain ⟨Z₁, Z₂, h1, h2, hd⟩ := single_fit_surface_decay (m := 11) (u := exDecayPar) (v := fun _ => 1) (lam := 1) (D := 2)
    exDecaySurface_clamped (by decide +kernel) (by decide +kernel) (by decide +kernel) (by decide +kernel) one_pos
    (by norm_num) (by unfold OnBoundary; decide +kernel) exDecaySurface_stable hls hls
    (P₁ := exDecaySurface.ctrlpts) (P₂ := exDecaySurface.ctrlpts) (data₁ := exDecaySurfaceData 0)
    (data₂ := exDecaySurfaceData h) ⟨rfl, by decide +kernel⟩ ⟨rfl, by decide +kernel⟩ ⟨rfl, by decide +kernel⟩
    ⟨rfl, by intro row hrow; obtain ⟨r, -, rfl⟩ := List.mem_map.1 hrow; rfl⟩ (fun _ _ _ _ _ _ _ => rfl)
    (by intro r hr; interval_cases r <;> exact ⟨⟨rfl, rfl⟩, rfl, rfl⟩)
  refine ⟨Z₁, Z₂, h1, h2, fun i hi hi' => ?_⟩
  have := (hd 2 (by norm_num) 0 2).1 (by
    intro r hr hc
    by_cases h0 : r = 0
    · subst h0
      exact absurd hc (by decide +kernel)
    · interval_cases r <;> first | exact absurd rfl h0 | rfl) 1 i hi' 1 (by decide) (.inr (by show 2 + 2 * 1 * 1 ≤ i; omega))
  have e : ∑ r ∈ range 11, (at2 (exDecaySurfaceData h) r 2 0 - at2 (exDecaySurfaceData 0) r 2 0) ^ 2 = h ^ 2 := by
    rw [sum_eq_single 0]
    · show (h - 0) ^ 2 = h ^ 2
      ring
    · intro r hr h0
      have hr := mem_range.1 hr
      interval_cases r <;> first | exact absurd rfl h0 | exact show ((0 : ℚ) - 0) ^ 2 = 0 by norm_num
    · simp
  rw [e] at this
  norm_num at this
  exact this.trans (le_of_eq (by ring))

end Examples

end PySpline
