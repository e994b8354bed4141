import Verif.Props.Variation
import Verif.Lemmas.CurveAux
import Verif.Lemmas.StartValues

/-!
# Spline approximation of smooth functions: a quasi-interpolant of full order

The control point `i` is the blossom of a Taylor polynomial at a knot of the support of the basis function `i`.
-/

set_option linter.unusedSectionVars false

namespace PySpline

open Spec Finset

section
variable {K : Type} [Field K] [LinearOrder K] [IsStrictOrderedRing K]

/-- The blossom of `(x - τ) ^ k` at the points `x 0, ..., x (p - 1)`. -/
noncomputable def polar (p : ℕ) (x : ℕ → K) (τ : K) (k : ℕ) : K :=
  (∑ s ∈ (range p).powersetCard k, ∏ j ∈ s, (x j - τ)) / (p.choose k : K)

theorem polar_zero (p : ℕ) (x : ℕ → K) (τ : K) : polar p x τ 0 = 1 := by
  simp [polar]

/-- The blossom of a power is bounded by the power of the distance. -/
theorem abs_polar_le {p : ℕ} {x : ℕ → K} {τ h : K} (hx : ∀ j < p, |x j - τ| ≤ h) {k : ℕ} (hk : k ≤ p) :
    |polar p x τ k| ≤ h ^ k := by
  have hch : (0 : K) < p.choose k := by
    have := Nat.choose_pos hk
    positivity
  unfold polar
  rw [abs_div, abs_of_pos hch, div_le_iff₀ hch]
  calc |∑ s ∈ (range p).powersetCard k, ∏ j ∈ s, (x j - τ)|
      ≤ ∑ s ∈ (range p).powersetCard k, |∏ j ∈ s, (x j - τ)| := abs_sum_le_sum_abs _ _
    _ ≤ ∑ _s ∈ (range p).powersetCard k, h ^ k := sum_le_sum fun s hs => by
        obtain ⟨h1, h2⟩ := mem_powersetCard.1 hs
        rw [abs_prod]
        calc ∏ j ∈ s, |x j - τ| ≤ ∏ _j ∈ s, h :=
              prod_le_prod (fun j _ => abs_nonneg _) fun j hj => hx j (mem_range.1 (h1 hj))
          _ = _ := by rw [prod_const, h2]
    _ = _ := by rw [sum_const, card_powersetCard, card_range, nsmul_eq_mul, mul_comm]

theorem prod_X_add_C_polar (p : ℕ) (x : ℕ → K) (τ : K) :
    ∏ j ∈ range p, (Polynomial.X + Polynomial.C (x j - τ))
      = ∑ k ∈ range (p + 1), Polynomial.C (p.choose k * polar p x τ k) * Polynomial.X ^ (p - k) := by
  have h := Multiset.prod_X_add_C_eq_sum_esymm ((Finset.range p).val.map fun j => x j - τ)
  rw [Multiset.map_map, Multiset.card_map, Finset.card_val, card_range] at h
  refine h.trans (sum_congr rfl fun k hk => ?_)
  rw [Finset.esymm_map_val]
  have hch : (p.choose k : K) ≠ 0 := by
    have := Nat.choose_pos (Nat.lt_succ_iff.1 (mem_range.1 hk))
    positivity
  rw [polar, mul_div_cancel₀ _ hch]

/-- Changing the centre of the powers. -/
theorem polar_shift (p : ℕ) (x : ℕ → K) (τ σ : K) {j : ℕ} (hj : j ≤ p) :
    polar p x σ j = ∑ k ∈ range (p + 1), (j.choose k : K) * (τ - σ) ^ (j - k) * polar p x τ k := by
  have h1 := prod_X_add_C_polar p x σ
  have h2 : ∏ i ∈ range p, (Polynomial.X + Polynomial.C (x i - σ))
      = ∑ k ∈ range (p + 1), Polynomial.C (p.choose k * polar p x τ k)
        * (Polynomial.X + Polynomial.C (τ - σ)) ^ (p - k) := by
    have := congrArg (fun f => Polynomial.comp f (Polynomial.X + Polynomial.C (τ - σ))) (prod_X_add_C_polar p x τ)
    rw [Polynomial.prod_comp, Polynomial.sum_comp] at this
    simp only [Polynomial.add_comp, Polynomial.X_comp, Polynomial.C_comp, Polynomial.mul_comp, Polynomial.pow_comp] at this
    rw [← this]
    refine prod_congr rfl fun i _ => ?_
    rw [add_assoc, ← Polynomial.C_add]
    congr 2
    ring
  have hc := congrArg (fun f => Polynomial.coeff f (p - j)) (h1.symm.trans h2)
  simp only [Polynomial.finsetSum_coeff, Polynomial.coeff_C_mul, Polynomial.coeff_X_add_C_pow,
    Polynomial.coeff_X_pow] at hc
  rw [sum_eq_single j (fun k hk hkj => by
    rw [if_neg (by have := mem_range.1 hk; omega), mul_zero]) (fun h => absurd (mem_range.2 (by omega)) h),
    if_pos rfl, mul_one] at hc
  have hch : (p.choose j : K) ≠ 0 := by
    have := Nat.choose_pos hj
    positivity
  refine mul_left_cancel₀ hch ?_
  rw [hc, mul_sum]
  refine sum_congr rfl fun k hk => ?_
  rcases lt_or_ge j k with hjk | hkj
  · rw [Nat.choose_eq_zero_of_lt hjk, Nat.choose_eq_zero_of_lt (show p - k < p - j by have := mem_range.1 hk; omega)]
    simp
  · have e := Nat.choose_mul (n := p) hkj
    have e' : (p.choose j : K) * j.choose k = p.choose k * (p - k).choose (j - k) := by exact_mod_cast e
    rw [show p - k - (p - j) = j - k by omega, show (p - k).choose (p - j) = (p - k).choose (j - k) by
      rw [← Nat.choose_symm (show p - j ≤ p - k by omega)]; congr 1; omega]
    linear_combination (-(τ - σ) ^ (j - k) * polar p x τ k) * e'

/-- Marsden's identity for powers with an arbitrary centre. -/
theorem curve_polar {p n : ℕ} {U : List K} (hU : Clamped p n U) {k : ℕ} (hk : k ≤ p) (τ : K) {u : K}
    (h1 : knotFn U p ≤ u) (h2 : u ≤ knotFn U n) :
    curve (knotFn U) p n (fun i => polar p (fun j => knotFn U (i + 1 + j)) τ k) u = (u - τ) ^ k := by
  have h0 : ∀ m ≤ p, curve (knotFn U) p n (fun i => polar p (fun j => knotFn U (i + 1 + j)) 0 m) u = u ^ m := by
    intro m hm
    rw [← curve_power hU hm h1 h2]
    congr 1
    funext i
    unfold polar powerCoeff
    have := Finset.esymm_map_val (fun j => knotFn U (i + 1 + j)) (Finset.range p) m
    rw [Finset.range_val] at this
    rw [this]
    simp
  have e : ∀ i, polar p (fun j => knotFn U (i + 1 + j)) τ k
      = ∑ m ∈ range (p + 1), (k.choose m : K) * (0 - τ) ^ (k - m) * polar p (fun j => knotFn U (i + 1 + j)) 0 m :=
    fun i => polar_shift p _ 0 τ hk
  calc curve (knotFn U) p n (fun i => polar p (fun j => knotFn U (i + 1 + j)) τ k) u
      = ∑ m ∈ range (p + 1), (k.choose m : K) * (0 - τ) ^ (k - m)
          * curve (knotFn U) p n (fun i => polar p (fun j => knotFn U (i + 1 + j)) 0 m) u := by
        unfold curve
        simp only [e, sum_mul, mul_sum]
        rw [sum_comm]
        exact sum_congr rfl fun m _ => sum_congr rfl fun i _ => by ring
    _ = ∑ m ∈ range (p + 1), (k.choose m : K) * (0 - τ) ^ (k - m) * u ^ m :=
        sum_congr rfl fun m hm => by rw [h0 m (Nat.lt_succ_iff.1 (mem_range.1 hm))]
    _ = ∑ m ∈ range (k + 1), (k.choose m : K) * (0 - τ) ^ (k - m) * u ^ m := by
        symm
        refine sum_subset (range_subset_range.2 (by omega)) fun m _ hm => ?_
        rw [Nat.choose_eq_zero_of_lt (by simpa using hm)]
        simp
    _ = (u - τ) ^ k := by
        rw [sub_eq_add_neg u, add_pow]
        exact sum_congr rfl fun m _ => by rw [zero_sub]; ring

/-! ## Smooth functions -/

/-- `a k` is the `k`-th derivative of `a 0` divided by `k!`, up to order `q`, in the sense that Taylor's formula of order `q`
holds on `[α, β]` for all of them, with remainders that are small of order `q + 1 - k`. -/
def TaylorOn (q : ℕ) (M α β : K) (a : ℕ → K → K) : Prop :=
  ∀ x y, α ≤ x → x ≤ β → α ≤ y → y ≤ β → ∀ k ≤ q,
    |a k x - ∑ j ∈ range (q + 1), (j.choose k : K) * (x - y) ^ (j - k) * a j y| ≤ M * |x - y| ^ (q + 1 - k)

/-- The blossom of the Taylor polynomial at `τ`. -/
noncomputable def quasi (p q : ℕ) (a : ℕ → K → K) (x : ℕ → K) (τ : K) : K :=
  ∑ k ∈ range (q + 1), a k τ * polar p x τ k

/-- The blossoms of the Taylor polynomials at two points are close. -/
theorem quasi_sub_le {p q : ℕ} (hq : q ≤ p) {M α β h : K} (hM : 0 ≤ M) {a : ℕ → K → K} (ha : TaylorOn q M α β a)
    {x : ℕ → K} {τ σ : K} (hτ : α ≤ τ ∧ τ ≤ β) (hσ : α ≤ σ ∧ σ ≤ β) (hτσ : |τ - σ| ≤ h)
    (hx : ∀ j < p, |x j - τ| ≤ h) : |quasi p q a x τ - quasi p q a x σ| ≤ (q + 1) * M * h ^ (q + 1) := by
  have hh : 0 ≤ h := (abs_nonneg _).trans hτσ
  have e : quasi p q a x τ - quasi p q a x σ = ∑ k ∈ range (q + 1),
      (a k τ - ∑ j ∈ range (q + 1), (j.choose k : K) * (τ - σ) ^ (j - k) * a j σ) * polar p x τ k := by
    have e2 : quasi p q a x σ = ∑ k ∈ range (q + 1),
        (∑ j ∈ range (q + 1), (j.choose k : K) * (τ - σ) ^ (j - k) * a j σ) * polar p x τ k := by
      unfold quasi
      calc ∑ j ∈ range (q + 1), a j σ * polar p x σ j
          = ∑ j ∈ range (q + 1), ∑ k ∈ range (q + 1),
              (j.choose k : K) * (τ - σ) ^ (j - k) * a j σ * polar p x τ k := by
            refine sum_congr rfl fun j hj => ?_
            have hj' := mem_range.1 hj
            rw [polar_shift p x τ σ (by omega), mul_sum]
            symm
            rw [sum_congr rfl (g := fun k => a j σ * ((j.choose k : K) * (τ - σ) ^ (j - k) * polar p x τ k))
              fun k _ => by ring]
            refine sum_subset (range_subset_range.2 (by omega)) fun k _ hk => ?_
            rw [Nat.choose_eq_zero_of_lt (by simp at hk; omega)]
            simp
        _ = _ := by
            rw [sum_comm]
            exact sum_congr rfl fun k _ => by rw [sum_mul]
    rw [e2]
    unfold quasi
    rw [← sum_sub_distrib]
    exact sum_congr rfl fun k _ => by ring
  rw [e]
  calc |∑ k ∈ range (q + 1), (a k τ - ∑ j ∈ range (q + 1), (j.choose k : K) * (τ - σ) ^ (j - k) * a j σ)
        * polar p x τ k|
      ≤ ∑ k ∈ range (q + 1), |(a k τ - ∑ j ∈ range (q + 1), (j.choose k : K) * (τ - σ) ^ (j - k) * a j σ)
        * polar p x τ k| := abs_sum_le_sum_abs _ _
    _ ≤ ∑ _k ∈ range (q + 1), M * h ^ (q + 1) := sum_le_sum fun k hk => by
        have hk' := Nat.lt_succ_iff.1 (mem_range.1 hk)
        rw [abs_mul]
        have h1 := ha τ σ hτ.1 hτ.2 hσ.1 hσ.2 k hk'
        have h2 := abs_polar_le hx (hk'.trans hq)
        have h3 : M * |τ - σ| ^ (q + 1 - k) ≤ M * h ^ (q + 1 - k) :=
          mul_le_mul_of_nonneg_left (pow_le_pow_left₀ (abs_nonneg _) hτσ _) hM
        calc _ ≤ M * h ^ (q + 1 - k) * h ^ k :=
              mul_le_mul (h1.trans h3) h2 (abs_nonneg _) (by positivity)
          _ = _ := by rw [mul_assoc, ← pow_add]; congr 2; omega
    _ = _ := by rw [sum_const, card_range, nsmul_eq_mul]; push_cast; ring

/-- **Approximation of full order.** There is a curve between the end values that stays within `(q + 1) M h ^ (q + 1)` of
the function, if no basis function is supported on more than the length `h`; its control points are bounded in terms of
the derivatives. -/
theorem exists_smooth_curve {p n q : ℕ} {U : List K} (hU : Clamped p n U) (hp : 1 ≤ p) (hq : q ≤ p) {h : K}
    (hh : ∀ i < n, knotFn U (i + p + 1) - knotFn U i ≤ h) {M : K} (hM : 0 ≤ M) {a : ℕ → K → K}
    (ha : TaylorOn q M (knotFn U p) (knotFn U n) a) :
    ∃ z : ℕ → K, z 0 = a 0 (knotFn U p) ∧ z (n - 1) = a 0 (knotFn U n) ∧
      (∀ t, knotFn U p ≤ t → t ≤ knotFn U n →
        |curve (knotFn U) p n z t - a 0 t| ≤ (q + 1) * M * h ^ (q + 1)) ∧
      ∀ A : ℕ → K, (∀ k ≤ q, ∀ t, knotFn U p ≤ t → t ≤ knotFn U n → |a k t| ≤ A k) →
        ∀ i < n, |z i| ≤ ∑ k ∈ range (q + 1), A k * h ^ k := by
  have hsz := hU.size
  have hV := monotone_knotFn hU.mono
  have hend : ∀ (x : ℕ → K) τ, (∀ j < p, x j = τ) → quasi p q a x τ = a 0 τ := fun x τ hx => by
    unfold quasi
    rw [sum_eq_single 0 (fun k hk hk0 => ?_) (fun h => absurd (mem_range.2 (by omega)) h), polar_zero, mul_one]
    have := abs_polar_le (h := 0) (fun j hj => by rw [hx j hj, sub_self, abs_zero])
      (show k ≤ p by have := mem_range.1 hk; omega) (τ := τ) (x := x)
    rw [zero_pow hk0] at this
    rw [abs_nonpos_iff.1 this, mul_zero]
  refine ⟨fun i => quasi p q a (fun j => knotFn U (i + 1 + j)) (knotFn U (i + 1)), ?_, ?_, fun t h0 h1 => ?_,
    fun A hA i hi => ?_⟩
  · dsimp only
    rw [hend]
    · rw [hU.left (0 + 1) (by omega), hU.left p le_rfl]
    · intro j hj
      rw [hU.left _ (by omega), hU.left (0 + 1) (by omega)]
  · dsimp only
    rw [hend, show n - 1 + 1 = n by omega]
    intro j hj
    rw [hU.right _ (by omega) (by omega), hU.right (n - 1 + 1) (by omega) (by omega)]
  · have h1' : t ≤ knotFn U (n + p) := by rw [← hU.right n le_rfl (by omega)]; exact h1
    have hexact : curve (knotFn U) p n (fun i => quasi p q a (fun j => knotFn U (i + 1 + j)) t) t = a 0 t := by
      calc _ = ∑ k ∈ range (q + 1), a k t
            * curve (knotFn U) p n (fun i => polar p (fun j => knotFn U (i + 1 + j)) t k) t := by
            unfold curve quasi
            simp only [sum_mul, mul_sum]
            rw [sum_comm]
            exact sum_congr rfl fun m _ => sum_congr rfl fun i _ => by ring
        _ = ∑ k ∈ range (q + 1), a k t * (t - t) ^ k := sum_congr rfl fun k hk => by
            rw [curve_polar hU (by have := mem_range.1 hk; omega) t h0 h1]
        _ = a 0 t := by
            rw [sum_eq_single 0 (fun k _ hk0 => by rw [sub_self, zero_pow hk0, mul_zero])
              (fun h => absurd (mem_range.2 (by omega)) h), pow_zero, mul_one]
    set z : ℕ → K := fun i => quasi p q a (fun j => knotFn U (i + 1 + j)) (knotFn U (i + 1)) with hz
    set y : ℕ → K := fun i => quasi p q a (fun j => knotFn U (i + 1 + j)) t with hy
    have near : ∀ i < n, knotFn U i ≤ t → t ≤ knotFn U (i + p + 1) →
        |z i - y i| ≤ (q + 1) * M * h ^ (q + 1) := by
      intro i hi b1 b2
      have hw := hh i hi
      have m1 := hV (show i ≤ i + 1 by omega)
      have m2 := hV (show i + 1 ≤ i + p + 1 by omega)
      refine quasi_sub_le hq hM ha ⟨?_, ?_⟩ ⟨h0, h1⟩ (by rw [abs_le]; constructor <;> linarith) fun j hj => ?_
      · rcases le_or_gt p (i + 1) with h | h
        · exact hV h
        · rw [hU.left p le_rfl, hU.left (i + 1) (by omega)]
      · exact hV (by omega)
      · have m3 := hV (show i + 1 ≤ i + 1 + j by omega)
        have m4 := hV (show i + 1 + j ≤ i + p + 1 by omega)
        rw [abs_le]; constructor <;> linarith
    have hup := curve_le hU h0 h1' (c := fun i => z i - y i) (b := (q + 1) * M * h ^ (q + 1)) fun j hj a b =>
      (abs_le.1 (near j hj a b)).2
    have hlo := curve_le hU h0 h1' (c := fun i => y i - z i) (b := (q + 1) * M * h ^ (q + 1)) fun j hj a b => by
      have := (abs_le.1 (near j hj a b)).1
      linarith
    have hsub : ∀ c d : ℕ → K, curve (knotFn U) p n (fun i => c i - d i) t
        = curve (knotFn U) p n c t - curve (knotFn U) p n d t := fun c d => by
      unfold curve
      rw [← sum_sub_distrib]
      exact sum_congr rfl fun i _ => by ring
    rw [hsub, hexact] at hup hlo
    rw [abs_le]
    constructor <;> linarith
  · have hw := hh i hi
    have m1 := hV (show i ≤ i + 1 by omega)
    have hlo : knotFn U p ≤ knotFn U (i + 1) := by
      rcases le_total p (i + 1) with h | h
      · exact hV h
      · rw [hU.left p le_rfl, hU.left (i + 1) h]
    have hhi : knotFn U (i + 1) ≤ knotFn U n := hV (by omega)
    unfold quasi
    refine (abs_sum_le_sum_abs _ _).trans (sum_le_sum fun k hk => ?_)
    have hk' := Nat.lt_succ_iff.1 (mem_range.1 hk)
    rw [abs_mul]
    have h2 := abs_polar_le (x := fun j => knotFn U (i + 1 + j)) (τ := knotFn U (i + 1)) (h := h) (fun j hj => by
      have m3 := hV (show i + 1 ≤ i + 1 + j by omega)
      have m4 := hV (show i + 1 + j ≤ i + p + 1 by omega)
      rw [abs_le]; constructor <;> linarith) (hk'.trans hq)
    have h1 := hA k hk' _ hlo hhi
    exact mul_le_mul h1 h2 (abs_nonneg _) ((abs_nonneg _).trans h1)

/-! ## Two variables -/

/-- Taylor's formula of total order `q` on a rectangle, for a function `a 0 0` of two variables and its derivatives `a k l`
divided by `k! l!`. -/
def TaylorOn2 (q : ℕ) (M α β α' β' : K) (a : ℕ → ℕ → K → K → K) : Prop :=
  ∀ x y x' y' h, (α ≤ x ∧ x ≤ β) → (α' ≤ y ∧ y ≤ β') → (α ≤ x' ∧ x' ≤ β) → (α' ≤ y' ∧ y' ≤ β') →
    |x - x'| ≤ h → |y - y'| ≤ h → ∀ k l, k + l ≤ q →
    |a k l x y - ∑ i ∈ range (q + 1), ∑ j ∈ range (q + 1), if i + j ≤ q then
        (i.choose k : K) * (x - x') ^ (i - k) * ((j.choose l : K) * (y - y') ^ (j - l)) * a i j x' y' else 0|
      ≤ M * h ^ (q + 1 - (k + l))

/-- The blossom of the Taylor polynomial at `(τ, σ)`. -/
noncomputable def quasi2 (p p' q : ℕ) (a : ℕ → ℕ → K → K → K) (x y : ℕ → K) (τ σ : K) : K :=
  ∑ k ∈ range (q + 1), ∑ l ∈ range (q + 1), if k + l ≤ q then a k l τ σ * (polar p x τ k * polar p' y σ l) else 0

theorem polar_shift_le {p q : ℕ} (hq : q ≤ p) (x : ℕ → K) (τ σ : K) {j : ℕ} (hj : j ≤ q) :
    polar p x σ j = ∑ k ∈ range (q + 1), (j.choose k : K) * (τ - σ) ^ (j - k) * polar p x τ k := by
  rw [polar_shift p x τ σ (hj.trans hq)]
  symm
  refine sum_subset (range_subset_range.2 (by omega)) fun k _ hk => ?_
  rw [Nat.choose_eq_zero_of_lt (by simp at hk; omega)]
  simp

theorem quasi2_sub_le {p p' q : ℕ} (hq : q ≤ p) (hq' : q ≤ p') {M α β α' β' h : K} (hM : 0 ≤ M)
    {a : ℕ → ℕ → K → K → K} (ha : TaylorOn2 q M α β α' β' a) {x y : ℕ → K} {τ σ τ' σ' : K}
    (hτ : α ≤ τ ∧ τ ≤ β) (hσ : α' ≤ σ ∧ σ ≤ β') (hτ' : α ≤ τ' ∧ τ' ≤ β) (hσ' : α' ≤ σ' ∧ σ' ≤ β')
    (h1 : |τ - τ'| ≤ h) (h2 : |σ - σ'| ≤ h) (hx : ∀ j < p, |x j - τ| ≤ h) (hy : ∀ j < p', |y j - σ| ≤ h) :
    |quasi2 p p' q a x y τ σ - quasi2 p p' q a x y τ' σ'| ≤ (q + 1) ^ 2 * M * h ^ (q + 1) := by
  have hh : 0 ≤ h := (abs_nonneg _).trans h1
  have e2 : quasi2 p p' q a x y τ' σ' = ∑ k ∈ range (q + 1), ∑ l ∈ range (q + 1),
      (∑ i ∈ range (q + 1), ∑ j ∈ range (q + 1), if i + j ≤ q then
        (i.choose k : K) * (τ - τ') ^ (i - k) * ((j.choose l : K) * (σ - σ') ^ (j - l)) * a i j τ' σ' else 0)
        * (polar p x τ k * polar p' y σ l) := by
    unfold quasi2
    calc ∑ i ∈ range (q + 1), ∑ j ∈ range (q + 1),
          (if i + j ≤ q then a i j τ' σ' * (polar p x τ' i * polar p' y σ' j) else 0)
        = ∑ i ∈ range (q + 1), ∑ j ∈ range (q + 1), ∑ k ∈ range (q + 1), ∑ l ∈ range (q + 1),
            (if i + j ≤ q then (i.choose k : K) * (τ - τ') ^ (i - k) * ((j.choose l : K) * (σ - σ') ^ (j - l))
              * a i j τ' σ' else 0) * (polar p x τ k * polar p' y σ l) := by
          refine sum_congr rfl fun i hi => sum_congr rfl fun j hj => ?_
          split_ifs with hc
          · rw [polar_shift_le hq x τ τ' (Nat.lt_succ_iff.1 (mem_range.1 hi)),
              polar_shift_le hq' y σ σ' (Nat.lt_succ_iff.1 (mem_range.1 hj)), sum_mul_sum, mul_sum]
            refine sum_congr rfl fun k _ => ?_
            rw [mul_sum]
            exact sum_congr rfl fun l _ => by ring
          · simp
      _ = ∑ i ∈ range (q + 1), ∑ k ∈ range (q + 1), ∑ j ∈ range (q + 1), ∑ l ∈ range (q + 1),
            (if i + j ≤ q then (i.choose k : K) * (τ - τ') ^ (i - k) * ((j.choose l : K) * (σ - σ') ^ (j - l))
              * a i j τ' σ' else 0) * (polar p x τ k * polar p' y σ l) := sum_congr rfl fun i _ => sum_comm
      _ = ∑ k ∈ range (q + 1), ∑ i ∈ range (q + 1), ∑ l ∈ range (q + 1), ∑ j ∈ range (q + 1),
            (if i + j ≤ q then (i.choose k : K) * (τ - τ') ^ (i - k) * ((j.choose l : K) * (σ - σ') ^ (j - l))
              * a i j τ' σ' else 0) * (polar p x τ k * polar p' y σ l) := by
          rw [sum_comm]
          exact sum_congr rfl fun k _ => sum_congr rfl fun i _ => sum_comm
      _ = _ := by
          refine sum_congr rfl fun k _ => ?_
          rw [sum_comm]
          refine sum_congr rfl fun l _ => ?_
          rw [sum_mul]
          exact sum_congr rfl fun i _ => by rw [sum_mul]
  have e3 : quasi2 p p' q a x y τ σ - quasi2 p p' q a x y τ' σ' = ∑ k ∈ range (q + 1), ∑ l ∈ range (q + 1),
      if k + l ≤ q then (a k l τ σ - ∑ i ∈ range (q + 1), ∑ j ∈ range (q + 1), if i + j ≤ q then
        (i.choose k : K) * (τ - τ') ^ (i - k) * ((j.choose l : K) * (σ - σ') ^ (j - l)) * a i j τ' σ' else 0)
        * (polar p x τ k * polar p' y σ l) else 0 := by
    rw [e2]
    unfold quasi2
    rw [← sum_sub_distrib]
    refine sum_congr rfl fun k _ => ?_
    rw [← sum_sub_distrib]
    refine sum_congr rfl fun l _ => ?_
    split_ifs with hc
    · ring
    · rw [sum_eq_zero (s := range (q + 1)) fun i _ => sum_eq_zero fun j _ => ?_]
      · ring
      · split_ifs with hij
        · rcases lt_or_ge i k with hik | hik
          · rw [Nat.choose_eq_zero_of_lt hik]; simp
          · rw [Nat.choose_eq_zero_of_lt (show j < l by omega)]; simp
        · rfl
  rw [e3]
  refine (abs_sum_le_sum_abs _ _).trans ?_
  calc _ ≤ ∑ _k ∈ range (q + 1), ∑ _l ∈ range (q + 1), M * h ^ (q + 1) := sum_le_sum fun k _ =>
        (abs_sum_le_sum_abs _ _).trans (sum_le_sum fun l _ => ?_)
    _ = _ := by simp only [sum_const, card_range, nsmul_eq_mul]; push_cast; ring
  split_ifs with hc
  · rw [abs_mul, abs_mul]
    have b1 := ha τ σ τ' σ' h hτ hσ hτ' hσ' h1 h2 k l hc
    have b2 := abs_polar_le hx (show k ≤ p by omega)
    have b3 := abs_polar_le hy (show l ≤ p' by omega)
    calc _ ≤ M * h ^ (q + 1 - (k + l)) * (h ^ k * h ^ l) :=
          mul_le_mul b1 (mul_le_mul b2 b3 (abs_nonneg _) (by positivity)) (by positivity) (by positivity)
      _ = _ := by rw [mul_assoc, ← pow_add, ← pow_add]; congr 2; omega
  · rw [abs_zero]; positivity

/-- The surface with the blossoms of the Taylor polynomials as control points, up to `δ`, stays within
`(q + 1)² M h ^ (q + 1) + δ` of the function. -/
theorem smooth_surface {p n p' n' q : ℕ} {U V : List K} (hU : Clamped p n U) (hV : Clamped p' n' V)
    (hq : q ≤ p) (hq' : q ≤ p') {h : K}
    (hh : ∀ i < n, knotFn U (i + p + 1) - knotFn U i ≤ h) (hh' : ∀ j < n', knotFn V (j + p' + 1) - knotFn V j ≤ h)
    {M δ : K} (hM : 0 ≤ M) {a : ℕ → ℕ → K → K → K}
    (ha : TaylorOn2 q M (knotFn U p) (knotFn U n) (knotFn V p') (knotFn V n') a) {z : ℕ → K}
    (hz : ∀ i < n, ∀ j < n', |z (i * n' + j) - quasi2 p p' q a (fun r => knotFn U (i + 1 + r))
      (fun r => knotFn V (j + 1 + r)) (knotFn U (i + 1)) (knotFn V (j + 1))| ≤ δ)
    {u v : K} (u0 : knotFn U p ≤ u) (u1 : u ≤ knotFn U n) (v0 : knotFn V p' ≤ v) (v1 : v ≤ knotFn V n') :
    |surface (knotFn U) p n (knotFn V) p' n' z u v - a 0 0 u v| ≤ (q + 1) ^ 2 * M * h ^ (q + 1) + δ := by
  have su := hU.size
  have sv := hV.size
  have mU := monotone_knotFn hU.mono
  have mV := monotone_knotFn hV.mono
  have u1' : u ≤ knotFn U (n + p) := by rw [← hU.right n le_rfl (by omega)]; exact u1
  have v1' : v ≤ knotFn V (n' + p') := by rw [← hV.right n' le_rfl (by omega)]; exact v1
  let y : ℕ → ℕ → K := fun i j => quasi2 p p' q a (fun r => knotFn U (i + 1 + r)) (fun r => knotFn V (j + 1 + r)) u v
  have hexact : curve (knotFn U) p n (fun i => curve (knotFn V) p' n' (y i) v) u = a 0 0 u v := by
    have e1 : ∀ i, curve (knotFn V) p' n' (y i) v
        = ∑ k ∈ range (q + 1), a k 0 u v * polar p (fun r => knotFn U (i + 1 + r)) u k := by
      intro i
      calc _ = ∑ k ∈ range (q + 1), ∑ l ∈ range (q + 1), if k + l ≤ q then
              a k l u v * polar p (fun r => knotFn U (i + 1 + r)) u k
                * curve (knotFn V) p' n' (fun j => polar p' (fun r => knotFn V (j + 1 + r)) v l) v else 0 := by
            unfold curve
            simp only [y, quasi2, sum_mul]
            rw [sum_comm]
            refine sum_congr rfl fun k _ => ?_
            rw [sum_comm]
            refine sum_congr rfl fun l _ => ?_
            split_ifs with hc
            · rw [mul_sum]
              exact sum_congr rfl fun j _ => by ring
            · simp
        _ = _ := by
            refine sum_congr rfl fun k hk => ?_
            rw [sum_eq_single 0 (fun l hl hl0 => ?_) (fun h => absurd (mem_range.2 (by omega)) h)]
            · rw [if_pos (by have := mem_range.1 hk; omega), curve_polar hV (by omega) v v0 v1, pow_zero, mul_one]
            · split_ifs with hc
              · rw [curve_polar hV (by omega) v v0 v1, sub_self, zero_pow hl0, mul_zero]
              · rfl
    simp only [e1]
    calc _ = ∑ k ∈ range (q + 1), a k 0 u v
          * curve (knotFn U) p n (fun i => polar p (fun r => knotFn U (i + 1 + r)) u k) u := by
          unfold curve
          simp only [sum_mul, mul_sum]
          rw [sum_comm]
          exact sum_congr rfl fun m _ => sum_congr rfl fun i _ => by ring
      _ = a 0 0 u v := by
          rw [sum_eq_single 0 (fun k hk hk0 => by
            rw [curve_polar hU (by have := mem_range.1 hk; omega) u u0 u1, sub_self, zero_pow hk0, mul_zero])
            (fun h => absurd (mem_range.2 (by omega)) h), curve_polar hU (by omega) u u0 u1, pow_zero, mul_one]
  have near : ∀ i < n, knotFn U i ≤ u → u ≤ knotFn U (i + p + 1) → ∀ j < n', knotFn V j ≤ v →
      v ≤ knotFn V (j + p' + 1) → |z (i * n' + j) - y i j| ≤ (q + 1) ^ 2 * M * h ^ (q + 1) + δ := by
    intro i hi b1 b2 j hj b3 b4
    have hw := hh i hi
    have hw' := hh' j hj
    have m1 := mU (show i ≤ i + 1 by omega)
    have m2 := mU (show i + 1 ≤ i + p + 1 by omega)
    have m1' := mV (show j ≤ j + 1 by omega)
    have m2' := mV (show j + 1 ≤ j + p' + 1 by omega)
    have hd := quasi2_sub_le hq hq' hM ha (x := fun r => knotFn U (i + 1 + r)) (y := fun r => knotFn V (j + 1 + r))
      (τ := knotFn U (i + 1)) (σ := knotFn V (j + 1)) (τ' := u) (σ' := v) (h := h)
      ⟨by
        rcases le_or_gt p (i + 1) with h | h
        · exact mU h
        · rw [hU.left p le_rfl, hU.left (i + 1) (by omega)], mU (by omega)⟩
      ⟨by
        rcases le_or_gt p' (j + 1) with h | h
        · exact mV h
        · rw [hV.left p' le_rfl, hV.left (j + 1) (by omega)], mV (by omega)⟩ ⟨u0, u1⟩ ⟨v0, v1⟩
      (by rw [abs_le]; constructor <;> linarith) (by rw [abs_le]; constructor <;> linarith)
      (fun r hr => by
        have m3 := mU (show i + 1 ≤ i + 1 + r by omega)
        have m4 := mU (show i + 1 + r ≤ i + p + 1 by omega)
        rw [abs_le]; constructor <;> linarith)
      (fun r hr => by
        have m3 := mV (show j + 1 ≤ j + 1 + r by omega)
        have m4 := mV (show j + 1 + r ≤ j + p' + 1 by omega)
        rw [abs_le]; constructor <;> linarith)
    have h3 := hz i hi j hj
    have := abs_sub_le (z (i * n' + j)) (quasi2 p p' q a (fun r => knotFn U (i + 1 + r))
      (fun r => knotFn V (j + 1 + r)) (knotFn U (i + 1)) (knotFn V (j + 1))) (y i j)
    have h4 : |quasi2 p p' q a (fun r => knotFn U (i + 1 + r)) (fun r => knotFn V (j + 1 + r)) (knotFn U (i + 1))
      (knotFn V (j + 1)) - y i j| ≤ (q + 1) ^ 2 * M * h ^ (q + 1) := hd
    linarith
  have hsub : ∀ c d : ℕ → ℕ → K, curve (knotFn U) p n (fun i => curve (knotFn V) p' n' (fun j => c i j - d i j) v) u
      = curve (knotFn U) p n (fun i => curve (knotFn V) p' n' (c i) v) u
        - curve (knotFn U) p n (fun i => curve (knotFn V) p' n' (d i) v) u := fun c d => by
    unfold curve
    rw [← sum_sub_distrib]
    refine sum_congr rfl fun i _ => ?_
    rw [← sub_mul, ← sum_sub_distrib]
    exact congrArg (· * _) (sum_congr rfl fun j _ => by ring)
  have hup := curve_le hU u0 u1' (b := (q + 1) ^ 2 * M * h ^ (q + 1) + δ)
    (c := fun i => curve (knotFn V) p' n' (fun j => z (i * n' + j) - y i j) v) fun i hi b1 b2 =>
      curve_le hV v0 v1' fun j hj b3 b4 => (abs_le.1 (near i hi b1 b2 j hj b3 b4)).2
  have hlo := curve_le hU u0 u1' (b := (q + 1) ^ 2 * M * h ^ (q + 1) + δ)
    (c := fun i => curve (knotFn V) p' n' (fun j => y i j - z (i * n' + j)) v) fun i hi b1 b2 =>
      curve_le hV v0 v1' fun j hj b3 b4 => by
        have := (abs_le.1 (near i hi b1 b2 j hj b3 b4)).1
        linarith
  rw [hsub y (fun i j => z (i * n' + j)), hexact] at hlo
  rw [hsub (fun i j => z (i * n' + j)) y, hexact] at hup
  rw [surface_eq_rows, abs_le]
  constructor <;> linarith

end
end PySpline
