import Verif.Lemmas.CurveMore
import Verif.Lemmas.InsertionAux

/-!
# The control polygon over the Greville abscissae: convexity, slopes, knot insertion
-/

set_option linter.unusedSectionVars false

namespace PySpline

open Spec Finset

variable {K : Type} [Field K] [LinearOrder K] [IsStrictOrderedRing K]

/-! ## Sequences over an increasing sequence of abscissae -/

theorem sub_le_slope {ξ c : ℕ → K} {M : K} {i j : ℕ} (hij : i ≤ j)
    (h : ∀ l, i ≤ l → l < j → c (l + 1) - c l ≤ M * (ξ (l + 1) - ξ l)) : c j - c i ≤ M * (ξ j - ξ i) := by
  induction j, hij using Nat.le_induction with
  | base => simp
  | succ j hij ih =>
    have h1 := ih fun l h1 h2 => h l h1 (by omega)
    have h2 := h j hij (by omega)
    linarith

/-- Non-decreasing slopes between neighbours: every three points of the polygon are in convex position. -/
theorem three_point {ξ c : ℕ → K} {n : ℕ} (hξ : ∀ i, i + 1 < n → ξ i < ξ (i + 1))
    (hc : ∀ i, i + 2 < n → (c (i + 1) - c i) * (ξ (i + 2) - ξ (i + 1)) ≤ (c (i + 2) - c (i + 1)) * (ξ (i + 1) - ξ i))
    {i j k : ℕ} (hij : i < j) (hjk : j < k) (hk : k < n) :
    (c j - c i) * (ξ k - ξ j) ≤ (c k - c j) * (ξ j - ξ i) := by
  have hpos : ∀ l, l + 1 < n → 0 < ξ (l + 1) - ξ l := fun l hl => sub_pos.2 (hξ l hl)
  have hstep : ∀ l, l + 2 < n →
      (c (l + 1) - c l) / (ξ (l + 1) - ξ l) ≤ (c (l + 2) - c (l + 1)) / (ξ (l + 2) - ξ (l + 1)) := fun l hl =>
    (div_le_div_iff₀ (hpos l (by omega)) (hpos (l + 1) hl)).2 (hc l hl)
  have hmono : ∀ l m, l ≤ m → m + 1 < n →
      (c (l + 1) - c l) / (ξ (l + 1) - ξ l) ≤ (c (m + 1) - c m) / (ξ (m + 1) - ξ m) := by
    intro l m hlm
    induction m, hlm using Nat.le_induction with
    | base => exact fun _ => le_rfl
    | succ m _ ih => exact fun hm => (ih (by omega)).trans (hstep m hm)
  have hmul : ∀ l, l + 1 < n → c (l + 1) - c l = (c (l + 1) - c l) / (ξ (l + 1) - ξ l) * (ξ (l + 1) - ξ l) :=
    fun l hl => (div_mul_cancel₀ _ (hpos l hl).ne').symm
  have hle : ∀ l m, l ≤ m → m < n → ξ l ≤ ξ m := by
    intro l m hlm
    induction m, hlm using Nat.le_induction with
    | base => exact fun _ => le_rfl
    | succ m _ ih => exact fun hm => (ih (by omega)).trans (hξ m hm).le
  obtain ⟨M, hM⟩ : ∃ M, (c (j + 1) - c j) / (ξ (j + 1) - ξ j) = M := ⟨_, rfl⟩
  have h1 : c j - c i ≤ M * (ξ j - ξ i) := by
    refine sub_le_slope hij.le fun l _ h2 => ?_
    rw [hmul l (by omega), ← hM]
    exact mul_le_mul_of_nonneg_right (hmono l j h2.le (by omega)) (hpos l (by omega)).le
  have h2 : M * (ξ k - ξ j) ≤ c k - c j := by
    have := sub_le_slope (ξ := ξ) (c := fun l => - c l) (M := -M) hjk.le fun l h1 h2 => by
      have : M * (ξ (l + 1) - ξ l) ≤ c (l + 1) - c l := by
        rw [hmul l (by omega), ← hM]
        exact mul_le_mul_of_nonneg_right (hmono j l h1 (by omega)) (hpos l (by omega)).le
      linarith
    linarith
  have a := hle i j hij.le (by omega)
  have b := hle j k hjk.le hk
  calc (c j - c i) * (ξ k - ξ j) ≤ M * (ξ j - ξ i) * (ξ k - ξ j) :=
        mul_le_mul_of_nonneg_right h1 (sub_nonneg.2 b)
    _ = M * (ξ k - ξ j) * (ξ j - ξ i) := by ring
    _ ≤ (c k - c j) * (ξ j - ξ i) := mul_le_mul_of_nonneg_right h2 (sub_nonneg.2 a)

variable {p n : ℕ} {U : List K}

theorem greville_lt (hp : 1 ≤ p) {V : ℕ → K} {i : ℕ} (h : V (i + 1) < V (i + p + 1)) :
    greville V p i < greville V p (i + 1) := by
  have hp0 : (0 : K) < p := by exact_mod_cast hp
  rw [← sub_pos, greville_succ_sub _ hp]
  exact div_pos (sub_pos.2 h) hp0

theorem greville_le (hp : 1 ≤ p) {V : ℕ → K} (hV : Monotone V) (i : ℕ) :
    greville V p i ≤ greville V p (i + 1) := by
  have hp0 : (0 : K) < p := by exact_mod_cast hp
  rw [← sub_nonneg, greville_succ_sub _ hp]
  exact div_nonneg (sub_nonneg.2 (hV (by omega))) hp0.le

theorem greville_bounds (hp : 1 ≤ p) {V : ℕ → K} (hV : Monotone V) (i : ℕ) :
    V (i + 1) ≤ greville V p i ∧ greville V p i ≤ V (i + p) := by
  have hp0 : (0 : K) < p := by exact_mod_cast hp
  unfold greville
  constructor
  · rw [le_div_iff₀ hp0]
    calc V (i + 1) * p = ∑ _j ∈ range p, V (i + 1) := by rw [sum_const, card_range, nsmul_eq_mul]; ring
      _ ≤ _ := sum_le_sum fun j _ => hV (by omega)
  · rw [div_le_iff₀ hp0]
    calc ∑ j ∈ range p, V (i + 1 + j) ≤ ∑ _j ∈ range p, V (i + p) := sum_le_sum fun j hj =>
          hV (by have := mem_range.1 hj; omega)
      _ = V (i + p) * p := by rw [sum_const, card_range, nsmul_eq_mul]; ring

/-- Coefficients in convex position over the Greville abscissae: the spline is convex. -/
theorem curve_convex (hU : Clamped p n U) (hp : 1 ≤ p)
    (hgap : ∀ i, i + 1 < n → knotFn U (i + 1) < knotFn U (i + p + 1)) {c : ℕ → K}
    (hc : ∀ i, i + 2 < n → (c (i + 1) - c i) * (knotFn U (i + p + 2) - knotFn U (i + 2))
      ≤ (c (i + 2) - c (i + 1)) * (knotFn U (i + p + 1) - knotFn U (i + 1))) {s t w : K}
    (h0 : knotFn U p ≤ s) (hst : s < t) (htw : t < w) (h1 : w ≤ knotFn U n) :
    (w - s) * curve (knotFn U) p n c t
      ≤ (w - t) * curve (knotFn U) p n c s + (t - s) * curve (knotFn U) p n c w := by
  have hp0 : (0 : K) < p := by exact_mod_cast hp
  set V := knotFn U with hVdef
  set ξ := greville V p with hξdef
  have hξ : ∀ i, i + 1 < n → ξ i < ξ (i + 1) := fun i hi => greville_lt hp (hgap i hi)
  have hcc : ∀ i, i + 2 < n →
      (c (i + 1) - c i) * (ξ (i + 2) - ξ (i + 1)) ≤ (c (i + 2) - c (i + 1)) * (ξ (i + 1) - ξ i) := by
    intro i hi
    have e1 : ξ (i + 2) - ξ (i + 1) = (V (i + p + 2) - V (i + 2)) / p := by
      have := greville_succ_sub V hp (i + 1)
      rwa [show i + 1 + p + 1 = i + p + 2 by omega] at this
    rw [e1, greville_succ_sub V hp i, mul_div_assoc', mul_div_assoc']
    exact div_le_div_of_nonneg_right (hc i hi) hp0.le
  by_contra hcon
  rw [not_le] at hcon
  obtain ⟨fs, hfs⟩ : ∃ y, curve V p n c s = y := ⟨_, rfl⟩
  obtain ⟨ft, hft⟩ : ∃ y, curve V p n c t = y := ⟨_, rfl⟩
  obtain ⟨fw, hfw⟩ : ∃ y, curve V p n c w = y := ⟨_, rfl⟩
  rw [hfs, hft, hfw] at hcon
  obtain ⟨D, hD⟩ : ∃ D, (w - s) * ft - (w - t) * fs - (t - s) * fw = D := ⟨_, rfl⟩
  have hD0 : 0 < D := by rw [← hD]; linarith
  obtain ⟨d, hd⟩ : ∃ d : ℕ → K, d = fun i => (w - s) * c i - ((w - ξ i) * fs + (ξ i - s) * fw) - D / 2 := ⟨_, rfl⟩
  have hval : ∀ x, V p ≤ x → x ≤ V n → curve V p n d x
      = (w - s) * curve V p n c x - ((w - x) * fs + (x - s) * fw) - D / 2 := by
    intro x hx0 hx1
    have g := curve_greville hU hp hx0 hx1
    have o := sum_Nclosed hU hx0 hx1
    rw [← hVdef, ← hξdef] at g
    rw [← hVdef] at o
    have e : ∀ i, d i * Nclosed V p n i x = (w - s) * (c i * Nclosed V p n i x)
        + (fs - fw) * (ξ i * Nclosed V p n i x) + (s * fw - w * fs - D / 2) * Nclosed V p n i x := by
      intro i; rw [hd]; ring
    have : curve V p n d x = (w - s) * curve V p n c x + (fs - fw) * curve V p n ξ x
        + (s * fw - w * fs - D / 2) * ∑ i ∈ range n, Nclosed V p n i x := by
      unfold curve
      rw [mul_sum, mul_sum, mul_sum, ← sum_add_distrib, ← sum_add_distrib]
      exact sum_congr rfl fun i _ => e i
    rw [this, g, o]
    ring
  have vs : curve V p n d s = - (D / 2) := by
    rw [hval s h0 (by linarith), hfs]; ring
  have vt : curve V p n d t = D / 2 := by
    rw [hval t (by linarith) (by linarith), hft, ← hD]; ring
  have vw : curve V p n d w = - (D / 2) := by
    rw [hval w (by linarith) h1, hfw]; ring
  have hsg := curve_signs hU hp d (fun j => if j = 0 then s else if j = 1 then t else w) 2
    (fun j hj => by interval_cases j <;> simp [hst, htw])
    (by simp only [if_true]; rw [← hU.left p le_rfl]; exact h0)
    (by
      have := hU.right n le_rfl (by omega)
      simp only [show (2 : ℕ) ≠ 0 by decide, show (2 : ℕ) ≠ 1 by decide, if_false]
      rw [← this]; exact h1)
    (by simp only [if_true]; rw [← hVdef, vs]; linarith [hD0])
    (fun j hj => by
      have : 0 < D / 2 := by linarith
      interval_cases j
      · simp only [if_true, zero_add, one_ne_zero, if_false]
        rw [← hVdef, vs, vt]; nlinarith
      · simp only [if_true, one_ne_zero, if_false, show (1 + 1 : ℕ) ≠ 0 by decide, show (1 + 1 : ℕ) ≠ 1 by decide]
        rw [← hVdef, vt, vw]; nlinarith)
  obtain ⟨i, hi, hs⟩ := hsg
  have s0 := (hs 0 (by omega)).2
  have s1 := (hs 1 (by omega)).2
  have s2 := hs 2 le_rfl
  simp only [if_true, one_ne_zero, if_false, show (2 : ℕ) ≠ 0 by decide, show (2 : ℕ) ≠ 1 by decide] at s0 s1 s2
  rw [← hVdef, vs] at s0
  rw [← hVdef, vt] at s1
  rw [← hVdef, vw] at s2
  have d0 : d (i 0) < 0 := by by_contra h; rw [not_lt] at h; nlinarith
  have d1 : 0 < d (i 1) := by by_contra h; rw [not_lt] at h; nlinarith
  have d2 : d (i 2) < 0 := by by_contra h; rw [not_lt] at h; nlinarith [s2.2]
  have i01 : i 0 < i 1 := hi 0 (by omega)
  have i12 : i 1 < i 2 := hi 1 (by omega)
  have key := three_point hξ hcc i01 i12 s2.1
  have hinc : ∀ a b, a < b → b < n → ξ a < ξ b := by
    intro a b hab
    induction b, hab using Nat.le_induction with
    | base => exact fun h => hξ a h
    | succ b _ ih => exact fun h => (ih (by omega)).trans (hξ b h)
  have x01 := hinc _ _ i01 (by have := s2.1; omega)
  have x12 := hinc _ _ i12 s2.1
  have hk2 : (d (i 1) - d (i 0)) * (ξ (i 2) - ξ (i 1)) ≤ (d (i 2) - d (i 1)) * (ξ (i 1) - ξ (i 0)) := by
    have e1 : (d (i 1) - d (i 0)) * (ξ (i 2) - ξ (i 1)) = (w - s) * ((c (i 1) - c (i 0)) * (ξ (i 2) - ξ (i 1)))
        + (fs - fw) * (ξ (i 1) - ξ (i 0)) * (ξ (i 2) - ξ (i 1)) := by rw [hd]; ring
    have e2 : (d (i 2) - d (i 1)) * (ξ (i 1) - ξ (i 0)) = (w - s) * ((c (i 2) - c (i 1)) * (ξ (i 1) - ξ (i 0)))
        + (fs - fw) * (ξ (i 1) - ξ (i 0)) * (ξ (i 2) - ξ (i 1)) := by rw [hd]; ring
    rw [e1, e2]
    have := mul_le_mul_of_nonneg_left key (show 0 ≤ w - s by linarith)
    linarith
  have a : 0 < (d (i 1) - d (i 0)) * (ξ (i 2) - ξ (i 1)) := mul_pos (by linarith) (by linarith)
  have b : (d (i 2) - d (i 1)) * (ξ (i 1) - ξ (i 0)) < 0 := mul_neg_of_neg_of_pos (by linarith) (by linarith)
  linarith

/-! ## Slopes -/

theorem coeff_lipschitz (hU : Clamped p n U) (hp : 1 ≤ p) {c : ℕ → K} {L : K}
    (hc : ∀ i, i + 1 < n → |c (i + 1) - c i| * p ≤ L * (knotFn U (i + p + 1) - knotFn U (i + 1)))
    {i j : ℕ} (hi : i < n) (hj : j < n) :
    |c j - c i| ≤ L * |greville (knotFn U) p j - greville (knotFn U) p i| := by
  have hp0 : (0 : K) < p := by exact_mod_cast hp
  have hV := monotone_knotFn hU.mono
  have step : ∀ i, i + 1 < n → |c (i + 1) - c i| ≤ L * (greville (knotFn U) p (i + 1) - greville (knotFn U) p i) := by
    intro i hi
    rw [greville_succ_sub _ hp, mul_div_assoc', le_div_iff₀ hp0]
    exact hc i hi
  have hmono : Monotone (greville (knotFn U) p) := monotone_nat_of_le_succ (greville_le hp hV)
  have up : ∀ i j, i ≤ j → j < n → |c j - c i| ≤ L * (greville (knotFn U) p j - greville (knotFn U) p i) := by
    intro i j hij hj
    rw [abs_le]
    constructor
    · have := sub_le_slope (ξ := greville (knotFn U) p) (c := fun l => - c l) (M := L) hij fun l _ h2 => by
        have := (abs_le.1 (step l (by omega))).1; linarith
      linarith
    · exact sub_le_slope hij fun l _ h2 => (abs_le.1 (step l (by omega))).2
  rcases le_total i j with h | h
  · rw [abs_of_nonneg (sub_nonneg.2 (hmono h))]
    exact up i j h hj
  · rw [abs_sub_comm, abs_sub_comm (greville _ _ _), abs_of_nonneg (sub_nonneg.2 (hmono h))]
    exact up j i h hi

/-- A coefficient is close to the values of the spline near its Greville abscissa. -/
theorem coeff_near_curve (hU : Clamped p n U) (hp : 1 ≤ p) {c : ℕ → K} {L h : K} (hL : 0 ≤ L)
    (hc : ∀ i, i + 1 < n → |c (i + 1) - c i| * p ≤ L * (knotFn U (i + p + 1) - knotFn U (i + 1)))
    (hh : ∀ i < n, knotFn U (i + p + 1) - knotFn U i ≤ h) {u : K} (h0 : knotFn U p ≤ u) (h1 : u ≤ knotFn U n)
    {i : ℕ} (hi : i < n) :
    |c i - curve (knotFn U) p n c u| ≤ L * (|greville (knotFn U) p i - u| + h) := by
  have hV := monotone_knotFn hU.mono
  have h1' : u ≤ knotFn U (n + p) := by rw [← hU.right n le_rfl (by omega)]; exact h1
  have near : ∀ j < n, knotFn U j ≤ u → u ≤ knotFn U (j + p + 1) →
      |c j - c i| ≤ L * (|greville (knotFn U) p i - u| + h) := by
    intro j hj a b
    refine (coeff_lipschitz hU hp hc hi hj).trans (mul_le_mul_of_nonneg_left ?_ hL)
    obtain ⟨g1, g2⟩ := greville_bounds hp hV j
    have g1' := (hV (show j ≤ j + 1 by omega)).trans g1
    have g2' := g2.trans (hV (show j + p ≤ j + p + 1 by omega))
    have hw := hh j hj
    have e : |greville (knotFn U) p j - u| ≤ h := by rw [abs_le]; constructor <;> linarith
    calc |greville (knotFn U) p j - greville (knotFn U) p i|
        = |(greville (knotFn U) p j - u) - (greville (knotFn U) p i - u)| := by ring_nf
      _ ≤ |greville (knotFn U) p j - u| + |greville (knotFn U) p i - u| := abs_sub _ _
      _ ≤ _ := by linarith
  have hup := curve_le hU h0 h1' (c := c) (b := c i + L * (|greville (knotFn U) p i - u| + h)) fun j hj a b => by
    have := (abs_le.1 (near j hj a b)).2; linarith
  have hlo := curve_le hU h0 h1' (c := fun j => - c j) (b := - c i + L * (|greville (knotFn U) p i - u| + h))
    fun j hj a b => by have := (abs_le.1 (near j hj a b)).1; linarith
  have hneg : curve (knotFn U) p n (fun j => - c j) u = - curve (knotFn U) p n c u := by
    unfold curve; rw [← sum_neg_distrib]; exact sum_congr rfl fun j _ => by ring
  rw [hneg] at hlo
  rw [abs_le]
  constructor <;> linarith

/-! ## Knot insertion -/

/-- Boehm's rule takes Greville abscissae to Greville abscissae. -/
theorem greville_boehm {V : ℕ → K} (hV : Monotone V) {k : ℕ} {u : K} (hp : 1 ≤ p) (hpk : p ≤ k) (h1 : V k ≤ u)
    (h2 : u < V (k + 1)) (i : ℕ) :
    greville (insKnots V k u 1) p i = boehm V p k u (greville V p) i := by
  have hp0 : (p : K) ≠ 0 := by exact_mod_cast (by omega : p ≠ 0)
  unfold boehm boehmA
  by_cases a : i + p ≤ k
  · rw [if_pos a, one_mul, sub_self, zero_mul, add_zero]
    unfold greville
    congr 1
    refine sum_congr rfl fun j hj => ?_
    have := mem_range.1 hj
    unfold insKnots
    rw [if_pos (by omega)]
  rw [if_neg a]
  by_cases b : k < i
  · rw [if_pos b, zero_mul, zero_add, sub_zero, one_mul]
    unfold greville
    congr 1
    refine sum_congr rfl fun j hj => ?_
    unfold insKnots
    rw [if_neg (by omega), if_neg (by omega)]
    congr 1
    omega
  rw [if_neg b]
  have hd : V (i + p) - V i ≠ 0 := by
    have x : V i ≤ V k := hV (by omega)
    have y : V (k + 1) ≤ V (i + p) := hV (by omega)
    intro h; linarith
  obtain ⟨q, rfl⟩ : ∃ q, p = q + 1 := ⟨p - 1, by omega⟩
  have hi : 1 ≤ i := by omega
  -- the common part
  have s1 : ∑ j ∈ range (q + 1), V (i + 1 + j) = ∑ j ∈ range q, V (i + 1 + j) + V (i + (q + 1)) := by
    rw [sum_range_succ, show i + 1 + q = i + (q + 1) by omega]
  have s2 : ∑ j ∈ range (q + 1), V (i - 1 + 1 + j) = ∑ j ∈ range q, V (i + 1 + j) + V i := by
    rw [sum_range_succ', show i - 1 + 1 + 0 = i by omega]
    congr 1
    exact sum_congr rfl fun j _ => by congr 1; omega
  have s3 : ∑ j ∈ range (q + 1), insKnots V k u 1 (i + 1 + j) = ∑ j ∈ range q, V (i + 1 + j) + u := by
    have key : ∀ m, ∑ j ∈ range m, insKnots V k u 1 (i + 1 + j)
        = if m + i ≤ k then ∑ j ∈ range m, V (i + 1 + j) else ∑ j ∈ range (m - 1), V (i + 1 + j) + u := by
      intro m
      induction m with
      | zero => rw [if_pos (by omega)]; simp
      | succ m ih =>
        rw [sum_range_succ, ih]
        by_cases c1 : m + 1 + i ≤ k
        · rw [if_pos c1, if_pos (by omega), sum_range_succ]
          unfold insKnots
          rw [if_pos (by omega)]
        · rw [if_neg c1]
          by_cases c2 : m + i ≤ k
          · rw [if_pos c2, Nat.add_sub_cancel]
            unfold insKnots
            rw [if_neg (by omega), if_pos (by omega)]
          · rw [if_neg c2, Nat.add_sub_cancel]
            obtain ⟨m', rfl⟩ : ∃ m', m = m' + 1 := ⟨m - 1, by omega⟩
            rw [Nat.add_sub_cancel, sum_range_succ]
            unfold insKnots
            rw [if_neg (by omega), if_neg (by omega), show i + 1 + (m' + 1) - 1 = i + 1 + m' by omega]
            ring
    rw [key, if_neg (by omega), Nat.add_sub_cancel]
  unfold greville
  rw [s1, s2, s3]
  field_simp
  ring

/-- The slope bound survives Boehm's rule. -/
theorem boehm_slopes {V : ℕ → K} (hV : Monotone V) {k : ℕ} {u : K} (hp : 1 ≤ p) (hpk : p ≤ k) (h1 : V k ≤ u)
    (h2 : u < V (k + 1)) {c : ℕ → K} {L : K} {n : ℕ} (hk : k < n)
    (hc : ∀ i, i + 1 < n → |c (i + 1) - c i| * p ≤ L * (V (i + p + 1) - V (i + 1))) :
    ∀ i, i + 1 < n + 1 → |boehm V p k u c (i + 1) - boehm V p k u c i| * p
      ≤ L * (insKnots V k u 1 (i + p + 1) - insKnots V k u 1 (i + 1)) := by
  have hp0 : (0 : K) < p := by exact_mod_cast hp
  have step : ∀ i, i + 1 < n → |c (i + 1) - c i| ≤ L * (greville V p (i + 1) - greville V p i) := by
    intro i hi
    rw [greville_succ_sub _ hp, mul_div_assoc', le_div_iff₀ hp0]
    exact hc i hi
  intro i hi
  rw [← le_div_iff₀ hp0, mul_div_assoc, ← greville_succ_sub _ hp, greville_boehm hV hp hpk h1 h2,
    greville_boehm hV hp hpk h1 h2]
  have hA : ∀ i, 0 ≤ boehmA V p k u i ∧ boehmA V p k u i ≤ 1 := boehmA_bounds hV h1 h2
  have ex : ∀ g : ℕ → K, boehm V p k u g (i + 1) - boehm V p k u g i
      = boehmA V p k u (i + 1) * (g (i + 1) - g i) + (1 - boehmA V p k u i) * (g i - g (i - 1)) := by
    intro g; unfold boehm; rw [Nat.add_sub_cancel]; ring
  rw [ex c, ex (greville V p)]
  have t1 : |boehmA V p k u (i + 1) * (c (i + 1) - c i)|
      ≤ L * (boehmA V p k u (i + 1) * (greville V p (i + 1) - greville V p i)) := by
    by_cases hz : i + 1 < n
    · rw [abs_mul, abs_of_nonneg (hA _).1]
      have := mul_le_mul_of_nonneg_left (step i hz) (hA (i + 1)).1
      linarith
    · have : boehmA V p k u (i + 1) = 0 := by
        unfold boehmA; rw [if_neg (by omega), if_pos (by omega)]
      rw [this, zero_mul, zero_mul, mul_zero, abs_zero]
  have t2 : |(1 - boehmA V p k u i) * (c i - c (i - 1))|
      ≤ L * ((1 - boehmA V p k u i) * (greville V p i - greville V p (i - 1))) := by
    rcases Nat.eq_zero_or_pos i with rfl | hi0
    · simp
    · rw [abs_mul, abs_of_nonneg (sub_nonneg.2 (hA _).2)]
      have := step (i - 1) (by omega)
      rw [show i - 1 + 1 = i by omega] at this
      have := mul_le_mul_of_nonneg_left this (sub_nonneg.2 (hA i).2)
      linarith
  refine (abs_add_le _ _).trans ?_
  linarith

theorem boehmIter_slopes {V : ℕ → K} (hV : Monotone V) {k : ℕ} {u : K} (hp : 1 ≤ p) (hpk : p ≤ k) (h1 : V k ≤ u)
    (h2 : u < V (k + 1)) {c : ℕ → K} {L : K} {n : ℕ} (hk : k < n)
    (hc : ∀ i, i + 1 < n → |c (i + 1) - c i| * p ≤ L * (V (i + p + 1) - V (i + 1))) (r : ℕ) :
    ∀ i, i + 1 < n + r → |boehmIter V p k u c r (i + 1) - boehmIter V p k u c r i| * p
      ≤ L * (insKnots V k u r (i + p + 1) - insKnots V k u r (i + 1)) := by
  induction r with
  | zero => rw [insKnots_zero]; exact hc
  | succ r ih =>
    rw [← insKnots_succ]
    refine boehm_slopes (n := n + r) (insKnots_mono hV h1 h2.le r) hp (by omega) ?_ ?_ (by omega) ih
    · unfold insKnots
      by_cases h : k + r ≤ k
      · rw [if_pos h, show k + r = k by omega]; exact h1
      · rw [if_neg h, if_pos le_rfl]
    · unfold insKnots
      rw [if_neg (by omega), if_neg (by omega), show k + r + 1 - r = k + 1 by omega]
      exact h2

end PySpline
