import Verif.Lemmas.IeeeAux
import Verif.Lemmas.RoundedInsertion

/-!
# Knot insertion in arithmetic with overflow and underflow
-/

set_option linter.unusedSectionVars false

namespace PySpline

open Spec Ext

section
variable {K : Type} [Field K] [LinearOrder K] [IsStrictOrderedRing K]

/-- The computed weight. -/
def alphaR (rd : K → Ext K) (u a b : Ext K) : Ext K := rnd rd (rnd rd (u - a) / rnd rd (b - a))

/-- The computed combination of two numbers. -/
def combR (rd : K → Ext K) (α x y : Ext K) : Ext K :=
  rnd rd (rnd rd (α * x) + rnd rd (rnd rd (1 - α) * y))

/-- The growth in one round. -/
def insGrowth (ρ η : K) : K := (1 / ρ) ^ 6 * (1 + η)

theorem one_le_insGrowth {ρ η M : K} {rd : K → Ext K} (hr : IeeeRounding ρ η M rd) : 1 ≤ insGrowth ρ η := by
  have h1 : 1 ≤ (1 / ρ) ^ 6 := one_le_pow₀ hr.one_le
  have h2 : 1 ≤ 1 + η := by linarith [hr.eta]
  unfold insGrowth
  nlinarith

/-- The computed weight is a number close to the exact one. -/
theorem alphaR_near {ρ η M : K} {rd : K → Ext K} (hr : IeeeRounding ρ η M rd) {u a b : K} (hu : rd u = fin u)
    (ha : rd a = fin a) (hb : rd b = fin b) (h1 : a ≤ u) (h2 : u < b) (hab : b - a ≤ M)
    (hM : insGrowth ρ η ≤ M) :
    ∃ α', alphaR rd (fin u) (fin a) (fin b) = fin α' ∧ rd α' = fin α' ∧
      |α' - (u - a) / (b - a)| ≤ (1 / ρ) ^ 3 * (1 + η) - 1 := by
  have hba : 0 < b - a := by linarith
  have hg := hr.one_le
  have hM2 : 1 ≤ M * ρ ^ (1 + 1) := by
    have a1 : (1 / ρ) ^ 2 ≤ insGrowth ρ η := by
      have : (1 / ρ) ^ 2 ≤ (1 / ρ) ^ 6 := pow_le_pow_right₀ hg (by norm_num)
      have : (1 / ρ) ^ 6 * 1 ≤ (1 / ρ) ^ 6 * (1 + η) :=
        mul_le_mul_of_nonneg_left (by linarith [hr.eta]) (by positivity)
      unfold insGrowth
      linarith
    have a2 : (1 / ρ) ^ 2 ≤ M := a1.trans hM
    rw [one_div_pow, div_le_iff₀ (pow_pos hr.pos 2)] at a2
    exact a2
  have n1 := IsNear.sub hr hu ha (by linarith) (by linarith)
  have n2 := IsNear.sub hr hb ha hba.le hab
  have n3 := IsNear.div hr n1 n2 hba (by
    rw [add_zero]
    have := mul_le_mul_of_nonneg_right hM2 hba.le
    linarith)
  rw [zero_div, zero_add] at n3
  obtain ⟨α', e, st, -, hα⟩ := IsNear.abs_sub_le hr n3
  refine ⟨α', e, st, hα.trans ?_⟩
  have w1 : (u - a) / (b - a) ≤ 1 := (div_le_one hba).2 (by linarith)
  have g3 : 1 ≤ (1 / ρ) ^ (1 + 1 + 1) := one_le_pow₀ hg
  have := mul_le_mul_of_nonneg_left w1 (sub_nonneg.2 g3)
  norm_num at this ⊢
  linarith

/-- The error of one combination. -/
theorem combR_error {ρ η M : K} {rd : K → Ext K} (hr : IeeeRounding ρ η M rd) {u a b x x' y y' e B : K}
    (hu : rd u = fin u) (ha : rd a = fin a) (hb : rd b = fin b) (h1 : a ≤ u) (h2 : u < b) (hab : b - a ≤ M)
    (ex : |x' - x| ≤ e) (ey : |y' - y| ≤ e) (bx : |x| ≤ B) (bY : |y| ≤ B)
    (hM : insGrowth ρ η ≤ M) (hMB : 2 * insGrowth ρ η * (B + e + η) ≤ M) :
    ∃ z, combR rd (alphaR rd (fin u) (fin a) (fin b)) (fin x') (fin y') = fin z ∧ rd z = fin z ∧
      |z - ((u - a) / (b - a) * x + (1 - (u - a) / (b - a)) * y)|
        ≤ e + 2 * (insGrowth ρ η - 1) * (B + e) + 2 * (1 / ρ) ^ 2 * η := by
  obtain ⟨α', hα, stα, eα⟩ := alphaR_near hr hu ha hb h1 h2 hab hM
  have hη := hr.eta
  have hba : 0 < b - a := by linarith
  set α := (u - a) / (b - a) with hαd
  have w0 : 0 ≤ α := div_nonneg (by linarith) hba.le
  have w1 : α ≤ 1 := (div_le_one hba).2 (by linarith)
  have hg := hr.one_le
  set g := 1 / ρ with hgd
  set X := B + e with hX
  have hB : 0 ≤ B := (abs_nonneg _).trans bx
  have he : 0 ≤ e := (abs_nonneg _).trans ex
  have hX0 : 0 ≤ X := add_nonneg hB he
  have hg3 : 1 ≤ g ^ 3 := one_le_pow₀ hg
  set τ := g ^ 3 * (1 + η) with hτ
  have hτ1 : 1 ≤ τ := one_le_mul_of_one_le_of_one_le hg3 (by linarith)
  set θ := g * τ with hθ
  have hτθ : τ ≤ θ := le_mul_of_one_le_left (by linarith) hg
  have hκ : insGrowth ρ η = g ^ 2 * θ := by unfold insGrowth; rw [hθ, hτ]; ring
  rw [hκ] at hM hMB ⊢
  have hθ1 : 1 ≤ θ := hτ1.trans hτθ
  have hg2 : g ≤ g ^ 2 := le_self_pow₀ hg (by norm_num)
  have hθM : g * θ ≤ g ^ 2 * θ := mul_le_mul_of_nonneg_right hg2 (by linarith)
  have hθM' : θ ≤ g * θ := le_mul_of_one_le_left (by linarith) hg
  -- 1 - α'
  have c1 : |1 + -α'| ≤ τ := by
    have : 1 + -α' = (1 - α) + -(α' - α) := by ring
    rw [this]
    refine (abs_add_le _ _).trans ?_
    rw [abs_neg, abs_of_nonneg (by linarith : 0 ≤ 1 - α)]
    linarith
  have a1 : |α'| ≤ τ := by
    have : α' = α + (α' - α) := by ring
    rw [this]
    refine (abs_add_le _ _).trans ?_
    rw [abs_of_nonneg w0]
    linarith
  obtain ⟨β', hβ, stβ, eβ⟩ := hr.add_abs hr.one (show rd (-α') = fin (-α') by rw [hr.neg, stα]; rfl)
    (by linarith : |1 + -α'| ≤ M)
  have eβ1 : |β' - (1 + -α')| ≤ (g - 1) * τ := eβ.trans (mul_le_mul_of_nonneg_left c1 (by linarith))
  have eβ2 : |β' - (1 - α)| ≤ θ - 1 := by
    have : β' - (1 - α) = (β' - (1 + -α')) + -(α' - α) := by ring
    rw [this]
    refine (abs_add_le _ _).trans ?_
    rw [abs_neg]
    have : (g - 1) * τ = θ - τ := by rw [hθ]; ring
    linarith
  have b1 : |β'| ≤ θ := by
    have : β' = (1 + -α') + (β' - (1 + -α')) := by ring
    rw [this]
    refine (abs_add_le _ _).trans ?_
    have : (g - 1) * τ = θ - τ := by rw [hθ]; ring
    linarith
  have eα2 : |α' - α| ≤ θ - 1 := by linarith
  -- the products
  have x1 : |x'| ≤ X := by
    have : x' = x + (x' - x) := by ring
    rw [this]
    exact (abs_add_le _ _).trans (by linarith)
  have y1 : |y'| ≤ X := by
    have : y' = y + (y' - y) := by ring
    rw [this]
    exact (abs_add_le _ _).trans (by linarith)
  have px : |α' * x'| ≤ θ * X := by
    rw [abs_mul]
    exact mul_le_mul (a1.trans hτθ) x1 (abs_nonneg _) (by linarith)
  have py : |β' * y'| ≤ θ * X := by
    rw [abs_mul]
    exact mul_le_mul b1 y1 (abs_nonneg _) (by linarith)
  have hbig : 2 * (g * (θ * X + η)) ≤ M := by
    refine le_trans ?_ hMB
    have e1 : g * θ * X ≤ g ^ 2 * θ * X := mul_le_mul_of_nonneg_right hθM hX0
    have e2 : g * η ≤ g ^ 2 * θ * η :=
      mul_le_mul_of_nonneg_right (hg2.trans (le_mul_of_one_le_right (by positivity) hθ1)) hη
    have : 2 * (g ^ 2 * θ) * (X + η) = 2 * (g ^ 2 * θ * X) + 2 * (g ^ 2 * θ * η) := by ring
    rw [this]
    linarith
  have hsm : θ * X ≤ M := by
    have : θ * X + η ≤ g * (θ * X + η) := le_mul_of_one_le_left (by positivity) hg
    have : 0 ≤ θ * X := by positivity
    linarith
  obtain ⟨s, hs, sts, es⟩ := hr.near_abs (px.trans hsm)
  obtain ⟨t, ht, stt, et⟩ := hr.near_abs (py.trans hsm)
  have es1 : |s - α' * x'| ≤ (g - 1) * (θ * X) + g * η :=
    es.trans (by have := mul_le_mul_of_nonneg_left px (sub_nonneg.2 hg); linarith)
  have et1 : |t - β' * y'| ≤ (g - 1) * (θ * X) + g * η :=
    et.trans (by have := mul_le_mul_of_nonneg_left py (sub_nonneg.2 hg); linarith)
  have s1 : |s| ≤ g * (θ * X + η) := by
    have : s = α' * x' + (s - α' * x') := by ring
    rw [this]
    exact (abs_add_le _ _).trans (by linarith)
  have t1 : |t| ≤ g * (θ * X + η) := by
    have : t = β' * y' + (t - β' * y') := by ring
    rw [this]
    exact (abs_add_le _ _).trans (by linarith)
  have st1 : |s + t| ≤ 2 * (g * (θ * X + η)) := (abs_add_le _ _).trans (by linarith)
  obtain ⟨z, hz, stz, ez⟩ := hr.add_abs sts stt (st1.trans hbig)
  have ez1 : |z - (s + t)| ≤ (g - 1) * (2 * (g * (θ * X + η))) :=
    ez.trans (mul_le_mul_of_nonneg_left st1 (sub_nonneg.2 hg))
  refine ⟨z, ?_, stz, ?_⟩
  · unfold combR
    rw [hα]
    rw [← sub_eq_add_neg] at hβ
    show rnd rd (rd (α' * x') + rnd rd (rd (1 - α') * fin y')) = fin z
    rw [hs, hβ]
    show rnd rd (fin s + rd (β' * y')) = fin z
    rw [ht]
    exact hz
  · have split : z - (α * x + (1 - α) * y) = (z - (s + t)) + ((s - α' * x') + (t - β' * y'))
        + ((α' - α) * x' + (β' - (1 - α)) * y') + (α * (x' - x) + (1 - α) * (y' - y)) := by ring
    rw [split]
    have q1 : |(α' - α) * x'| ≤ (θ - 1) * X := by
      rw [abs_mul]; exact mul_le_mul eα2 x1 (abs_nonneg _) (by linarith)
    have q2 : |(β' - (1 - α)) * y'| ≤ (θ - 1) * X := by
      rw [abs_mul]; exact mul_le_mul eβ2 y1 (abs_nonneg _) (by linarith)
    have q3 : |α * (x' - x)| ≤ α * e := by
      rw [abs_mul, abs_of_nonneg w0]; exact mul_le_mul_of_nonneg_left ex w0
    have q4 : |(1 - α) * (y' - y)| ≤ (1 - α) * e := by
      rw [abs_mul, abs_of_nonneg (by linarith : 0 ≤ 1 - α)]; exact mul_le_mul_of_nonneg_left ey (by linarith)
    have r1 := abs_add_le ((z - (s + t)) + ((s - α' * x') + (t - β' * y')) + ((α' - α) * x' + (β' - (1 - α)) * y'))
      (α * (x' - x) + (1 - α) * (y' - y))
    have r2 := abs_add_le ((z - (s + t)) + ((s - α' * x') + (t - β' * y'))) ((α' - α) * x' + (β' - (1 - α)) * y')
    have r3 := abs_add_le (z - (s + t)) ((s - α' * x') + (t - β' * y'))
    have r4 := abs_add_le (s - α' * x') (t - β' * y')
    have r5 := abs_add_le ((α' - α) * x') ((β' - (1 - α)) * y')
    have r6 := abs_add_le (α * (x' - x)) ((1 - α) * (y' - y))
    have fin1 : e + 2 * (g ^ 2 * θ - 1) * X + 2 * g ^ 2 * η
        = (g - 1) * (2 * (g * (θ * X + η))) + 2 * ((g - 1) * (θ * X) + g * η) + 2 * ((θ - 1) * X)
          + (α * e + (1 - α) * e) := by ring
    rw [fin1]
    linarith

/-- Control points after `t` insertions of `u` behind knot `k`, where `u` occurs `s` times, as computed. -/
def insIterR (rd : K → Ext K) (V : ℕ → Ext K) (p k s : ℕ) (u : Ext K) (c : ℕ → Ext K) : ℕ → ℕ → Ext K
  | 0 => c
  | t + 1 => fun m =>
    if m + p ≤ k + t then insIterR rd V p k s u c t m
    else if k < m + s then insIterR rd V p k s u c t (m - 1)
    else combR rd (alphaR rd u (V m) (V (m + p - t))) (insIterR rd V p k s u c t m) (insIterR rd V p k s u c t (m - 1))

section
variable {rd : K → Ext K} {V : ℕ → Ext K} {p k s r : ℕ} {u : Ext K} {c : ℕ → Ext K}

theorem insIterR_left {t m : ℕ} (d : ℕ) (h : m + p ≤ k + t) :
    insIterR rd V p k s u c (t + d) m = insIterR rd V p k s u c t m := by
  induction d with
  | zero => rfl
  | succ d ih =>
    rw [← Nat.add_assoc]
    conv_lhs => unfold insIterR
    rw [if_pos (by omega), ih]

theorem insIterR_right {t m : ℕ} (hr : r + s ≤ p) (d : ℕ) (ht : t + d ≤ r) (hm : k ≤ m + s) :
    insIterR rd V p k s u c (t + d) (m + d) = insIterR rd V p k s u c t m := by
  induction d with
  | zero => rfl
  | succ d ih =>
    rw [← Nat.add_assoc, ← Nat.add_assoc]
    conv_lhs => unfold insIterR
    rw [if_neg (by omega), if_pos (by omega), Nat.add_sub_cancel, ih (by omega)]

theorem insIterR_mid {t i : ℕ} (hk : p ≤ k) (h : k - p + t + 1 + i + s ≤ k) :
    insIterR rd V p k s u c (t + 1) (k - p + t + 1 + i)
      = combR rd (alphaR rd u (V (k - p + t + 1 + i)) (V (i + k + 1)))
        (insIterR rd V p k s u c t (k - p + t + (i + 1))) (insIterR rd V p k s u c t (k - p + t + i)) := by
  conv_lhs => unfold insIterR
  rw [if_neg (by omega), if_neg (by omega), show k - p + t + 1 + i + p - t = i + k + 1 by omega,
    show k - p + t + 1 + i - 1 = k - p + t + i by omega, show k - p + t + 1 + i = k - p + t + (i + 1) by omega]

end

/-- The error bound after `t` insertions. -/
def insErr (ρ η B : K) (t : ℕ) : K := insGrowth ρ η ^ (2 * t) * (B + t * (2 * (1 / ρ) ^ 2 * η)) - B

theorem insErr_nonneg {ρ η M B : K} {rd : K → Ext K} (hr : IeeeRounding ρ η M rd) (hB : 0 ≤ B) (t : ℕ) :
    0 ≤ insErr ρ η B t := by
  have h1 : 1 ≤ insGrowth ρ η ^ (2 * t) := one_le_pow₀ (one_le_insGrowth hr)
  have h2 : 0 ≤ (t : K) * (2 * (1 / ρ) ^ 2 * η) := by
    have := hr.eta; positivity
  unfold insErr
  nlinarith

theorem insErr_succ {ρ η M B : K} {rd : K → Ext K} (hr : IeeeRounding ρ η M rd) (hB : 0 ≤ B) (t : ℕ) :
    insErr ρ η B t + 2 * (insGrowth ρ η - 1) * (B + insErr ρ η B t) + 2 * (1 / ρ) ^ 2 * η ≤ insErr ρ η B (t + 1) := by
  set κ := insGrowth ρ η with hκ
  have h1 : 1 ≤ κ := one_le_insGrowth hr
  set δ := 2 * (1 / ρ) ^ 2 * η with hδ
  have hδ0 : 0 ≤ δ := by have := hr.eta; positivity
  have hX : B + insErr ρ η B t = κ ^ (2 * t) * (B + t * δ) := by unfold insErr; ring
  have hX' : B + insErr ρ η B (t + 1) = κ ^ (2 * t) * κ ^ 2 * (B + t * δ) + κ ^ (2 * (t + 1)) * δ := by
    unfold insErr; push_cast; rw [show 2 * (t + 1) = 2 * t + 2 by ring, pow_add]; ring
  have hX0 : 0 ≤ κ ^ (2 * t) * (B + t * δ) := by positivity
  have h2 : 1 ≤ κ ^ (2 * (t + 1)) := one_le_pow₀ h1
  have h3 : δ ≤ κ ^ (2 * (t + 1)) * δ := le_mul_of_one_le_left hδ0 h2
  have h4 : (2 * κ - 1) * (κ ^ (2 * t) * (B + t * δ)) ≤ κ ^ 2 * (κ ^ (2 * t) * (B + t * δ)) :=
    mul_le_mul_of_nonneg_right (by nlinarith [sq_nonneg (κ - 1)]) hX0
  rw [hX]
  have : insErr ρ η B t = κ ^ (2 * t) * (B + t * δ) - B := by rw [← hX]; ring
  rw [this]
  have : insErr ρ η B (t + 1) = κ ^ (2 * t) * κ ^ 2 * (B + t * δ) + κ ^ (2 * (t + 1)) * δ - B := by rw [← hX']; ring
  rw [this]
  linarith

theorem insErr_mono {ρ η M B : K} {rd : K → Ext K} (hr : IeeeRounding ρ η M rd) (hB : 0 ≤ B) {t r : ℕ} (h : t ≤ r) :
    insErr ρ η B t ≤ insErr ρ η B r := by
  induction r, h using Nat.le_induction with
  | base => exact le_rfl
  | succ r _ ih =>
    refine ih.trans ?_
    have h1 := insErr_succ hr hB r
    have h2 := insErr_nonneg hr hB r
    have h3 := one_le_insGrowth hr
    have h4 : 0 ≤ 2 * (insGrowth ρ η - 1) * (B + insErr ρ η B r) :=
      mul_nonneg (by linarith) (by linarith)
    have h5 : 0 ≤ 2 * (1 / ρ) ^ 2 * η := by have := hr.eta; positivity
    linarith

/-- All computed control points are numbers, and close to the exact ones. -/
theorem insIterR_error {ρ η M : K} {rd : K → Ext K} (hr : IeeeRounding ρ η M rd) {V : ℕ → K} (hV : Monotone V)
    (hst : ∀ i, rd (V i) = fin (V i)) {p k s r : ℕ} {u : K} (hu : rd u = fin u) {c : ℕ → K} (hpk : p ≤ k)
    (h1 : V k ≤ u) (h2 : u < V (k + 1)) (hspan : ∀ i j, V j - V i ≤ M)
    (hs : ∀ j, k < j + s → j ≤ k → V j = u) (hrs : r + s ≤ p) {B : K} (hc : ∀ i, |c i| ≤ B)
    (hcst : ∀ i, rd (c i) = fin (c i)) (hM : insGrowth ρ η ≤ M)
    (hMB : 2 * insGrowth ρ η * (B + insErr ρ η B r + η) ≤ M) (t : ℕ) (ht : t ≤ r) :
    ∀ m, ∃ z, insIterR rd (fun i => fin (V i)) p k s (fin u) (fun i => fin (c i)) t m = fin z ∧ rd z = fin z ∧
      |z - boehmIter V p k u c t m| ≤ insErr ρ η B t := by
  have hB : 0 ≤ B := (abs_nonneg _).trans (hc 0)
  have hκ := one_le_insGrowth hr
  induction t with
  | zero =>
    intro m
    refine ⟨c m, rfl, hcst m, ?_⟩
    show |c m - c m| ≤ _
    rw [sub_self, abs_zero]
    exact insErr_nonneg hr hB 0
  | succ t ih =>
    have ih := ih (by omega)
    have grow := insErr_mono hr hB (Nat.le_succ t)
    intro m
    by_cases a : m + p ≤ k + t
    · rw [boehmIter_left_step a, insIterR_left 1 a]
      obtain ⟨z, e1, e2, e3⟩ := ih m
      exact ⟨z, e1, e2, e3.trans grow⟩
    by_cases b : k < m + s
    · obtain ⟨m, rfl⟩ : ∃ m', m = m' + 1 := ⟨m - 1, by omega⟩
      rw [boehmIter_right_step hs hrs (by omega) (by omega), insIterR_right hrs 1 ht (by omega)]
      obtain ⟨z, e1, e2, e3⟩ := ih m
      exact ⟨z, e1, e2, e3.trans grow⟩
    obtain ⟨i, rfl⟩ : ∃ i, m = k - p + t + 1 + i := ⟨m - (k - p + t + 1), by omega⟩
    rw [boehmIter_mid hpk (by omega), insIterR_mid hpk (by omega)]
    have A : V (k - p + t + 1 + i) ≤ u := (hV (by omega)).trans h1
    have C : u < V (i + k + 1) := h2.trans_le (hV (by omega))
    have bd := boehmIter_bounded hV hpk h1 h2 hs hrs hc t (by omega)
    obtain ⟨x, x1, x2, x3⟩ := ih (k - p + t + (i + 1))
    obtain ⟨y, y1, y2, y3⟩ := ih (k - p + t + i)
    rw [x1, y1]
    obtain ⟨z, z1, z2, z3⟩ := combR_error hr hu (hst _) (hst _) A C (hspan _ _) x3 y3 (bd _) (bd _) hM (by
      refine le_trans (mul_le_mul_of_nonneg_left ?_ (by linarith)) hMB
      have := insErr_mono hr hB (show t ≤ r by omega)
      linarith)
    exact ⟨z, z1, z2, z3.trans (insErr_succ hr hB t)⟩

end

section
variable {K : Type} [Field K] [LinearOrder K]

/-! ## Agreement -/

theorem curveKnotInsertionR_fin (p : ℕ) (U : List (Ext K)) (P : List (List (Ext K))) (u : Ext K) (r : ℕ) :
    curveKnotInsertionR fin p U P u r = curveKnotInsertionE p U P u r := by
  unfold curveKnotInsertionR curveKnotInsertionE findSpanR findSpanE findSpanFuelE findMultiplicityR findMultiplicityE rowCombR
    rowCombE iscloseDE
  simp only [rnd_fin, divE, ok_bind, iscloseR_fin]

theorem iscloseR_fl (fl : K → K) (a b rtol atol : K) :
    iscloseR (fun x => fin (fl x)) (fin a) (fin b) rtol atol = iscloseFl fl a b rtol atol := by
  unfold iscloseR iscloseFl
  rw [if_pos (by rfl), Bool.eq_iff_iff, decide_eq_true_iff]
  exact le_lift _ _

theorem rowCombR_lift (fl : K → K) (a : K) (x y : List K) :
    rowCombR (fun x => fin (fl x)) (fin a) (lift1 x) (lift1 y) = lift1 (rowCombFl fl a x y) :=
  zipWith_lift (fun s t => fl (fl (a * s) + fl (fl (1 - a) * t))) _ (fun _ _ => rfl) x y

theorem curveKnotInsertionR_follows (fl : K → K) (p : ℕ) (U : List K) (P : List (List K)) (u : K) (r : ℕ) :
    Follows (Prod.map lift1 lift2) (curveKnotInsertionFl fl p U P u r)
      (curveKnotInsertionR (fun x => fin (fl x)) p (lift1 U) (lift2 P) (fin u) r) := by
  unfold curveKnotInsertionFl curveKnotInsertionR
  have hm : findMultiplicityR (fun x => fin (fl x)) (fin u) (lift1 U) = findMultiplicityFl fl u U := by
    unfold findMultiplicityR findMultiplicityFl
    rw [List.foldl_map]
    simp only [iscloseR_fl]
  rw [List.length_map, List.length_map, hm, replicate_zero, zeros2E_lift, zeros2E_lift, findSpanR_lift]
  simp only [iscloseR_fl]
  refine Follows.bind (f := id) (fun _ => (congrFun Except.map_id _).symm) fun k => ?_
  dsimp only [id]
  refine Follows.bind (Follows.forZ rfl fun i kv => Follows.bind (Follows.get _ _) fun x => Follows.set _ _ rfl)
    fun kv1 => ?_
  refine Follows.bind (Follows.forZ rfl fun i kv => Follows.set _ _ rfl) fun kv2 => ?_
  refine Follows.bind (Follows.forZ rfl fun i kv => Follows.bind (Follows.get _ _) fun x => Follows.set _ _ rfl)
    fun kv3 => ?_
  refine Follows.bind (Follows.forZ rfl fun i kv => Follows.bind (Follows.get _ _) fun x =>
    assignRowE_follows _ _ rfl) fun P1 => ?_
  refine Follows.bind (Follows.forZ rfl fun i kv => Follows.bind (Follows.get _ _) fun x =>
    assignRowE_follows _ _ rfl) fun P2 => ?_
  refine Follows.bind (Follows.forZ rfl fun i kv => Follows.bind (Follows.get _ _) fun x =>
    assignRowE_follows _ _ rfl) fun R => ?_
  refine Follows.bind (f := Prod.map lift2 lift2) (Follows.forZ rfl ?_) ?_
  · rintro j ⟨Q, R⟩
    dsimp only [Prod.map]
    refine Follows.bind (Follows.forZ rfl fun i R => ?_) fun R => ?_
    · refine Follows.bind (Follows.get _ _) fun a => ?_
      refine Follows.bind (Follows.get _ _) fun b => ?_
      have := Follows.bind (Follows.divFl fl (fl (u - a)) (fl (b - a))) (g := lift2)
        (k := fun alpha => do
          let x ← pyGet R (i + 1)
          let y ← pyGet R i
          assignRow R i (rowCombFl fl alpha x y))
        (k' := fun alpha => do
          let x ← pyGet (lift2 R) (i + 1)
          let y ← pyGet (lift2 R) i
          assignRowE (lift2 R) i (rowCombR (fun x => fin (fl x)) alpha x y)) (fun al => by
          refine Follows.bind (Follows.get _ _) fun x => ?_
          refine Follows.bind (Follows.get _ _) fun y => ?_
          exact assignRowE_follows _ _ (rowCombR_lift _ _ _ _))
      rw [ok_bind] at this
      exact this
    · refine Follows.bind (Follows.get _ _) fun r0 => ?_
      refine Follows.bind (assignRowE_follows _ _ rfl) fun Q => ?_
      refine Follows.bind (Follows.get _ _) fun r1 => ?_
      refine Follows.bind (assignRowE_follows _ _ rfl) fun Q => ?_
      exact Follows.ok rfl
  · rintro ⟨Q, R⟩
    dsimp only [Prod.map]
    refine Follows.bind (Follows.forZ rfl fun i m => Follows.bind (Follows.get _ _) fun x =>
      assignRowE_follows _ _ rfl) fun P1 => ?_
    exact Follows.ok rfl

end
end PySpline
