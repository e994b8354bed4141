import Verif.Lemmas.FitUniqueAux
import Verif.Lemmas.Zeros
import Mathlib.Tactic.FieldSimp

/-!
Helper lemmas for C177: solutions of banded normal equations decay away from the changed data.
-/

set_option linter.unusedSectionVars false

namespace PySpline

open Spec Finset

variable {K : Type} [Field K] [LinearOrder K] [IsStrictOrderedRing K]

section Abstract
variable {ι : Type}

/-- The value at datum `r` of the function with coefficients `x` in the basis `B r`. -/
def lin (S : Finset ι) (B : ℕ → ι → K) (x : ι → K) (r : ℕ) : K := ∑ i ∈ S, x i * B r i

/-- The square of a convex combination is at most the convex combination of the squares. -/
theorem lin_sq_le {S : Finset ι} {B : ℕ → ι → K} {r : ℕ} (h0 : ∀ i ∈ S, 0 ≤ B r i) (h1 : ∑ i ∈ S, B r i ≤ 1)
    (x : ι → K) : lin S B x r ^ 2 ≤ ∑ i ∈ S, x i ^ 2 * B r i := by
  set s := lin S B x r with hs
  have h : 0 ≤ ∑ i ∈ S, (x i - s) ^ 2 * B r i := sum_nonneg fun i hi => mul_nonneg (sq_nonneg _) (h0 i hi)
  have e : ∑ i ∈ S, (x i - s) ^ 2 * B r i = ∑ i ∈ S, x i ^ 2 * B r i - 2 * s * s + s ^ 2 * ∑ i ∈ S, B r i := by
    nth_rewrite 3 [hs]
    unfold lin
    rw [mul_sum, mul_sum, ← sum_sub_distrib, ← sum_add_distrib]
    exact sum_congr rfl fun i _ => by ring
  have h2 := mul_le_mul_of_nonneg_left h1 (sq_nonneg s)
  nlinarith

/-- The sum of the squared values is at most `D` times the sum of the squared coefficients. -/
theorem sum_lin_sq_le {S : Finset ι} {B : ℕ → ι → K} {m : ℕ} {D : K} {fixed : ι → Prop}
    (h0 : ∀ r < m, ∀ i ∈ S, 0 ≤ B r i) (h1 : ∀ r < m, ∑ i ∈ S, B r i ≤ 1)
    (hD : ∀ i ∈ S, ¬ fixed i → ∑ r ∈ range m, B r i ≤ D) {x : ι → K} (hx : ∀ i ∈ S, fixed i → x i = 0) :
    ∑ r ∈ range m, lin S B x r ^ 2 ≤ D * ∑ i ∈ S, x i ^ 2 := by
  calc ∑ r ∈ range m, lin S B x r ^ 2 ≤ ∑ r ∈ range m, ∑ i ∈ S, x i ^ 2 * B r i :=
        sum_le_sum fun r hr => lin_sq_le (h0 r (mem_range.1 hr)) (h1 r (mem_range.1 hr)) x
    _ = ∑ i ∈ S, x i ^ 2 * ∑ r ∈ range m, B r i := by
        rw [sum_comm]; exact sum_congr rfl fun i _ => by rw [mul_sum]
    _ ≤ ∑ i ∈ S, x i ^ 2 * D := by
        refine sum_le_sum fun i hi => ?_
        by_cases hf : fixed i
        · rw [hx i hi hf]; simp
        · exact mul_le_mul_of_nonneg_left (hD i hi hf) (sq_nonneg _)
    _ = D * ∑ i ∈ S, x i ^ 2 := by rw [← sum_mul, mul_comm]

/-- One step of the decay. -/
theorem decay_step {S : Finset ι} {B : ℕ → ι → K} {m p : ℕ} {lam D : K} {fixed : ι → Prop} {pos : ι → ℕ} {x : ι → K}
    (hlam : 0 ≤ lam) (h0 : ∀ r < m, ∀ i ∈ S, 0 ≤ B r i) (h1 : ∀ r < m, ∑ i ∈ S, B r i ≤ 1)
    (hD : ∀ i ∈ S, ¬ fixed i → ∑ r ∈ range m, B r i ≤ D)
    (hlow : ∀ e : ι → K, (∀ i ∈ S, fixed i → e i = 0) →
      lam * ∑ i ∈ S, e i ^ 2 ≤ ∑ r ∈ range m, lin S B e r ^ 2)
    (hband : ∀ r < m, ∀ i ∈ S, ∀ j ∈ S, B r i ≠ 0 → B r j ≠ 0 → pos i ≤ pos j + p)
    (hx : ∀ i ∈ S, fixed i → x i = 0) (q : ℕ)
    (hn : ∑ r ∈ range m, lin S B x r * lin S B (fun i => if q + p ≤ pos i then x i else 0) r = 0) :
    (D + 2 * lam) * ∑ i ∈ S, (if q + 2 * p ≤ pos i then x i ^ 2 else 0)
      ≤ D * ∑ i ∈ S, if q ≤ pos i then x i ^ 2 else 0 := by
  set w : ι → K := fun i => if q + p ≤ pos i then x i else 0 with hw
  set a : ι → K := fun i => if q ≤ pos i ∧ pos i < q + p then x i else 0 with ha
  set b : ι → K := fun i => if q + p ≤ pos i ∧ pos i < q + 2 * p then x i else 0 with hb
  have free : ∀ P : ι → Prop, [DecidablePred P] → ∀ i ∈ S, fixed i → (if P i then x i else 0) = 0 := by
    intro P _ i hi hf
    rw [hx i hi hf, ite_self]
  have key : ∀ r < m, lin S B x r * lin S B w r = lin S B w r ^ 2 + lin S B a r * lin S B b r := by
    intro r hr
    by_cases c1 : ∃ i ∈ S, B r i ≠ 0 ∧ q + 2 * p ≤ pos i
    · obtain ⟨i, hi, hB, hpi⟩ := c1
      have hall : ∀ j ∈ S, B r j ≠ 0 → q + p ≤ pos j := fun j hj hBj => by
        have := hband r hr i hi j hj hB hBj
        omega
      have e1 : lin S B w r = lin S B x r := sum_congr rfl fun j hj => by
        by_cases hBj : B r j = 0
        · rw [hBj, mul_zero, mul_zero]
        · simp only [hw]; rw [if_pos (hall j hj hBj)]
      have e2 : lin S B a r = 0 := sum_eq_zero fun j hj => by
        by_cases hBj : B r j = 0
        · rw [hBj, mul_zero]
        · have := hall j hj hBj
          simp only [ha]; rw [if_neg (by omega), zero_mul]
      rw [e1, e2]; ring
    by_cases c2 : ∃ i ∈ S, B r i ≠ 0 ∧ pos i < q
    · obtain ⟨i, hi, hB, hpi⟩ := c2
      have hall : ∀ j ∈ S, B r j ≠ 0 → pos j < q + p := fun j hj hBj => by
        have := hband r hr j hj i hi hBj hB
        omega
      have e1 : lin S B w r = 0 := sum_eq_zero fun j hj => by
        by_cases hBj : B r j = 0
        · rw [hBj, mul_zero]
        · have := hall j hj hBj
          simp only [hw]; rw [if_neg (by omega), zero_mul]
      have e2 : lin S B b r = 0 := sum_eq_zero fun j hj => by
        by_cases hBj : B r j = 0
        · rw [hBj, mul_zero]
        · have := hall j hj hBj
          simp only [hb]; rw [if_neg (by omega), zero_mul]
      rw [e1, e2]; ring
    push Not at c1 c2
    have e1 : lin S B w r = lin S B b r := sum_congr rfl fun j hj => by
      by_cases hBj : B r j = 0
      · rw [hBj, mul_zero, mul_zero]
      · have := c1 j hj hBj
        simp only [hw, hb]
        by_cases h : q + p ≤ pos j
        · rw [if_pos h, if_pos ⟨h, this⟩]
        · rw [if_neg h, if_neg (by omega)]
    have e2 : lin S B x r = lin S B a r + lin S B b r := by
      unfold lin
      rw [← sum_add_distrib]
      refine sum_congr rfl fun j hj => ?_
      by_cases hBj : B r j = 0
      · rw [hBj]; ring
      · have g1 := c1 j hj hBj
        have g2 := c2 j hj hBj
        simp only [ha, hb]
        by_cases h : q + p ≤ pos j
        · rw [if_neg (by omega), if_pos ⟨h, g1⟩]; ring
        · rw [if_pos ⟨g2, by omega⟩, if_neg (by omega)]; ring
    rw [e1, e2]; ring
  have hsum : ∑ r ∈ range m, lin S B w r ^ 2 = -∑ r ∈ range m, lin S B a r * lin S B b r := by
    have : ∑ r ∈ range m, lin S B x r * lin S B w r
        = ∑ r ∈ range m, (lin S B w r ^ 2 + lin S B a r * lin S B b r) :=
      sum_congr rfl fun r hr => key r (mem_range.1 hr)
    rw [hn, sum_add_distrib] at this
    linarith
  have hab : -(2 * ∑ r ∈ range m, lin S B a r * lin S B b r)
      ≤ ∑ r ∈ range m, lin S B a r ^ 2 + ∑ r ∈ range m, lin S B b r ^ 2 := by
    rw [mul_sum, ← sum_neg_distrib, ← sum_add_distrib]
    exact sum_le_sum fun r _ => by nlinarith [sq_nonneg (lin S B a r + lin S B b r)]
  have ua := sum_lin_sq_le h0 h1 hD (x := a) (free _)
  have ub := sum_lin_sq_le h0 h1 hD (x := b) (free _)
  have lw := hlow w (free _)
  have ew : ∑ i ∈ S, w i ^ 2 = ∑ i ∈ S, b i ^ 2 + ∑ i ∈ S, if q + 2 * p ≤ pos i then x i ^ 2 else 0 := by
    rw [← sum_add_distrib]
    refine sum_congr rfl fun i _ => ?_
    simp only [hw, hb]
    split_ifs <;> first | omega | ring
  have eq : ∑ i ∈ S, (if q ≤ pos i then x i ^ 2 else 0)
      = ∑ i ∈ S, a i ^ 2 + ∑ i ∈ S, b i ^ 2 + ∑ i ∈ S, if q + 2 * p ≤ pos i then x i ^ 2 else 0 := by
    rw [← sum_add_distrib, ← sum_add_distrib]
    refine sum_congr rfl fun i _ => ?_
    simp only [ha, hb]
    split_ifs <;> first | omega | ring
  have hbn : 0 ≤ ∑ i ∈ S, b i ^ 2 := sum_nonneg fun i _ => sq_nonneg _
  have hlb := mul_nonneg hlam hbn
  rw [eq]
  rw [ew, mul_add] at lw
  rw [hsum] at lw
  rw [mul_add, mul_add, add_mul]
  linarith

/-- A change `d` of the data that no basis function at a position from `k` on sees changes the coefficients
from there on less and less. -/
theorem decay_bound {S : Finset ι} {B : ℕ → ι → K} {m p k : ℕ} {lam D : K} {fixed : ι → Prop} {pos : ι → ℕ} {x : ι → K}
    {d : ℕ → K} (hlam : 0 < lam) (hD0 : 0 ≤ D) (h0 : ∀ r < m, ∀ i ∈ S, 0 ≤ B r i) (h1 : ∀ r < m, ∑ i ∈ S, B r i ≤ 1)
    (hD : ∀ i ∈ S, ¬ fixed i → ∑ r ∈ range m, B r i ≤ D)
    (hlow : ∀ e : ι → K, (∀ i ∈ S, fixed i → e i = 0) →
      lam * ∑ i ∈ S, e i ^ 2 ≤ ∑ r ∈ range m, lin S B e r ^ 2)
    (hband : ∀ r < m, ∀ i ∈ S, ∀ j ∈ S, B r i ≠ 0 → B r j ≠ 0 → pos i ≤ pos j + p)
    (hx : ∀ i ∈ S, fixed i → x i = 0)
    (hn : ∀ e : ι → K, (∀ i ∈ S, fixed i → e i = 0) → ∑ r ∈ range m, (lin S B x r - d r) * lin S B e r = 0)
    (hd : ∀ r < m, ∀ i ∈ S, k ≤ pos i → d r * B r i = 0) (s : ℕ) :
    lam * ∑ i ∈ S, (if k + 2 * p * s ≤ pos i then x i ^ 2 else 0)
      ≤ (D / (D + 2 * lam)) ^ s * ∑ r ∈ range m, d r ^ 2 := by
  have hpos : 0 < D + 2 * lam := by linarith
  have hθ : 0 ≤ D / (D + 2 * lam) := div_nonneg hD0 hpos.le
  induction s with
  | zero =>
    have e1 := hlow x hx
    have e2 : ∑ r ∈ range m, lin S B x r ^ 2 ≤ ∑ r ∈ range m, d r ^ 2 := by
      have := hn x hx
      have e3 : ∑ r ∈ range m, (lin S B x r - d r) ^ 2
          = ∑ r ∈ range m, d r ^ 2 - ∑ r ∈ range m, lin S B x r ^ 2
            + 2 * ∑ r ∈ range m, (lin S B x r - d r) * lin S B x r := by
        rw [mul_sum, ← sum_sub_distrib, ← sum_add_distrib]
        exact sum_congr rfl fun r _ => by ring
      have e4 : 0 ≤ ∑ r ∈ range m, (lin S B x r - d r) ^ 2 := sum_nonneg fun r _ => sq_nonneg _
      rw [this] at e3
      linarith
    have e5 : ∑ i ∈ S, (if k + 2 * p * 0 ≤ pos i then x i ^ 2 else 0) ≤ ∑ i ∈ S, x i ^ 2 :=
      sum_le_sum fun i _ => by split_ifs <;> [exact le_rfl; exact sq_nonneg _]
    have e6 := mul_le_mul_of_nonneg_left e5 hlam.le
    rw [pow_zero, one_mul]
    linarith
  | succ s ih =>
    set q := k + 2 * p * s with hq
    have st := decay_step hlam.le h0 h1 hD hlow hband hx q (by
      have hw : ∀ i ∈ S, fixed i → (if q + p ≤ pos i then x i else 0) = 0 := fun i hi hf => by rw [hx i hi hf, ite_self]
      refine Eq.trans (sum_congr rfl fun r hr => ?_) (hn _ hw)
      have : d r * lin S B (fun i => if q + p ≤ pos i then x i else 0) r = 0 := by
        unfold lin
        rw [mul_sum]
        refine sum_eq_zero fun i hi => ?_
        dsimp only
        by_cases h : q + p ≤ pos i
        · rw [if_pos h, mul_left_comm, hd r (mem_range.1 hr) i hi (by omega), mul_zero]
        · rw [if_neg h]; ring
      rw [sub_mul, this, sub_zero])
    rw [show q + 2 * p = k + 2 * p * (s + 1) by rw [hq]; ring] at st
    have st' : ∑ i ∈ S, (if k + 2 * p * (s + 1) ≤ pos i then x i ^ 2 else 0)
        ≤ D / (D + 2 * lam) * ∑ i ∈ S, if q ≤ pos i then x i ^ 2 else 0 := by
      rw [div_mul_eq_mul_div, le_div_iff₀ hpos, mul_comm]
      exact st
    have := mul_le_mul_of_nonneg_left st' hlam.le
    have h2 := mul_le_mul_of_nonneg_left ih hθ
    rw [pow_succ]
    linarith

/-- The same for one coefficient. -/
theorem decay_coeff {S : Finset ι} {B : ℕ → ι → K} {m p k : ℕ} {lam D : K} {fixed : ι → Prop} {pos : ι → ℕ} {x : ι → K}
    {d : ℕ → K} (hlam : 0 < lam) (hD0 : 0 ≤ D) (h0 : ∀ r < m, ∀ i ∈ S, 0 ≤ B r i) (h1 : ∀ r < m, ∑ i ∈ S, B r i ≤ 1)
    (hD : ∀ i ∈ S, ¬ fixed i → ∑ r ∈ range m, B r i ≤ D)
    (hlow : ∀ e : ι → K, (∀ i ∈ S, fixed i → e i = 0) →
      lam * ∑ i ∈ S, e i ^ 2 ≤ ∑ r ∈ range m, lin S B e r ^ 2)
    (hband : ∀ r < m, ∀ i ∈ S, ∀ j ∈ S, B r i ≠ 0 → B r j ≠ 0 → pos i ≤ pos j + p)
    (hx : ∀ i ∈ S, fixed i → x i = 0)
    (hn : ∀ e : ι → K, (∀ i ∈ S, fixed i → e i = 0) → ∑ r ∈ range m, (lin S B x r - d r) * lin S B e r = 0)
    (hd : ∀ r < m, ∀ i ∈ S, k ≤ pos i → d r * B r i = 0) {s : ℕ} {i : ι} (hi : i ∈ S) (hp : k + 2 * p * s ≤ pos i) :
    lam * x i ^ 2 ≤ (D / (D + 2 * lam)) ^ s * ∑ r ∈ range m, d r ^ 2 := by
  refine le_trans (mul_le_mul_of_nonneg_left ?_ hlam.le) (decay_bound hlam hD0 h0 h1 hD hlow hband hx hn hd s)
  refine le_trans (le_of_eq (if_pos hp).symm) (single_le_sum
    (f := fun i => if k + 2 * p * s ≤ pos i then x i ^ 2 else 0) (fun i _ => ?_) hi)
  split_ifs <;> [exact sq_nonneg _; exact le_rfl]

end Abstract

/-- Basis functions that do not vanish at the same parameter have neighbouring indices. -/
theorem Nclosed_band {V : ℕ → K} (hV : Monotone V) {p n i j : ℕ} {u : K} (hi : Nclosed V p n i u ≠ 0)
    (hj : Nclosed V p n j u ≠ 0) : i ≤ j + p := by
  unfold Nclosed at hi hj
  by_cases h : u = V (n + p)
  · rw [if_pos h] at hi hj
    by_cases h1 : i + 1 = n
    · by_cases h2 : j + 1 = n
      · omega
      · rw [if_neg h2] at hj; exact absurd rfl hj
    · rw [if_neg h1] at hi; exact absurd rfl hi
  · rw [if_neg h] at hi hj
    by_contra hc
    have h1 := (N_support hV hi).1
    have h2 := (N_support hV hj).2
    exact absurd (h2.trans_le (hV (show j + p + 1 ≤ i by omega))) (not_lt.2 h1)

theorem lin_curve (V : ℕ → K) (p n : ℕ) (t x : ℕ → K) (r : ℕ) :
    lin (range n) (fun r i => Nclosed V p n i (t r)) x r = curve V p n x (t r) := rfl

theorem lin_surface (V : ℕ → K) (p n : ℕ) (W : ℕ → K) (q l : ℕ) (u v x : ℕ → K) (r : ℕ) :
    lin (range n ×ˢ range l) (fun r i => Nclosed V p n i.1 (u r) * Nclosed W q l i.2 (v r))
      (fun i => x (i.1 * l + i.2)) r = surface V p n W q l x (u r) (v r) := by
  unfold lin surface
  rw [sum_product]
  exact sum_congr rfl fun i _ => sum_congr rfl fun j _ => by ring

section Curve
variable {p n m k : ℕ} {U : List K} {t y g : ℕ → K} {lam D : K}

private theorem curve_low (hlow : ∀ e : ℕ → K, e 0 = 0 → e (n - 1) = 0 →
      lam * ∑ i ∈ range n, e i ^ 2 ≤ ∑ r ∈ range m, curve (knotFn U) p n e (t r) ^ 2) (hn : 0 < n) (e : ℕ → K)
    (he : ∀ i ∈ range n, (i = 0 ∨ i = n - 1) → e i = 0) : lam * ∑ i ∈ range n, e i ^ 2
      ≤ ∑ r ∈ range m, lin (range n) (fun r i => Nclosed (knotFn U) p n i (t r)) e r ^ 2 :=
  hlow e (he 0 (mem_range.2 hn) (.inl rfl)) (he (n - 1) (mem_range.2 (by omega)) (.inr rfl))

/-- Banded normal equations of a curve: decay to the right. -/
theorem curve_decay_right (hU : Clamped p n U) (hdom : ∀ r < m, knotFn U p ≤ t r ∧ t r ≤ knotFn U n) (hlam : 0 < lam)
    (hD0 : 0 ≤ D) (hD : ∀ i, 0 < i → i < n - 1 → ∑ r ∈ range m, Nclosed (knotFn U) p n i (t r) ≤ D)
    (hlow : ∀ e : ℕ → K, e 0 = 0 → e (n - 1) = 0 →
      lam * ∑ i ∈ range n, e i ^ 2 ≤ ∑ r ∈ range m, curve (knotFn U) p n e (t r) ^ 2) (y0 : y 0 = 0)
    (y1 : y (n - 1) = 0) (hn : ∀ e : ℕ → K, e 0 = 0 → e (n - 1) = 0 →
      ∑ r ∈ range m, (curve (knotFn U) p n y (t r) - g r) * curve (knotFn U) p n e (t r) = 0)
    (hg : ∀ r < m, ∀ i < n, k ≤ i → g r * Nclosed (knotFn U) p n i (t r) = 0) {s i : ℕ} (hi : i < n)
    (h : k + 2 * p * s ≤ i) : lam * y i ^ 2 ≤ (D / (D + 2 * lam)) ^ s * ∑ r ∈ range m, g r ^ 2 := by
  have hV := monotone_knotFn hU.mono
  have hsz := hU.size
  refine decay_coeff (S := range n) (B := fun r i => Nclosed (knotFn U) p n i (t r)) (p := p) (k := k)
    (fixed := fun i => i = 0 ∨ i = n - 1) (pos := fun i => i) hlam hD0 (fun r _ i _ => Nclosed_nonneg hV _ _ _ _)
    (fun r hr => (sum_Nclosed hU (hdom r hr).1 (hdom r hr).2).le)
    (fun i hi hf => hD i (by omega) (by have := mem_range.1 hi; omega)) (curve_low hlow (by omega))
    (fun r _ i _ j _ h1 h2 => Nclosed_band hV h1 h2) ?_ ?_ ?_ (mem_range.2 hi) h
  · rintro i - (rfl | rfl)
    · exact y0
    · exact y1
  · exact fun e he => hn e (he 0 (mem_range.2 (by omega)) (.inl rfl)) (he _ (mem_range.2 (by omega)) (.inr rfl))
  · exact fun r hr i hi hk => hg r hr i (mem_range.1 hi) hk

/-- Banded normal equations of a curve: decay to the left. -/
theorem curve_decay_left (hU : Clamped p n U) (hdom : ∀ r < m, knotFn U p ≤ t r ∧ t r ≤ knotFn U n) (hlam : 0 < lam)
    (hD0 : 0 ≤ D) (hD : ∀ i, 0 < i → i < n - 1 → ∑ r ∈ range m, Nclosed (knotFn U) p n i (t r) ≤ D)
    (hlow : ∀ e : ℕ → K, e 0 = 0 → e (n - 1) = 0 →
      lam * ∑ i ∈ range n, e i ^ 2 ≤ ∑ r ∈ range m, curve (knotFn U) p n e (t r) ^ 2) (y0 : y 0 = 0)
    (y1 : y (n - 1) = 0) (hn : ∀ e : ℕ → K, e 0 = 0 → e (n - 1) = 0 →
      ∑ r ∈ range m, (curve (knotFn U) p n y (t r) - g r) * curve (knotFn U) p n e (t r) = 0)
    (hg : ∀ r < m, ∀ i < n, i ≤ k → g r * Nclosed (knotFn U) p n i (t r) = 0) {s i : ℕ} (hi : i < n)
    (h : i + 2 * p * s ≤ k) : lam * y i ^ 2 ≤ (D / (D + 2 * lam)) ^ s * ∑ r ∈ range m, g r ^ 2 := by
  have hV := monotone_knotFn hU.mono
  have hsz := hU.size
  refine decay_coeff (S := range n) (B := fun r i => Nclosed (knotFn U) p n i (t r)) (p := p) (k := 1)
    (fixed := fun i => i = 0 ∨ i = n - 1) (pos := fun i => k + 1 - i) hlam hD0 (fun r _ i _ => Nclosed_nonneg hV _ _ _ _)
    (fun r hr => (sum_Nclosed hU (hdom r hr).1 (hdom r hr).2).le)
    (fun i hi hf => hD i (by omega) (by have := mem_range.1 hi; omega)) (curve_low hlow (by omega))
    (fun r _ i _ j _ h1 h2 => by have := Nclosed_band hV h2 h1; omega) ?_ ?_ ?_ (mem_range.2 hi) (by omega)
  · rintro i - (rfl | rfl)
    · exact y0
    · exact y1
  · exact fun e he => hn e (he 0 (mem_range.2 (by omega)) (.inl rfl)) (he _ (mem_range.2 (by omega)) (.inr rfl))
  · exact fun r hr i hi hk => hg r hr i (mem_range.1 hi) (by omega)

/-- A curve whose active control points are small is small. -/
theorem curve_sq_le (hU : Clamped p n U) {u : K} (h1 : knotFn U p ≤ u) (h2 : u ≤ knotFn U n) {x : ℕ → K} {b : K}
    (hx : ∀ i < n, Nclosed (knotFn U) p n i u ≠ 0 → lam * x i ^ 2 ≤ b) (hlam : 0 ≤ lam) :
    lam * curve (knotFn U) p n x u ^ 2 ≤ b := by
  have hV := monotone_knotFn hU.mono
  have hs := sum_Nclosed hU h1 h2
  have h := lin_sq_le (S := range n) (B := fun _ i => Nclosed (knotFn U) p n i u) (r := 0)
    (fun i _ => Nclosed_nonneg hV _ _ _ _) hs.le x
  refine (mul_le_mul_of_nonneg_left h hlam).trans ?_
  rw [mul_sum]
  refine (sum_le_sum fun i hi => ?_).trans (le_of_eq (show ∑ i ∈ range n, b * Nclosed (knotFn U) p n i u = b by
    rw [← mul_sum, hs, mul_one]))
  by_cases hz : Nclosed (knotFn U) p n i u = 0
  · rw [hz]; simp
  · rw [← mul_assoc]
    exact mul_le_mul_of_nonneg_right (hx i (mem_range.1 hi) hz) (Nclosed_nonneg hV _ _ _ _)

end Curve

end PySpline
