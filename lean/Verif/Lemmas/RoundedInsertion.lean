import Verif.Model.RoundedInsertion
import Verif.Lemmas.Rounded
import Verif.Lemmas.Insertion

/-!
# Lemmas on knot insertion in rounded arithmetic
-/

set_option linter.unusedSectionVars false

namespace PySpline

open Spec

variable {K : Type} [Field K] [LinearOrder K] [IsStrictOrderedRing K]

/-- The rounded weight of the newer point. -/
def alphaFl (fl : K → K) (u a b : K) : K := fl (fl (u - a) / fl (b - a))

/-- A coordinate of a rounded affine combination. -/
def combFl (fl : K → K) (α x y : K) : K := fl (fl (α * x) + fl (fl (1 - α) * y))

theorem rowCombFl_getD {fl : K → K} {a : K} {x y : List K} {i : ℕ} (hx : i < x.length) (hy : i < y.length) :
    (rowCombFl fl a x y).getD i 0 = combFl fl a (x.getD i 0) (y.getD i 0) := by
  unfold rowCombFl combFl
  simp [List.getD_eq_getElem?_getD, hx, hy]

theorem rowCombFl_length {fl : K → K} {a : K} {x y : List K} {c : ℕ} (hx : x.length = c) (hy : y.length = c) :
    (rowCombFl fl a x y).length = c := by
  unfold rowCombFl; simp [hx, hy]

theorem Rounding.zero {fl : K → K} (hr : Rounding fl) : fl 0 = 0 := by
  have h := hr.neg 0
  rw [neg_zero] at h
  linarith

theorem Rounding.nonneg {fl : K → K} (hr : Rounding fl) {x : K} (h : 0 ≤ x) : 0 ≤ fl x := by
  rw [← hr.zero]; exact hr.mono h

theorem Accurate.fl_pos {ρ : K} {fl : K → K} (hf : Accurate ρ fl) {x : K} (h : 0 < x) : 0 < fl x :=
  (mul_pos hf.pos h).trans_le (hf.lower x h.le)

/-- The rounded weight stays between 0 and 1. -/
theorem alphaFl_bounds {ρ : K} {fl : K → K} (hr : Rounding fl) (hf : Accurate ρ fl) {u a b : K} (h1 : a ≤ u)
    (h2 : u < b) : 0 ≤ alphaFl fl u a b ∧ alphaFl fl u a b ≤ 1 := by
  have hb : 0 < fl (b - a) := hf.fl_pos (by linarith)
  have hu : 0 ≤ fl (u - a) := hr.nonneg (by linarith)
  refine ⟨hr.nonneg (div_nonneg hu hb.le), ?_⟩
  rw [← hr.one]
  exact hr.mono ((div_le_one hb).2 (hr.mono (by linarith)))

/-- Its error. -/
theorem alphaFl_error {ρ : K} {fl : K → K} (hf : Accurate ρ fl) {u a b : K} (h1 : a ≤ u)
    (h2 : u < b) : |alphaFl fl u a b - (u - a) / (b - a)| ≤ (1 / ρ) ^ 3 - 1 := by
  have n1 : Near ρ 1 (fl (u - a)) (u - a) := by
    simpa using (Near.refl hf.pos hf.le_one 0 (show 0 ≤ u - a by linarith)).fl hf
  have n2 : Near ρ 1 (fl (b - a)) (b - a) := by
    simpa using (Near.refl hf.pos hf.le_one 0 (show 0 ≤ b - a by linarith)).fl hf
  have n3 := (n1.div hf.pos n2 (by linarith)).fl hf
  have h := n3.abs_sub_le hf.pos hf.le_one
  have hg : 0 ≤ (1 / ρ) ^ (1 + 1 + 1) - 1 := sub_nonneg.2 (one_le_pow₀ hf.one_le)
  have hq : (u - a) / (b - a) ≤ 1 := (div_le_one (by linarith)).2 (by linarith)
  exact h.trans (by nlinarith)

namespace Approx

theorem fl {ρ : K} {f : K → K} (hr : Rounding f) (hf : Accurate ρ f) {k : ℕ} {x y B : K} (h : Approx (1 / ρ) k x y B) :
    Approx (1 / ρ) (k + 1) (f x) y B := by
  refine ⟨h.1, ?_⟩
  have h1 := fl_abs_sub_le hr hf x
  have h2 := h.abs_le
  have hg := hf.one_le
  have h3 := mul_le_mul_of_nonneg_left h2 (sub_nonneg.2 hg)
  have h4 := abs_add_le (f x - x) (x - y)
  rw [sub_add_sub_cancel] at h4
  have h5 := h.2
  rw [pow_succ]
  nlinarith

theorem mono {g : K} (hg : 1 ≤ g) {k l : ℕ} (hkl : k ≤ l) {x y B : K} (h : Approx g k x y B) : Approx g l x y B :=
  ⟨h.1, h.2.trans (mul_le_mul_of_nonneg_right (by have := pow_le_pow_right₀ hg hkl; linarith) h.nonneg)⟩

theorem add {g : K} {k : ℕ} {x y B x' y' B' : K} (h : Approx g k x y B) (h' : Approx g k x' y' B') :
    Approx g k (x + x') (y + y') (B + B') := by
  refine ⟨(abs_add_le _ _).trans (add_le_add h.1 h'.1), ?_⟩
  rw [show x + x' - (y + y') = (x - y) + (x' - y') by ring, mul_add]
  exact (abs_add_le _ _).trans (add_le_add h.2 h'.2)

end Approx

/-- One step: errors `e` in the two points give at most `g³ e + 3 (g³ - 1) B`. -/
theorem combFl_error {ρ : K} {fl : K → K} (hr : Rounding fl) (hf : Accurate ρ fl) {α α' x x' y y' e B : K}
    (h0 : 0 ≤ α') (h1 : α' ≤ 1) (hα : |α' - α| ≤ (1 / ρ) ^ 3 - 1) (hx : |x' - x| ≤ e) (hy : |y' - y| ≤ e)
    (bx : |x| ≤ B) (byy : |y| ≤ B) :
    |combFl fl α' x' y' - (α * x + (1 - α) * y)| ≤ (1 / ρ) ^ 3 * e + 3 * ((1 / ρ) ^ 3 - 1) * B := by
  have hg := hf.one_le
  have a1 : Approx (1 / ρ) 1 (fl (α' * x')) (α' * x') |α' * x'| := (Approx.refl hg 0 (α' * x')).fl hr hf
  have a2 : Approx (1 / ρ) 1 (fl (1 - α')) (1 - α') |1 - α'| := (Approx.refl hg 0 (1 - α')).fl hr hf
  have a3 := (a2.mul hg (Approx.refl hg 0 y')).fl hr hf
  have a4 := ((a1.mono hg (show 1 ≤ 1 + 0 + 1 by omega)).add a3).fl hr hf
  have e1 := a4.2
  rw [abs_mul, abs_of_nonneg h0, abs_of_nonneg (sub_nonneg.2 h1)] at e1
  have hB : 0 ≤ B := (abs_nonneg _).trans bx
  have he : 0 ≤ e := (abs_nonneg _).trans hx
  have hG : 0 ≤ (1 / ρ) ^ 3 - 1 := sub_nonneg.2 (one_le_pow₀ hg)
  have bx' : |x'| ≤ B + e := by
    have := abs_add_le (x' - x) x
    rw [sub_add_cancel] at this
    linarith
  have by' : |y'| ≤ B + e := by
    have := abs_add_le (y' - y) y
    rw [sub_add_cancel] at this
    linarith
  have e2 : α' * |x'| + (1 - α') * |y'| ≤ B + e := by
    have := mul_le_mul_of_nonneg_left bx' h0
    have := mul_le_mul_of_nonneg_left by' (sub_nonneg.2 h1)
    linarith
  have e3 : |combFl fl α' x' y' - (α' * x' + (1 - α') * y')| ≤ ((1 / ρ) ^ 3 - 1) * (B + e) :=
    e1.trans (mul_le_mul_of_nonneg_left e2 hG)
  have e4 : |α' * (x' - x) + (1 - α') * (y' - y)| ≤ e := by
    refine (abs_add_le _ _).trans ?_
    rw [abs_mul, abs_mul, abs_of_nonneg h0, abs_of_nonneg (sub_nonneg.2 h1)]
    have := mul_le_mul_of_nonneg_left hx h0
    have := mul_le_mul_of_nonneg_left hy (sub_nonneg.2 h1)
    linarith
  have e5 : |(α' - α) * (x - y)| ≤ ((1 / ρ) ^ 3 - 1) * (2 * B) := by
    rw [abs_mul]
    refine mul_le_mul hα ?_ (abs_nonneg _) hG
    have := abs_sub x y
    linarith
  have e6 : combFl fl α' x' y' - (α * x + (1 - α) * y) = (combFl fl α' x' y' - (α' * x' + (1 - α') * y'))
      + ((α' * (x' - x) + (1 - α') * (y' - y)) + (α' - α) * (x - y)) := by ring
  rw [e6]
  refine (abs_add_le _ _).trans ?_
  have := abs_add_le (α' * (x' - x) + (1 - α') * (y' - y)) ((α' - α) * (x - y))
  linarith

/-- Control points after `t` rounded insertions of `u` behind knot `k`, where `u` occurs `s` times. -/
def insIterFl (fl : K → K) (V : ℕ → K) (p k s : ℕ) (u : K) (c : ℕ → K) : ℕ → ℕ → K
  | 0 => c
  | t + 1 => fun m =>
    if m + p ≤ k + t then insIterFl fl V p k s u c t m
    else if k < m + s then insIterFl fl V p k s u c t (m - 1)
    else combFl fl (alphaFl fl u (V m) (V (m + p - t))) (insIterFl fl V p k s u c t m) (insIterFl fl V p k s u c t (m - 1))

section
variable {fl : K → K} {V : ℕ → K} {p k s r : ℕ} {u : K} {c : ℕ → K}

theorem insIterFl_left {t m : ℕ} (d : ℕ) (h : m + p ≤ k + t) :
    insIterFl fl V p k s u c (t + d) m = insIterFl fl V p k s u c t m := by
  induction d with
  | zero => rfl
  | succ d ih =>
    rw [← Nat.add_assoc]
    conv_lhs => unfold insIterFl
    rw [if_pos (by omega), ih]

theorem insIterFl_right {t m : ℕ} (hr : r + s ≤ p) (d : ℕ) (ht : t + d ≤ r) (hm : k ≤ m + s) :
    insIterFl fl V p k s u c (t + d) (m + d) = insIterFl fl V p k s u c t m := by
  induction d with
  | zero => rfl
  | succ d ih =>
    rw [← Nat.add_assoc, ← Nat.add_assoc]
    conv_lhs => unfold insIterFl
    rw [if_neg (by omega), if_pos (by omega), Nat.add_sub_cancel, ih (by omega)]

theorem insIterFl_mid {t i : ℕ} (hk : p ≤ k) (h : k - p + t + 1 + i + s ≤ k) :
    insIterFl fl V p k s u c (t + 1) (k - p + t + 1 + i)
      = combFl fl (alphaFl fl u (V (k - p + t + 1 + i)) (V (i + k + 1)))
        (insIterFl fl V p k s u c t (k - p + t + (i + 1))) (insIterFl fl V p k s u c t (k - p + t + i)) := by
  conv_lhs => unfold insIterFl
  rw [if_neg (by omega), if_neg (by omega), show k - p + t + 1 + i + p - t = i + k + 1 by omega,
    show k - p + t + 1 + i - 1 = k - p + t + i by omega, show k - p + t + 1 + i = k - p + t + (i + 1) by omega]

end

theorem boehmIter_bounded {V : ℕ → K} (hV : Monotone V) {p k s r : ℕ} {u : K} {c : ℕ → K} (hpk : p ≤ k)
    (h1 : V k ≤ u) (h2 : u < V (k + 1)) (hs : ∀ j, k < j + s → j ≤ k → V j = u) (hr : r + s ≤ p) {B : K}
    (hc : ∀ i, |c i| ≤ B) (t : ℕ) (ht : t ≤ r) : ∀ m, |boehmIter V p k u c t m| ≤ B := by
  induction t with
  | zero => exact hc
  | succ t ih =>
    have ih := ih (by omega)
    intro m
    by_cases a : m + p ≤ k + t
    · rw [boehmIter_left_step a]; exact ih m
    by_cases b : k < m + s
    · obtain ⟨m, rfl⟩ : ∃ m', m = m' + 1 := ⟨m - 1, by omega⟩
      rw [boehmIter_right_step hs hr (by omega) (by omega)]; exact ih m
    obtain ⟨i, rfl⟩ : ∃ i, m = k - p + t + 1 + i := ⟨m - (k - p + t + 1), by omega⟩
    rw [boehmIter_mid hpk (by omega)]
    have A : V (k - p + t + 1 + i) ≤ u := (hV (by omega)).trans h1
    have C : u < V (i + k + 1) := h2.trans_le (hV (by omega))
    have d0 : 0 ≤ (u - V (k - p + t + 1 + i)) / (V (i + k + 1) - V (k - p + t + 1 + i)) :=
      div_nonneg (by linarith) (by linarith)
    have d1 : (u - V (k - p + t + 1 + i)) / (V (i + k + 1) - V (k - p + t + 1 + i)) ≤ 1 :=
      (div_le_one (by linarith)).2 (by linarith)
    refine (abs_add_le _ _).trans ?_
    rw [abs_mul, abs_mul, abs_of_nonneg d0, abs_of_nonneg (sub_nonneg.2 d1)]
    have := mul_le_mul_of_nonneg_left (ih (k - p + t + (i + 1))) d0
    have := mul_le_mul_of_nonneg_left (ih (k - p + t + i)) (sub_nonneg.2 d1)
    linarith

/-- The error after `t` insertions. -/
theorem insIterFl_error {ρ : K} {fl : K → K} (hfr : Rounding fl) (hf : Accurate ρ fl) {V : ℕ → K} (hV : Monotone V)
    {p k s r : ℕ} {u : K} {c : ℕ → K} (hpk : p ≤ k) (h1 : V k ≤ u) (h2 : u < V (k + 1))
    (hs : ∀ j, k < j + s → j ≤ k → V j = u) (hr : r + s ≤ p) {B : K} (hc : ∀ i, |c i| ≤ B) (t : ℕ) (ht : t ≤ r) :
    ∀ m, |insIterFl fl V p k s u c t m - boehmIter V p k u c t m| ≤ 3 * ((1 / ρ) ^ (3 * t) - 1) * B := by
  have hB : 0 ≤ B := (abs_nonneg _).trans (hc 0)
  have hg := hf.one_le
  induction t with
  | zero => intro m; simp [insIterFl, boehmIter]
  | succ t ih =>
    have ih := ih (by omega)
    have grow : 3 * ((1 / ρ) ^ (3 * t) - 1) * B ≤ 3 * ((1 / ρ) ^ (3 * (t + 1)) - 1) * B := by
      have : (1 / ρ) ^ (3 * t) ≤ (1 / ρ) ^ (3 * (t + 1)) := pow_le_pow_right₀ hg (by omega)
      nlinarith
    intro m
    by_cases a : m + p ≤ k + t
    · rw [boehmIter_left_step a, insIterFl_left 1 a]; exact (ih m).trans grow
    by_cases b : k < m + s
    · obtain ⟨m, rfl⟩ : ∃ m', m = m' + 1 := ⟨m - 1, by omega⟩
      rw [boehmIter_right_step hs hr (by omega) (by omega), insIterFl_right hr 1 ht (by omega)]
      exact (ih m).trans grow
    obtain ⟨i, rfl⟩ : ∃ i, m = k - p + t + 1 + i := ⟨m - (k - p + t + 1), by omega⟩
    rw [boehmIter_mid hpk (by omega), insIterFl_mid hpk (by omega)]
    have A : V (k - p + t + 1 + i) ≤ u := (hV (by omega)).trans h1
    have C : u < V (i + k + 1) := h2.trans_le (hV (by omega))
    have bd := boehmIter_bounded hV hpk h1 h2 hs hr hc t (by omega)
    have w := alphaFl_bounds hfr hf A C
    refine (combFl_error hfr hf w.1 w.2 (alphaFl_error hf A C) (ih _) (ih _) (bd _) (bd _)).trans (le_of_eq ?_)
    rw [show 3 * (t + 1) = 3 + 3 * t by ring, pow_add]
    ring

end PySpline
