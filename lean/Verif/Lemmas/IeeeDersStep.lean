import Verif.Lemmas.IeeeDersTri
import Verif.Lemmas.IeeeDot
import Verif.Lemmas.RoundedDersAll
import Mathlib.Data.Nat.Choose.Bounds

/-!
# `basis_function_ders` in IEEE arithmetic: one derivative step
-/

set_option linter.unusedSectionVars false

namespace PySpline

open Polynomial Spec Ext

variable {K : Type} [Field K] [LinearOrder K] [IsStrictOrderedRing K]

/-! ## Numbers of any sign -/

/-- `e` is a stored number and is `b` up to `k` roundings of terms of total size `S`, and up to `T`. -/
def IsApx (rd : K → Ext K) (g : K) (k : ℕ) (T : K) (e : Ext K) (b S : K) : Prop :=
  0 ≤ T ∧ ∃ a, e = fin a ∧ rd a = fin a ∧ |b| ≤ S ∧ |a - b| ≤ (g ^ k - 1) * S + g ^ k * T

namespace IsApx
variable {rd : K → Ext K} {ρ η M T Q b c S R : K} {k l : ℕ} {e f : Ext K}

theorem mono (hr : IeeeRounding ρ η M rd) (h : IsApx rd (1 / ρ) k T e b S) (hkl : k ≤ l) (hT : T ≤ Q) :
    IsApx rd (1 / ρ) l Q e b S := by
  obtain ⟨h0, a, rfl, h1, h2, h3⟩ := h
  have hp : (1 / ρ) ^ k ≤ (1 / ρ) ^ l := pow_le_pow_right₀ hr.one_le hkl
  have h1k : 1 ≤ (1 / ρ) ^ k := one_le_pow₀ hr.one_le
  have hS := (abs_nonneg b).trans h2
  have a1 := mul_le_mul_of_nonneg_right hp hS
  have a2 : (1 / ρ) ^ k * T ≤ (1 / ρ) ^ l * Q := mul_le_mul hp hT h0 (by linarith)
  exact ⟨h0.trans hT, a, rfl, h1, h2, by linarith⟩

theorem zero (hr : IeeeRounding ρ η M rd) (k : ℕ) (hT : 0 ≤ T) : IsApx rd (1 / ρ) k T 0 0 0 :=
  ⟨hT, 0, rfl, hr.zero, by simp, by
    have : 1 ≤ (1 / ρ) ^ k := one_le_pow₀ hr.one_le
    rw [sub_self, abs_zero, mul_zero, zero_add]
    exact mul_nonneg (by linarith) hT⟩

theorem add (hr : IeeeRounding ρ η M rd) (h1 : IsApx rd (1 / ρ) k T e b S)
    (h2 : IsApx rd (1 / ρ) k Q f c R) (hM : (1 / ρ) ^ k * (S + R + (T + Q)) ≤ M) :
    IsApx rd (1 / ρ) (k + 1) (T + Q) (rnd rd (e + f)) (b + c) (S + R) := by
  obtain ⟨hT, x, rfl, x1, x2, x3⟩ := h1
  obtain ⟨hQ, y, rfl, y1, y2, y3⟩ := h2
  have hg := hr.one_le
  set g := 1 / ρ
  have b1 : |x + y - (b + c)| ≤ (g ^ k - 1) * (S + R) + g ^ k * (T + Q) := by
    have := abs_add_le (x - b) (y - c)
    rw [show x - b + (y - c) = x + y - (b + c) by ring] at this
    linarith
  have b2 : |b + c| ≤ S + R := (abs_add_le b c).trans (add_le_add x2 y2)
  have b3 : |x + y| ≤ g ^ k * (S + R + (T + Q)) := by
    have := abs_add_le (x + y - (b + c)) (b + c)
    rw [sub_add_cancel] at this
    linarith
  obtain ⟨z, z1, z2, z3⟩ := hr.add_abs x1 y1 (b3.trans hM)
  refine ⟨add_nonneg hT hQ, z, z1, z2, b2, ?_⟩
  have b4 := abs_add_le (z - (x + y)) (x + y - (b + c))
  rw [sub_add_sub_cancel] at b4
  have b5 := mul_le_mul_of_nonneg_left b3 (show 0 ≤ g - 1 by linarith)
  rw [pow_succ]
  linarith

theorem mul (hr : IeeeRounding ρ η M rd) (h1 : IsApx rd (1 / ρ) k T e b S)
    (h2 : IsApx rd (1 / ρ) l Q f c R) (hM : (1 / ρ) ^ (k + l) * ((S + T) * (R + Q)) ≤ M) :
    IsApx rd (1 / ρ) (k + l + 1) (S * Q + T * R + T * Q + η) (rnd rd (e * f)) (b * c) (S * R) := by
  obtain ⟨hT, x, rfl, x1, x2, x3⟩ := h1
  obtain ⟨hQ, y, rfl, y1, y2, y3⟩ := h2
  have hg := hr.one_le
  have hη := hr.eta
  set g := 1 / ρ
  have hS := (abs_nonneg b).trans x2
  have hR := (abs_nonneg c).trans y2
  have gk : 1 ≤ g ^ k := one_le_pow₀ hg
  have gl : 1 ≤ g ^ l := one_le_pow₀ hg
  rw [pow_add] at hM
  have hx : |x| ≤ g ^ k * (S + T) := by
    have := abs_add_le (x - b) b
    rw [sub_add_cancel] at this
    linarith
  have hy : |y| ≤ g ^ l * (R + Q) := by
    have := abs_add_le (y - c) c
    rw [sub_add_cancel] at this
    linarith
  have b3 : |x * y| ≤ g ^ k * g ^ l * ((S + T) * (R + Q)) := by
    rw [abs_mul]
    calc |x| * |y| ≤ g ^ k * (S + T) * (g ^ l * (R + Q)) :=
          mul_le_mul hx hy (abs_nonneg _) (mul_nonneg (by linarith) (by linarith))
      _ = _ := by ring
  have b1 : |x * y - b * c| ≤ (g ^ k * g ^ l - 1) * (S * R) + g ^ k * g ^ l * (S * Q + T * R + T * Q) := by
    have q2 : |x * y - b * c| ≤ |x - b| * |y| + |b| * |y - c| := by
      have := abs_add_le ((x - b) * y) (b * (y - c))
      rw [abs_mul, abs_mul] at this
      rwa [show (x - b) * y + b * (y - c) = x * y - b * c by ring] at this
    have q3 : |x - b| * |y| ≤ ((g ^ k - 1) * S + g ^ k * T) * (g ^ l * (R + Q)) :=
      mul_le_mul x3 hy (abs_nonneg _) ((abs_nonneg _).trans x3)
    have q4 : |b| * |y - c| ≤ S * ((g ^ l - 1) * R + g ^ l * Q) := mul_le_mul x2 y3 (abs_nonneg _) hS
    have q6 : ((g ^ k - 1) * S + g ^ k * T) * (g ^ l * (R + Q)) + S * ((g ^ l - 1) * R + g ^ l * Q)
        = (g ^ k * g ^ l - 1) * (S * R) + g ^ k * g ^ l * (S * Q + T * R + T * Q) := by ring
    linarith
  obtain ⟨z, z1, z2, z3⟩ := hr.near_abs (b3.trans hM)
  have t0 : 0 ≤ S * Q + T * R + T * Q :=
    add_nonneg (add_nonneg (mul_nonneg hS hQ) (mul_nonneg hT hR)) (mul_nonneg hT hQ)
  refine ⟨add_nonneg t0 hη, z, z1, z2, ?_, ?_⟩
  · rw [abs_mul]
    exact mul_le_mul x2 y2 (abs_nonneg _) hS
  · have b4 := abs_add_le (z - x * y) (x * y - b * c)
    rw [sub_add_sub_cancel] at b4
    have b5 := mul_le_mul_of_nonneg_left b3 (show 0 ≤ g - 1 by linarith)
    have b6 : g * η ≤ g ^ k * g ^ l * g * η := by
      have : 1 ≤ g ^ k * g ^ l := one_le_mul_of_one_le_of_one_le gk gl
      have := mul_le_mul_of_nonneg_right this (mul_nonneg (show 0 ≤ g by linarith) hη)
      linarith
    rw [pow_succ, pow_add]
    linarith

end IsApx

theorem IsNear.apx {rd : K → Ext K} {ρ η M E b : K} {k : ℕ} {e : Ext K} (hr : IeeeRounding ρ η M rd)
    (h : IsNear rd ρ k E e b) : IsApx rd (1 / ρ) k E e b b := by
  have hb : 0 ≤ b := by
    obtain ⟨-, _, -, -, -, h, -⟩ := h
    exact h
  obtain ⟨a, h1, h2, -, h3⟩ := h.abs_sub_le hr
  exact ⟨h.1, a, h1, h2, (abs_of_nonneg hb).le, h3⟩

theorem IeeeRounding.apx {rd : K → Ext K} {ρ η M x : K} (hr : IeeeRounding ρ η M rd) (h : |x| ≤ M) :
    IsApx rd (1 / ρ) 1 η (rd x) x |x| := by
  obtain ⟨y, h1, h2, h3⟩ := hr.near_abs h
  exact ⟨hr.eta, y, h1, h2, le_rfl, by rwa [pow_one]⟩

/-! ## Numbers of known sign -/

theorem neg_one_pow_sq (j : ℕ) (x : K) : (-1) ^ j * ((-1) ^ j * x) = x := by
  rw [← mul_assoc, ← pow_add, Even.neg_one_pow (Even.add_self j), one_mul]

theorem IeeeRounding.sign {rd : K → Ext K} {ρ η M x y : K} (hr : IeeeRounding ρ η M rd) (j : ℕ)
    (h : rd ((-1) ^ j * x) = fin y) : rd x = fin ((-1) ^ j * y) := by
  rcases neg_one_pow_eq_or K j with e | e <;> rw [e] at h ⊢
  · rwa [one_mul] at h ⊢
  · rw [neg_one_mul] at h ⊢
    have := hr.neg (-x)
    rw [neg_neg, h] at this
    exact this

/-- `IsNear` for numbers of the sign `(-1) ^ j`. -/
def SignNear (rd : K → Ext K) (ρ : K) (k : ℕ) (E : K) (j : ℕ) (e : Ext K) (b : K) : Prop :=
  ∃ a, e = fin a ∧ IsNear rd ρ k E (fin ((-1) ^ j * a)) ((-1) ^ j * b)

namespace SignNear
variable {rd : K → Ext K} {ρ η M E F b c d : K} {k j i : ℕ} {e f z : Ext K}

theorem mono (hr : IeeeRounding ρ η M rd) (h : SignNear rd ρ k E j e b) {l : ℕ} (hkl : k ≤ l) (hEF : E ≤ F) :
    SignNear rd ρ l F j e b := by
  obtain ⟨a, rfl, h⟩ := h
  exact ⟨a, rfl, h.mono hr hkl hEF⟩

theorem abs_eq (h : SignNear rd ρ k E j e b) : (-1) ^ j * b = |b| := by
  obtain ⟨a, -, -, _, -, -, -, h, -⟩ := h
  rw [← abs_of_nonneg h, abs_mul, abs_pow, abs_neg, abs_one, one_pow, one_mul]

theorem apx (hr : IeeeRounding ρ η M rd) (h : SignNear rd ρ k E j e b) : IsApx rd (1 / ρ) k E e b |b| := by
  have h0 := h.abs_eq
  obtain ⟨a, rfl, h⟩ := h
  obtain ⟨x, h1, h2, -, h3⟩ := h.abs_sub_le hr
  cases h1
  have e : ∀ x : K, |(-1) ^ j * x| = |x| := fun x => by
    rw [abs_mul, abs_pow, abs_neg, abs_one, one_pow, one_mul]
  rw [← mul_sub, e, h0] at h3
  refine ⟨h.1, a, rfl, ?_, le_rfl, h3⟩
  have := hr.sign j h2
  rwa [neg_one_pow_sq] at this

theorem neg (h : SignNear rd ρ k E j e b) : SignNear rd ρ k E (j + 1) (-e) (-b) := by
  obtain ⟨a, rfl, h⟩ := h
  refine ⟨-a, rfl, ?_⟩
  rwa [pow_succ, show (-1 : K) ^ j * -1 * -a = (-1) ^ j * a by ring,
    show (-1 : K) ^ j * -1 * -b = (-1) ^ j * b by ring]

theorem sub (hr : IeeeRounding ρ η M rd) (h1 : SignNear rd ρ k E (j + 1) e b) (h2 : SignNear rd ρ k F j f c)
    (hM : |b| + E + (|c| + F) ≤ M * ρ ^ k) :
    SignNear rd ρ (k + 1) (E + F) (j + 1) (rnd rd (e - f)) (b - c) := by
  have eb := h1.abs_eq
  have ec := h2.abs_eq
  obtain ⟨x, rfl, h1⟩ := h1
  obtain ⟨y, rfl, h2⟩ := h2
  have h3 := h1.add hr h2 (by rw [eb, ec]; exact hM)
  have e1 : ∀ x y : K, (-1) ^ (j + 1) * x + (-1) ^ j * y = (-1) ^ (j + 1) * (x - y) := fun x y => by
    rw [pow_succ]; ring
  rw [e1] at h3
  have h4 := h3
  obtain ⟨-, v, hv, -⟩ := h4
  have hv' : rd ((-1) ^ (j + 1) * (x - y)) = fin v := by rw [← e1]; exact hv
  refine ⟨(-1) ^ (j + 1) * v, hr.sign _ hv', ?_⟩
  rw [neg_one_pow_sq, ← hv]
  exact h3

theorem div (hr : IeeeRounding ρ η M rd) (h1 : SignNear rd ρ k E j e b) (h2 : IsNear rd ρ 2 0 z d) (hd : 0 < d)
    (hM : |b| + E ≤ M * ρ ^ (k + 2) * d) :
    SignNear rd ρ (k + 3) (E / (ρ ^ 2 * d) + η) j (rnd rd (e / z)) (b / d) := by
  have eb := h1.abs_eq
  obtain ⟨x, rfl, h1⟩ := h1
  have h3 := h1.div hr h2 hd (by rw [eb]; exact hM)
  obtain ⟨-, y, rfl, -, -, -, y4, -⟩ := h2
  rw [add_zero] at y4
  have hy : 0 < y := (mul_pos hd (pow_pos hr.pos 2)).trans_le y4
  rw [fin_div _ hy.ne'] at h3 ⊢
  rw [mul_div_assoc, mul_div_assoc] at h3
  have h4 := h3
  obtain ⟨-, v, hv, -⟩ := h4
  refine ⟨(-1) ^ j * v, hr.sign _ hv, ?_⟩
  rw [neg_one_pow_sq, ← hv]
  exact h3

end SignNear

/-! ## One derivative step -/

/-- What is assumed of the sizes: `1 / B` bounds the length of the span from below, `c` is the share of
underflow in the basis functions. -/
structure DersSize (ρ η M B c : K) (p : ℕ) : Prop where
  one_le : 1 ≤ B
  eta : η ≤ 1
  rho : 1 ≤ 2 * ρ ^ (6 * p + 4)
  c0 : 0 ≤ c
  c1 : 4 ^ p * c ≤ 1
  big : (8 * (4 * B) ^ p + 2 * ((p + 1) * ((8 * B) ^ p * (c + 3 * η)))) * (p.factorial + 1) ≤ M

section step
variable {ρ η M B c : K} {rd : K → Ext K} {V : ℕ → K} {k p : ℕ} {u : K} {ndu : List (List (Ext K))}

namespace DersSize

theorem pow_rho (hr : IeeeRounding ρ η M rd) (h : DersSize ρ η M B c p) {m : ℕ} (hm : m ≤ 6 * p + 4) :
    1 ≤ 2 * ρ ^ m :=
  h.rho.trans (mul_le_mul_of_nonneg_left (pow_le_pow_of_le_one hr.pos.le hr.le_one hm) zero_le_two)

theorem pow_g (hr : IeeeRounding ρ η M rd) (h : DersSize ρ η M B c p) {m : ℕ} (hm : m ≤ 6 * p + 4) :
    (1 / ρ) ^ m ≤ 2 := by
  rw [one_div_pow, div_le_iff₀ (pow_pos hr.pos m)]
  exact h.pow_rho hr hm

/-- The error of one term. -/
theorem tau0 (hr : IeeeRounding ρ η M rd) (h : DersSize ρ η M B c p) : 0 ≤ (8 * B) ^ p * (c + 3 * η) := by
  have := h.one_le
  have := h.c0
  have := hr.eta
  exact mul_nonneg (pow_nonneg (by linarith) _) (by linarith)

theorem big' (hr : IeeeRounding ρ η M rd) (h : DersSize ρ η M B c p) :
    8 * (4 * B) ^ p + 2 * ((p + 1) * ((8 * B) ^ p * (c + 3 * η))) ≤ M := by
  have h0 : 0 ≤ 8 * (4 * B) ^ p + 2 * ((p + 1) * ((8 * B) ^ p * (c + 3 * η))) := by
    have h1 := h.one_le
    have h2 : (0 : K) ≤ (4 * B) ^ p := pow_nonneg (by linarith) _
    have h3 := mul_nonneg (show (0 : K) ≤ p + 1 by positivity) (h.tau0 hr)
    linarith
  exact le_trans (le_mul_of_one_le_right h0 (by
    have : (0 : K) ≤ p.factorial := Nat.cast_nonneg _
    linarith)) h.big

theorem big8 (hr : IeeeRounding ρ η M rd) (h : DersSize ρ η M B c p) : 8 * (4 * B) ^ p ≤ M := by
  have h1 := h.big' hr
  have h3 := mul_nonneg (show (0 : K) ≤ p + 1 by positivity) (h.tau0 hr)
  linarith

theorem two_le_four (h : DersSize ρ η M B c p) {m : ℕ} (hm : m ≤ p) : (2 * B) ^ m ≤ (4 * B) ^ p := by
  have := h.one_le
  exact (pow_le_pow_left₀ (by linarith) (by linarith) m).trans (pow_le_pow_right₀ (by linarith) hm)

end DersSize

/-- The error of a coefficient of order `m`. -/
def coefErr (B η : K) (m : ℕ) : K := ((4 * B) ^ m - 1) * η

theorem coefErr_nonneg (hr : IeeeRounding ρ η M rd) (h : DersSize ρ η M B c p) (m : ℕ) : 0 ≤ coefErr B η m := by
  have h1 : 1 ≤ (4 * B) ^ m := one_le_pow₀ (by linarith [h.one_le])
  exact mul_nonneg (by linarith) hr.eta

/-- The division that gives a coefficient of order `t + 1`. -/
theorem coef_div (hr : IeeeRounding ρ η M rd) (h : DersSize ρ η M B c p) {t j : ℕ} (ht : t + 1 ≤ p) {e z : Ext K}
    {b d : K} (hb : SignNear rd ρ (4 * t + 1) (2 * coefErr B η t) j e b) (hbb : |b| ≤ 2 * (2 * B) ^ t)
    (hz : IsNear rd ρ 2 0 z d) (hd : 1 ≤ B * d) :
    SignNear rd ρ (4 * (t + 1)) (coefErr B η (t + 1)) j (rnd rd (e / z)) (b / d) := by
  have hB := h.one_le
  have hη := hr.eta
  have hB0 : 0 < B := by linarith
  have hd0 : 0 < d := by
    by_contra hc
    have := mul_nonpos_of_nonneg_of_nonpos hB0.le (not_lt.1 hc)
    linarith
  have x1 : (1 : K) ≤ (4 * B) ^ t := one_le_pow₀ (by linarith)
  have x2 : (2 * B) ^ t ≤ (4 * B) ^ t := pow_le_pow_left₀ (by linarith) (by linarith) t
  have hF0 := coefErr_nonneg hr h t
  have hF1 : coefErr B η t ≤ (4 * B) ^ t := by
    unfold coefErr
    have := mul_le_of_le_one_right (show 0 ≤ (4 * B) ^ t - 1 by linarith) h.eta
    linarith
  have x3 : (4 * B) ^ (t + 1) ≤ (4 * B) ^ p := pow_le_pow_right₀ (by linarith) ht
  have hM8 := h.big8 hr
  have h5 := hb.div hr hz hd0 (by
    have r1 := h.pow_rho hr (m := 4 * t + 1 + 2) (by omega)
    have hM0 : 0 ≤ M := by linarith [pow_nonneg (show 0 ≤ 4 * B by linarith) p]
    have r2 : M ≤ 2 * (M * ρ ^ (4 * t + 1 + 2)) := by
      have := mul_le_mul_of_nonneg_left r1 hM0
      linarith
    have r3 : 8 * (4 * B) ^ (t + 1) * d ≤ 2 * (M * ρ ^ (4 * t + 1 + 2)) * d :=
      mul_le_mul_of_nonneg_right (by linarith) hd0.le
    have r4 : 32 * (4 * B) ^ t ≤ 8 * (4 * B) ^ (t + 1) * d := by
      rw [pow_succ, show 8 * ((4 * B) ^ t * (4 * B)) * d = 32 * (4 * B) ^ t * (B * d) by ring]
      exact le_mul_of_one_le_right (by linarith) hd
    linarith)
  refine h5.mono hr (by omega) ?_
  have q1 : 2 * coefErr B η t / (ρ ^ 2 * d) ≤ 4 * B * coefErr B η t := by
    rw [div_le_iff₀ (mul_pos (pow_pos hr.pos 2) hd0)]
    have r1 := h.pow_rho hr (m := 2) (by omega)
    have r2 : 1 ≤ 2 * ρ ^ 2 * (B * d) := one_le_mul_of_one_le_of_one_le r1 hd
    have := mul_le_mul_of_nonneg_left r2 (show 0 ≤ 2 * coefErr B η t by linarith)
    linarith
  refine (add_le_add q1 le_rfl).trans ?_
  unfold coefErr
  rw [pow_succ]
  have := mul_le_mul_of_nonneg_right (show (1 : K) ≤ 2 * B by linarith) hη
  linarith

theorem inv_span_le (hs : V k < V (k + 1)) (hB : 1 ≤ B * (V (k + 1) - V k)) : 2 / (V (k + 1) - V k) ≤ 2 * B := by
  rw [div_le_iff₀ (sub_pos.2 hs)]
  linarith

theorem aCoef_le (h : DersSize ρ η M B c p) (hV : Monotone V) (hs : V k < V (k + 1))
    (hB : 1 ≤ B * (V (k + 1) - V k)) {r m j : ℕ} (hp : p ≤ k) (hm : m ≤ p) (h1 : m ≤ r + j) (h2 : r + j ≤ p) :
    |aCoef V p (k - p + r) m j| ≤ (2 * B) ^ m := by
  refine (aCoef_abs_le hV hs hm (i := k - p + r) (j := j) (by omega) (by omega)).trans ?_
  have h0 := sub_pos.2 hs
  calc (m.choose j : K) / (V (k + 1) - V k) ^ m ≤ 2 ^ m / (V (k + 1) - V k) ^ m := by
        refine div_le_div_of_nonneg_right ?_ (pow_nonneg h0.le m)
        have := Nat.choose_le_two_pow m j
        exact_mod_cast this
    _ = (2 / (V (k + 1) - V k)) ^ m := (div_pow _ _ _).symm
    _ ≤ (2 * B) ^ m := pow_le_pow_left₀ (by positivity) (inv_span_le hs hB) m

/-- The two `ndu` entries used for the coefficient `j` of order `t + 1` in row `r`. -/
theorem TriR.entry (h : TriR rd ρ c V k p u ndu) (hV : Monotone V) (hp : p ≤ k) (hB0 : 0 ≤ B)
    (hB : 1 ≤ B * (V (k + 1) - V k))
    {r t j : ℕ} (hm : t + 1 ≤ p) (h1 : t + 1 ≤ r + j) (h2 : r + j ≤ p) (x : ℤ)
    (hx : x = (r : ℤ) - (t + 1 : ℕ) + j) :
    (∃ z d, get2 ndu ((p : ℤ) - (t + 1 : ℕ) + 1) x = .ok z ∧ IsNear rd ρ 2 0 z d ∧ 1 ≤ B * d ∧
      w V (p - t - 1) (k - p + r + j) = 1 / d) ∧
    ∃ y, get2 ndu x ((p : ℤ) - (t + 1 : ℕ)) = .ok y ∧
      IsNear rd ρ (6 * (p - (t + 1))) ((4 ^ (p - (t + 1)) - 1) * c) y
        ((piece V k (p - (t + 1)) (k - p + r + j)).eval u) := by
  constructor
  · have hl := h.lower (r + j - (t + 1)) (p - t) (by omega) (by omega)
    have e1 : k + (r + j - (t + 1)) + 1 = k - p + r + j + (p - t - 1) + 1 := by omega
    have e2 : k + 1 - (p - t) + (r + j - (t + 1)) = k - p + r + j := by omega
    rw [e1, e2] at hl
    refine ⟨_, _, get2_nat h.shape _ _ (p - t) (r + j - (t + 1)) 0 (by omega) (by omega) (by omega)
      (by omega), hl, ?_, rfl⟩
    exact hB.trans (mul_le_mul_of_nonneg_left (sub_le_sub (hV (by omega)) (hV (by omega))) hB0)
  · refine ⟨_, get2_nat h.shape _ _ (r + j - (t + 1)) (p - (t + 1)) 0 (by omega) (by omega) (by omega)
      (by omega), ?_⟩
    have := h.upper (r + j - (t + 1)) (p - (t + 1)) (by omega) (by omega)
    rwa [show k - (p - (t + 1)) + (r + j - (t + 1)) = k - p + r + j by omega] at this

/-- The state of the loop over derivative orders after order `m` in row `r`. -/
def StepInvR (rd : K → Ext K) (ρ η B c : K) (V : ℕ → K) (k p : ℕ) (u : K) (order r : ℕ)
    (ders0 : List (List (Ext K))) (m : ℕ) (st : List (List (Ext K)) × ℤ × ℤ × List (List (Ext K))) : Prop :=
  Shape st.1 2 (p + 1) ∧
  (∃ s1 s2 : ℕ, st.2.1 = s1 ∧ st.2.2.1 = s2 ∧ s1 < 2 ∧ s2 < 2 ∧ s1 ≠ s2 ∧
    ∀ j, m ≤ r + j → r + j ≤ p → j ≤ m → SignNear rd ρ (4 * m) (coefErr B η m) j (at2 st.1 s1 j 0)
      (aCoef V p (k - p + r) m j)) ∧
  Shape st.2.2.2 (p + 1) (order + 1) ∧
  ∀ x y, if x = r ∧ 1 ≤ y ∧ y ≤ m then
      IsApx rd (1 / ρ) (6 * p + 2) ((p + 1) * ((8 * B) ^ p * (c + 3 * η))) (at2 st.2.2.2 x y 0)
        (rawDer V k p u r y) (rawAbs V k p u r y)
    else at2 st.2.2.2 x y 0 = at2 ders0 x y 0

end step

end PySpline
