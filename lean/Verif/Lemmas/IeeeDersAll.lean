import Verif.Lemmas.IeeeDersRow

/-!
# `basis_function_ders` in IEEE arithmetic: the whole routine
-/

set_option linter.unusedSectionVars false

namespace PySpline

open Polynomial Spec Ext

variable {K : Type} [Field K] [LinearOrder K] [IsStrictOrderedRing K]

/-- The absolute error of a derivative, from that of one term. -/
def dersErr (p : ℕ) (τ : K) : K := (p + 1) * (p.factorial + 2) * τ

theorem fall_abs_le (p m : ℕ) : |(fall p m : K)| ≤ p.factorial := by
  rw [fall_eq, abs_of_nonneg (Nat.cast_nonneg _)]
  have : p.descFactorial m ≤ p.factorial := by
    rcases le_or_gt m p with h | h
    · rw [← Nat.factorial_mul_descFactorial h]
      exact Nat.le_mul_of_pos_left _ (Nat.factorial_pos _)
    · rw [Nat.descFactorial_eq_zero_iff_lt.2 h]
      exact Nat.zero_le _
  exact_mod_cast this

/-- The multiplication by the integer factor. -/
theorem factor_apx {ρ η M B c b S : K} {rd : K → Ext K} {p : ℕ} (hr : IeeeRounding ρ η M rd)
    (hz : DersSize ρ η M B c p) (m : ℕ) {x : Ext K}
    (hx : IsApx rd (1 / ρ) (6 * p + 2) ((p + 1) * ((8 * B) ^ p * (c + 3 * η))) x b S) (hS : S ≤ (2 * B) ^ p) :
    IsApx rd (1 / ρ) (6 * p + 4) (dersErr p ((8 * B) ^ p * (c + 3 * η))) (rnd rd (x * rd (fall p m)))
      (b * fall p m) (S * |(fall p m : K)|) := by
  have hB := hz.one_le
  have hη := hr.eta
  have τ0 := hz.tau0 hr
  have hbig := hz.big
  have c0 := hz.c0
  have f0 := fall_abs_le (K := K) p m
  have f1 := abs_nonneg (fall p m : K)
  have S0 : 0 ≤ S := by
    obtain ⟨-, _, -, -, h, -⟩ := hx
    exact (abs_nonneg b).trans h
  have b3 := hz.two_le_four le_rfl
  have b4 : (1 : K) ≤ (2 * B) ^ p := one_le_pow₀ (by linarith)
  have b6 : (2 * B) ^ p ≤ (8 * B) ^ p := pow_le_pow_left₀ (by linarith) (by linarith) p
  have z1 : (8 * B) ^ p * (3 * η) ≤ (8 * B) ^ p * (c + 3 * η) := mul_le_mul_of_nonneg_left (by linarith) (by linarith)
  set τ := (8 * B) ^ p * (c + 3 * η) with hτ
  have t0 : 0 ≤ ((p : K) + 1) * τ := mul_nonneg (by positivity) τ0
  have t1 : τ ≤ ((p : K) + 1) * τ := by
    have := mul_nonneg (Nat.cast_nonneg (α := K) p) τ0
    linarith
  have big1 : 2 * (((4 * B) ^ p + (p + 1) * τ) * (p.factorial + 1)) ≤ M := by
    refine le_trans ?_ hbig
    rw [← mul_assoc]
    refine mul_le_mul_of_nonneg_right ?_ (by positivity)
    linarith
  have hfM : |(fall p m : K)| ≤ M := by
    refine f0.trans (le_trans ?_ big1)
    have : (1 : K) * (p.factorial + 1) ≤ ((4 * B) ^ p + (p + 1) * τ) * (p.factorial + 1) :=
      mul_le_mul_of_nonneg_right (by linarith) (by positivity)
    have h0 : (0 : K) ≤ p.factorial := Nat.cast_nonneg _
    linarith
  have h := hx.mul hr (hr.apx hfM) (by
    have g2 := hz.pow_g hr (m := 6 * p + 2 + 1) (by omega)
    refine le_trans (mul_le_mul g2 ?_ ?_ zero_le_two) big1
    · exact mul_le_mul (by linarith) (by linarith [hz.eta]) (by linarith) (by linarith)
    · exact mul_nonneg (by linarith) (by linarith))
  refine h.mono hr le_rfl ?_
  unfold dersErr
  have a1 : S * η ≤ (8 * B) ^ p * η := mul_le_mul_of_nonneg_right (by linarith) hη
  have a2 : (p + 1) * τ * |(fall p m : K)| ≤ (p + 1) * τ * p.factorial := mul_le_mul_of_nonneg_left f0 t0
  have a3 : (p + 1) * τ * η ≤ (p + 1) * τ := mul_le_of_le_one_right t0 hz.eta
  have a4 : η ≤ (8 * B) ^ p * η := le_mul_of_one_le_left hη (by linarith)
  have a5 : 0 ≤ (8 * B) ^ p * η := mul_nonneg (by linarith) hη
  have : ((p : K) + 1) * (p.factorial + 2) * τ = (p + 1) * τ * p.factorial + (p + 1) * τ + (p + 1) * τ := by ring
  rw [this]
  linarith

/-- The whole routine. -/
theorem basisFunctionDersR_apx {ρ η M B H : K} {rd : K → Ext K} (hr' : IeeeRounding ρ η M rd) {U : List K}
    (hU : Monotone (knotFn U)) {k p : ℕ} {u : K}
    (hp : p ≤ k) (hk : k + p < U.length) (hs : knotFn U k < knotFn U (k + 1))
    (h1 : knotFn U k ≤ u) (h2 : u ≤ knotFn U (k + 1))
    (hrep : ∀ x ∈ U, rd x = fin x) (hu : rd u = fin u)
    (hH : knotFn U (k + p) - knotFn U (k + 1 - p) ≤ H) (hz : DersSize ρ η M B ((2 * H + 1) * η) p)
    (hB : 1 ≤ B * (knotFn U (k + 1) - knotFn U k)) (hMh : 8 ≤ M * (knotFn U (k + 1) - knotFn U k))
    (hMH : 2 * H ≤ M) (order : ℕ) :
    Returns (basisFunctionDersR rd (k : ℤ) (fin u) p (lift1 U) order) fun ders =>
      Shape ders (p + 1) (order + 1) ∧
      (∀ r ≤ p, IsNear rd ρ (6 * p) ((4 ^ p - 1) * ((2 * H + 1) * η)) (at2 ders r 0 0)
        ((piece (knotFn U) k p (k - p + r)).eval u)) ∧
      ∀ r m, r ≤ p → 1 ≤ m → m ≤ order →
        IsApx rd (1 / ρ) (6 * p + 4) (dersErr p ((8 * B) ^ p * ((2 * H + 1) * η + 3 * η))) (at2 ders r m 0)
          ((Spec.deriv m (piece (knotFn U) k p (k - p + r))).eval u)
          (p.descFactorial m * rawAbs (knotFn U) k p u r m) := by
  unfold basisFunctionDersR
  dsimp only
  set V := knotFn U with hV
  set c := (2 * H + 1) * η with hc
  set τ : K := (8 * B) ^ p * (c + 3 * η) with hτ
  have τ0 : 0 ≤ τ := hz.tau0 hr'
  have factor : ∀ (m : ℕ) (x : Ext K) {b S : K}, IsApx rd (1 / ρ) (6 * p + 2) ((p + 1) * τ) x b S →
      S ≤ (2 * B) ^ p → IsApx rd (1 / ρ) (6 * p + 4) (dersErr p τ) (rnd rd (x * rd (fall p m))) (b * fall p m)
        (S * |(fall p m : K)|) := fun m x _ _ hx hS => factor_apx hr' hz m hx hS
  have hρ : 1 ≤ 2 * ρ ^ (6 * p) := hz.pow_rho hr' (by omega)
  have hM : 8 ≤ M := by
    have x1 := hz.big8 hr'
    have x2 : 1 ≤ (4 * B) ^ p := one_le_pow₀ (by linarith [hz.one_le])
    linarith
  refine Returns.bind (nduTableR_tri hr' hU hp hk hs h1 h2 hrep hu hH (by rw [mul_assoc]; exact hz.c1) hM hMh hMH hρ) fun ndu htri => ?_
  -- zeroth column
  refine Returns.bind (Returns.forN (fun j ders => Shape ders (p + 1) (order + 1) ∧
    ∀ x < j, IsNear rd ρ (6 * p) ((4 ^ p - 1) * c) (at2 ders x 0 0) ((piece V k p (k - p + x)).eval u)) (by omega) ?_ ?_) ?_
  · exact ⟨shape_zeros2E _ _, by intro x hx; omega⟩
  · rintro j ders - hj ⟨h1, h2⟩
    rw [get2_nat htri.shape _ _ j p 0 rfl rfl (by omega) (by omega), ok_bind]
    obtain ⟨m1, g1, sh1, at1⟩ := set2_nat h1 (j : ℤ) 0 j 0 (at2 ndu j p 0) 0 rfl rfl (by omega) (by omega)
    rw [g1]
    refine Returns.ok ⟨sh1, fun x hx => ?_⟩
    rw [at1]
    by_cases hxj : x = j
    · subst hxj
      rw [if_pos ⟨rfl, rfl⟩]
      exact htri.upper x p (by omega) le_rfl
    · rw [if_neg (by omega)]; exact h2 x (by omega)
  rintro ders0 ⟨hsh0, hcol0⟩
  -- derivative rows
  refine Returns.bind (Returns.forN (fun r st => Shape st.1 2 (p + 1) ∧
    Shape st.2 (p + 1) (order + 1) ∧
    (∀ x ≤ p, IsNear rd ρ (6 * p) ((4 ^ p - 1) * c) (at2 st.2 x 0 0) ((piece V k p (k - p + x)).eval u)) ∧
    (∀ x < r, ∀ y, 1 ≤ y → y ≤ order → IsApx rd (1 / ρ) (6 * p + 2) ((p + 1) * τ) (at2 st.2 x y 0)
      (rawDer V k p u x y) (rawAbs V k p u x y))) (by omega) ?_ ?_) ?_
  · refine ⟨shape_ones2E _ _, hsh0, fun x hx => hcol0 x (by omega), ?_⟩
    intro x hx; omega
  · rintro r ⟨a, ders⟩ - hr ⟨i1, i2, h3, h4⟩
    simp only at i1 i2 h3 h4 ⊢
    obtain ⟨m1, g1, sh1, at1⟩ := set2_nat i1 0 0 0 0 (1 : Ext K) 0 rfl rfl (by omega) (by omega)
    rw [g1, ok_bind]
    refine Returns.bind (Returns.forN (fun m st => StepInvR rd ρ η B c V k p u order r ders (m - 1) st)
      (by omega) ?_ ?_) ?_
    · refine ⟨sh1, ⟨0, 1, rfl, rfl, by omega, by omega, by omega, ?_⟩, i2, ?_⟩
      · intro j _ _ hj
        have : j = 0 := by omega
        subst this
        show SignNear rd ρ _ _ _ (at2 m1 0 0 0) _
        rw [at1, if_pos ⟨rfl, rfl⟩]
        refine ⟨1, rfl, ?_⟩
        have : coefErr B η (1 - 1) = 0 := by unfold coefErr; simp
        rw [this]
        refine ⟨le_rfl, 1, by simp, by simpa using hr'.one, zero_le_one, ?_, ?_, ?_⟩ <;> simp [aCoef]
      · intro x y
        rw [if_neg (by omega)]
    · rintro m st hm1 hm2 hinv
      obtain ⟨t, rfl⟩ : ∃ t, m = t + 1 := ⟨m - 1, by omega⟩
      exact dersStepR_inv hr' hz htri hU hp hs h1 h2 hB (by omega) (by omega) ders st hinv
    · rintro ⟨a', s1, s2, ders'⟩ ⟨k1, -, k3, k4⟩
      simp only [Nat.add_sub_cancel] at k1 k3 k4 ⊢
      refine Returns.ok ⟨k1, k3, ?_, ?_⟩
      · intro x hx
        show IsNear rd ρ _ _ (at2 ders' x 0 0) _
        have := k4 x 0
        rw [if_neg (by omega)] at this
        rw [this]
        exact h3 x hx
      · intro x hx y hy1 hy2
        show IsApx rd _ _ _ (at2 ders' x y 0) _ _
        have := k4 x y
        by_cases hxr : x = r
        · subst hxr; rwa [if_pos ⟨rfl, hy1, hy2⟩] at this
        · rw [if_neg (by omega)] at this
          rw [this]; exact h4 x (by omega) y hy1 hy2
  rintro ⟨a, ders1⟩ ⟨-, hsh1, hc0, hraw⟩
  simp only at hsh1 hc0 hraw ⊢
  -- factors
  refine Returns.bind (Returns.forN (fun m st => st.2 = fall p m ∧
    Shape st.1 (p + 1) (order + 1) ∧
    (∀ x ≤ p, IsNear rd ρ (6 * p) ((4 ^ p - 1) * c) (at2 st.1 x 0 0) ((piece V k p (k - p + x)).eval u)) ∧
    (∀ x ≤ p, ∀ y, 1 ≤ y → y ≤ order → if y < m then
        IsApx rd (1 / ρ) (6 * p + 4) (dersErr p τ) (at2 st.1 x y 0) (rawDer V k p u x y * fall p y)
          (rawAbs V k p u x y * |fall p y|)
      else IsApx rd (1 / ρ) (6 * p + 2) ((p + 1) * τ) (at2 st.1 x y 0) (rawDer V k p u x y) (rawAbs V k p u x y)))
    (by omega) ?_ ?_) ?_
  · refine ⟨by simp [fall], hsh1, hc0, ?_⟩
    intro x hx y hy1 hy2
    rw [if_neg (by omega)]; exact hraw x (by omega) y hy1 hy2
  · rintro m ⟨ders, f⟩ hm1 hm2 ⟨hfm, i2, h3, h4⟩
    simp only at hfm i2 h3 h4 ⊢
    refine Returns.bind (Returns.forN (fun j d => Shape d (p + 1) (order + 1) ∧
      (∀ x y, at2 d x y 0 = if x < j ∧ y = m then rnd rd (at2 ders x y 0 * rd f) else at2 ders x y 0))
      (by omega) ?_ ?_) ?_
    · refine ⟨i2, fun x y => ?_⟩
      rw [if_neg (by omega)]
    · rintro j d - hj ⟨k1, k2⟩
      rw [get2_nat k1 _ _ j m 0 rfl rfl (by omega) (by omega), ok_bind]
      obtain ⟨m1, g1, sh1, at1⟩ := set2_nat k1 (j : ℤ) (m : ℤ) j m (rnd rd (at2 d j m 0 * rd f)) 0 rfl rfl
        (by omega) (by omega)
      rw [g1]
      refine Returns.ok ⟨sh1, fun x y => ?_⟩
      rw [at1, k2, k2]
      by_cases hxy : x = j ∧ y = m
      · obtain ⟨rfl, rfl⟩ := hxy
        rw [if_pos ⟨rfl, rfl⟩, if_neg (by omega), if_pos (by omega)]
      · rw [if_neg hxy]
        by_cases hx2 : x < j ∧ y = m
        · rw [if_pos hx2, if_pos (by omega)]
        · rw [if_neg hx2, if_neg (by omega)]
    · rintro d ⟨k1, k2⟩
      refine Returns.ok ⟨?_, k1, ?_, ?_⟩
      · show f * ((p : K) - (m : K)) = _
        rw [hfm]; unfold fall; rw [Finset.prod_range_succ]
      · intro x hx
        show IsNear rd ρ _ _ (at2 d x 0 0) _
        rw [k2, if_neg (by omega)]; exact h3 x hx
      · intro x hx y hy1 hy2
        have h4' := h4 x hx y hy1 hy2
        simp only [k2]
        by_cases hym : y = m
        · subst hym
          rw [if_neg (by omega)] at h4'
          rw [if_pos (by omega), if_pos (by omega), hfm]
          exact factor y _ h4' (rawAbs_le_pow hU hp hs h1 h2 hz.one_le hB hx _)
        · rw [if_neg (show ¬ (x < p + 1 ∧ y = m) by omega)]
          by_cases hlt : y < m
          · rw [if_pos hlt] at h4'
            rw [if_pos (by omega)]; exact h4'
          · rw [if_neg hlt] at h4'
            rw [if_neg (by omega)]; exact h4'
  rintro ⟨ders, f⟩ ⟨-, h2, h3, h4⟩
  simp only at h2 h3 h4 ⊢
  refine Returns.ok ⟨h2, h3, fun r m hr hm1 hm => ?_⟩
  have h5 := h4 r hr m hm1 hm
  rw [if_pos (by omega)] at h5
  have e1 : (Spec.deriv m (piece V k p (k - p + r))).eval u = rawDer V k p u r m * fall p m := by
    unfold rawDer
    by_cases hmp : m ≤ p
    · rw [if_pos hmp, deriv_piece hU k p _ m hmp]
      simp only [eval_mul, eval_C, eval_finsetSum]
      rw [mul_comm]
    · rw [if_neg hmp, deriv_piece_zero hU k p _ m (by omega)]
      simp
  rw [e1]
  have e2 : rawAbs V k p u r m * |(fall p m : K)| = p.descFactorial m * rawAbs V k p u r m := by
    rw [fall_eq, abs_of_nonneg (Nat.cast_nonneg _), mul_comm]
  rw [← e2]
  exact h5

end PySpline
