import Verif.Lemmas.RoundedDers
import Mathlib.Data.Nat.Factorial.Cast
import Mathlib.Data.Nat.Choose.Sum
import Mathlib.Algebra.BigOperators.Field

/-!
# `basis_function_ders` in rounded arithmetic: the whole routine and the size of the terms
-/

set_option linter.unusedSectionVars false

namespace PySpline

open Polynomial Spec

variable {K : Type} [Field K] [LinearOrder K] [IsStrictOrderedRing K]

theorem fall_eq (p m : ℕ) : (fall p m : K) = (p.descFactorial m : K) := by
  induction m with
  | zero => simp [fall]
  | succ m ih =>
    have e : (fall p (m + 1) : K) = fall p m * ((p : K) - m) := by
      unfold fall; rw [Finset.prod_range_succ]
    rw [e, ih, Nat.descFactorial_succ]
    rcases le_or_gt m p with h | h
    · rw [Nat.cast_mul, Nat.cast_sub h, mul_comm]
    · rw [Nat.descFactorial_eq_zero_iff_lt.2 h]; simp

/-- The whole routine. -/
theorem basisFunctionDersFl_approx {ρ : K} {fl : K → K} (hr' : Rounding fl) (hf : Accurate ρ fl)
    {U : List K} (hU : Monotone (knotFn U)) {k p : ℕ} {u : K}
    (hp : p ≤ k) (hk : k + p < U.length) (hs : knotFn U k < knotFn U (k + 1))
    (h1 : knotFn U k ≤ u) (h2 : u ≤ knotFn U (k + 1)) (order : ℕ) :
    Returns (basisFunctionDersFl fl (k : ℤ) u p U order) fun ders =>
      Shape ders (p + 1) (order + 1) ∧
      (∀ r ≤ p, Near ρ (6 * p) (at2 ders r 0 0) ((piece (knotFn U) k p (k - p + r)).eval u)) ∧
      ∀ r m, r ≤ p → 1 ≤ m → m ≤ order →
        Approx (1 / ρ) (6 * p + 4) (at2 ders r m 0)
          ((Spec.deriv m (piece (knotFn U) k p (k - p + r))).eval u)
          (p.descFactorial m * rawAbs (knotFn U) k p u r m) := by
  unfold basisFunctionDersFl
  dsimp only
  set V := knotFn U with hV
  refine Returns.bind (nduTableFl_tri hf hU hp hk hs h1 h2) fun ndu htri => ?_
  -- zeroth column
  refine Returns.bind (Returns.forN (fun j ders => Shape ders (p + 1) (order + 1) ∧
    ∀ x < j, Near ρ (6 * p) (at2 ders x 0 0) ((piece V k p (k - p + x)).eval u)) (by omega) ?_ ?_) ?_
  · exact ⟨shape_replicate _ _ _, by intro x hx; omega⟩
  · rintro j ders - hj ⟨h1, h2⟩
    rw [get2_nat htri.shape _ _ j p 0 rfl rfl (by omega) (by omega), ok_bind]
    obtain ⟨m1, g1, sh1, at1⟩ := set2_nat h1 (j : ℤ) 0 j 0 (at2 ndu j p 0) 0 rfl rfl (by omega) (by omega)
    rw [g1]
    refine Returns.ok ⟨sh1, fun x hx => ?_⟩
    rw [at1]
    by_cases hxj : x = j
    · subst hxj
      rw [if_pos ⟨rfl, rfl⟩]
      exact htri.upper x p (by omega) le_rfl
    · rw [if_neg (by omega)]; exact h2 x (by omega)
  rintro ders0 ⟨hsh0, hcol0⟩
  -- derivative rows
  refine Returns.bind (Returns.forN (fun r st => Shape st.1 2 (p + 1) ∧
    Shape st.2 (p + 1) (order + 1) ∧
    (∀ x ≤ p, Near ρ (6 * p) (at2 st.2 x 0 0) ((piece V k p (k - p + x)).eval u)) ∧
    (∀ x < r, ∀ y, 1 ≤ y → y ≤ order → Approx (1 / ρ) (6 * p + 2) (at2 st.2 x y 0)
      (rawDer V k p u x y) (rawAbs V k p u x y))) (by omega) ?_ ?_) ?_
  · refine ⟨shape_replicate _ _ _, hsh0, fun x hx => hcol0 x (by omega), ?_⟩
    intro x hx; omega
  · rintro r ⟨a, ders⟩ - hr ⟨h1, h2, h3, h4⟩
    simp only at h1 h2 h3 h4 ⊢
    obtain ⟨m1, g1, sh1, at1⟩ := set2_nat h1 0 0 0 0 (1 : K) 0 rfl rfl (by omega) (by omega)
    rw [g1, ok_bind]
    refine Returns.bind (Returns.forN (fun m st => StepInvFl ρ V k p u order r ders (m - 1) st)
      (by omega) ?_ ?_) ?_
    · refine ⟨sh1, ⟨0, 1, rfl, rfl, by omega, by omega, by omega, ?_⟩, h2, ?_⟩
      · intro j _ _ hj
        have : j = 0 := by omega
        subst this
        show Near ρ _ (_ * at2 m1 0 0 0) _
        rw [at1]
        simpa [aCoef] using Near.refl hf.pos hf.le_one 0 (zero_le_one (α := K))
      · intro x y
        rw [if_neg (by omega)]
    · rintro m st hm1 hm2 hinv
      obtain ⟨t, rfl⟩ : ∃ t, m = t + 1 := ⟨m - 1, by omega⟩
      exact dersStepFl_inv hr' hf htri hU hp hs (by omega) (by omega) ders st hinv
    · rintro ⟨a', s1, s2, ders'⟩ ⟨k1, -, k3, k4⟩
      simp only [Nat.add_sub_cancel] at k1 k3 k4 ⊢
      refine Returns.ok ⟨k1, k3, ?_, ?_⟩
      · intro x hx
        show Near ρ _ (at2 ders' x 0 0) _
        have := k4 x 0
        rw [if_neg (by omega)] at this
        rw [this]
        exact h3 x hx
      · intro x hx y hy1 hy2
        show Approx _ _ (at2 ders' x y 0) _ _
        have := k4 x y
        by_cases hxr : x = r
        · subst hxr; rwa [if_pos ⟨rfl, hy1, hy2⟩] at this
        · rw [if_neg (by omega)] at this
          rw [this]; exact h4 x (by omega) y hy1 hy2
  rintro ⟨a, ders1⟩ ⟨-, hsh1, hc0, hraw⟩
  simp only at hsh1 hc0 hraw ⊢
  -- factors
  refine Returns.bind (Returns.forN (fun m st => st.2 = fall p m ∧
    Shape st.1 (p + 1) (order + 1) ∧
    (∀ x ≤ p, Near ρ (6 * p) (at2 st.1 x 0 0) ((piece V k p (k - p + x)).eval u)) ∧
    (∀ x ≤ p, ∀ y, 1 ≤ y → y ≤ order → if y < m then
        Approx (1 / ρ) (6 * p + 4) (at2 st.1 x y 0) (rawDer V k p u x y * fall p y)
          (rawAbs V k p u x y * |fall p y|)
      else Approx (1 / ρ) (6 * p + 2) (at2 st.1 x y 0) (rawDer V k p u x y) (rawAbs V k p u x y)))
    (by omega) ?_ ?_) ?_
  · refine ⟨by simp [fall], hsh1, hc0, ?_⟩
    intro x hx y hy1 hy2
    rw [if_neg (by omega)]; exact hraw x (by omega) y hy1 hy2
  · rintro m ⟨ders, f⟩ hm1 hm2 ⟨hfm, h2, h3, h4⟩
    simp only at hfm h2 h3 h4 ⊢
    refine Returns.bind (Returns.forN (fun j d => Shape d (p + 1) (order + 1) ∧
      (∀ x y, at2 d x y 0 = if x < j ∧ y = m then fl (at2 ders x y 0 * fl f) else at2 ders x y 0))
      (by omega) ?_ ?_) ?_
    · refine ⟨h2, fun x y => ?_⟩
      rw [if_neg (by omega)]
    · rintro j d - hj ⟨k1, k2⟩
      rw [get2_nat k1 _ _ j m 0 rfl rfl (by omega) (by omega), ok_bind]
      obtain ⟨m1, g1, sh1, at1⟩ := set2_nat k1 (j : ℤ) (m : ℤ) j m (fl (at2 d j m 0 * fl f)) 0 rfl rfl
        (by omega) (by omega)
      rw [g1]
      refine Returns.ok ⟨sh1, fun x y => ?_⟩
      rw [at1, k2, k2]
      by_cases hxy : x = j ∧ y = m
      · obtain ⟨rfl, rfl⟩ := hxy
        rw [if_pos ⟨rfl, rfl⟩, if_neg (by omega), if_pos (by omega)]
      · rw [if_neg hxy]
        by_cases hx2 : x < j ∧ y = m
        · rw [if_pos hx2, if_pos (by omega)]
        · rw [if_neg hx2, if_neg (by omega)]
    · rintro d ⟨k1, k2⟩
      refine Returns.ok ⟨?_, k1, ?_, ?_⟩
      · show f * ((p : K) - (m : K)) = _
        rw [hfm]; unfold fall; rw [Finset.prod_range_succ]
      · intro x hx
        show Near ρ _ (at2 d x 0 0) _
        rw [k2, if_neg (by omega)]; exact h3 x hx
      · intro x hx y hy1 hy2
        have h4' := h4 x hx y hy1 hy2
        simp only [k2]
        by_cases hym : y = m
        · subst hym
          rw [if_neg (by omega)] at h4'
          rw [if_pos (by omega), if_pos (by omega), hfm]
          have h5 := (Approx.refl hf.one_le 0 (fall p y : K)).fl hr' hf
          exact ((h4'.mul hf.one_le h5).fl hr' hf).mono hf.one_le (by omega)
        · rw [if_neg (show ¬ (x < p + 1 ∧ y = m) by omega)]
          by_cases hlt : y < m
          · rw [if_pos hlt] at h4'
            rw [if_pos (by omega)]; exact h4'
          · rw [if_neg hlt] at h4'
            rw [if_neg (by omega)]; exact h4'
  rintro ⟨ders, f⟩ ⟨-, h2, h3, h4⟩
  simp only at h2 h3 h4 ⊢
  refine Returns.ok ⟨h2, h3, fun r m hr hm1 hm => ?_⟩
  have h5 := h4 r hr m hm1 hm
  rw [if_pos (by omega)] at h5
  have e1 : (Spec.deriv m (piece V k p (k - p + r))).eval u = rawDer V k p u r m * fall p m := by
    unfold rawDer
    by_cases hmp : m ≤ p
    · rw [if_pos hmp, deriv_piece hU k p _ m hmp]
      simp only [eval_mul, eval_C, eval_finsetSum]
      rw [mul_comm]
    · rw [if_neg hmp, deriv_piece_zero hU k p _ m (by omega)]
      simp
  rw [e1]
  have e2 : rawAbs V k p u r m * |(fall p m : K)| = p.descFactorial m * rawAbs V k p u r m := by
    rw [fall_eq, abs_of_nonneg (Nat.cast_nonneg _), mul_comm]
  rw [← e2]
  exact h5

/-! ## The size of the terms -/

/-- The coefficients of the functions that do not vanish on the span. -/
theorem aCoef_abs_le {V : ℕ → K} (hV : Monotone V) {k p i m j : ℕ} (hs : V k < V (k + 1)) (hm : m ≤ p)
    (h1 : i + j ≤ k) (h2 : k + m ≤ i + j + p) :
    |aCoef V p i m j| ≤ m.choose j / (V (k + 1) - V k) ^ m := by
  have h0 : 0 < V (k + 1) - V k := sub_pos.2 hs
  induction m generalizing j with
  | zero => rcases j with _ | j <;> simp [aCoef]
  | succ m ih =>
    have hw : w V (p - m - 1) (i + j) ≤ 1 / (V (k + 1) - V k) := by
      unfold w
      refine one_div_le_one_div_of_le h0 (sub_le_sub (hV (by omega)) (hV (by omega)))
    have e : |aCoef V p i (m + 1) j| = (-1) ^ j * aCoef V p i (m + 1) j := by
      have := abs_of_nonneg (aCoef_sign hV p i (m + 1) j)
      rw [← this, abs_mul, abs_pow, abs_neg, abs_one, one_pow, one_mul]
    have e' : ∀ j, (-1) ^ j * aCoef V p i m j = |aCoef V p i m j| := fun j => by
      have := abs_of_nonneg (aCoef_sign hV p i m j)
      rw [← this, abs_mul, abs_pow, abs_neg, abs_one, one_pow, one_mul]
    rw [e, aCoef_alternating, e', e', pow_succ, ← div_div, div_eq_mul_one_div (_ / _)]
    refine mul_le_mul ?_ hw (w_nonneg hV _ _) (by positivity)
    rcases j with _ | j
    · rw [if_pos rfl, add_zero]
      simpa using ih (by omega) h1 (by omega)
    · rw [if_neg (Nat.succ_ne_zero j), Nat.add_sub_cancel, Nat.choose_succ_succ, Nat.cast_add, add_div]
      rw [add_comm]
      exact add_le_add (ih (by omega) (by omega) (by omega)) (ih (by omega) h1 (by omega))

theorem piece_eval_nonneg {V : ℕ → K} (hV : Monotone V) {k : ℕ} {u : K} (h1 : V k ≤ u)
    (h2 : u ≤ V (k + 1)) (p i : ℕ) : 0 ≤ (piece V k p i).eval u := by
  induction p generalizing i with
  | zero => unfold piece; split <;> simp
  | succ p ih =>
    rw [piece_succ]
    simp only [eval_add, eval_mul, eval_C, eval_sub, eval_X]
    refine add_nonneg ?_ ?_
    · by_cases hi : k < i
      · rw [piece_eq_zero_of_lt V k p i hi]; simp
      · exact mul_nonneg (mul_nonneg (w_nonneg hV _ _) (sub_nonneg.2 ((hV (by omega)).trans h1))) (ih i)
    · by_cases hi : i + 1 + p < k
      · rw [piece_eq_zero_of_gt V k p (i + 1) hi]; simp
      · exact mul_nonneg (mul_nonneg (w_nonneg hV _ _) (sub_nonneg.2 (h2.trans (hV (by omega))))) (ih _)

/-- The terms of all the derivatives of one order together. -/
theorem sum_rawAbs_le {V : ℕ → K} (hV : Monotone V) {k p m : ℕ} {u : K} (hp : p ≤ k) (hs : V k < V (k + 1))
    (h1 : V k ≤ u) (h2 : u ≤ V (k + 1)) :
    ∑ r ∈ Finset.range (p + 1), rawAbs V k p u r m ≤ (2 / (V (k + 1) - V k)) ^ m := by
  have h0 : 0 < V (k + 1) - V k := sub_pos.2 hs
  by_cases hm : m ≤ p
  swap
  · simp only [rawAbs, if_neg hm, Finset.sum_const_zero]
    positivity
  simp only [rawAbs, if_pos hm]
  have hterm : ∀ r ≤ p, ∀ j ≤ m, |aCoef V p (k - p + r) m j| * (piece V k (p - m) (k - p + r + j)).eval u
      ≤ m.choose j / (V (k + 1) - V k) ^ m * (piece V k (p - m) (k - p + r + j)).eval u := by
    intro r hr j hj
    by_cases hlo : k - p + r + j + (p - m) < k
    · rw [piece_eq_zero_of_gt V k _ _ hlo]; simp
    by_cases hhi : k < k - p + r + j
    · rw [piece_eq_zero_of_lt V k _ _ hhi]; simp
    exact mul_le_mul_of_nonneg_right (aCoef_abs_le hV hs hm (by omega) (by omega))
      (piece_eval_nonneg hV h1 h2 _ _)
  have hrow : ∀ j ≤ m, ∑ r ∈ Finset.range (p + 1), (piece V k (p - m) (k - p + r + j)).eval u ≤ 1 := by
    intro j hj
    have hsum : ∑ i ∈ Finset.range (p - m + 1), (piece V k (p - m) (k - (p - m) + i)).eval u = 1 := by
      have := congrArg (eval u) (sum_pieces_range hV (p := p - m) (k := k) (by omega) hs)
      rw [eval_finsetSum] at this
      simpa using this
    rw [← hsum]
    -- indices `r` with `m ≤ r + j ≤ p` contribute
    have e : ∀ r ∈ Finset.range (p + 1), (piece V k (p - m) (k - p + r + j)).eval u
        = if m ≤ r + j ∧ r + j ≤ p then (piece V k (p - m) (k - (p - m) + (r + j - m))).eval u else 0 := by
      intro r hr
      split
      · rw [show k - (p - m) + (r + j - m) = k - p + r + j by omega]
      · rename_i hc
        by_cases hlo : r + j < m
        · rw [piece_eq_zero_of_gt V k _ _ (by omega)]; simp
        · rw [piece_eq_zero_of_lt V k _ _ (by omega)]; simp
    rw [Finset.sum_congr rfl e, ← Finset.sum_filter]
    refine le_of_eq (Finset.sum_bij (fun r _ => r + j - m) ?_ ?_ ?_ ?_)
    · intro r hr
      simp only [Finset.mem_filter, Finset.mem_range] at hr ⊢
      omega
    · intro a ha b hb hab
      simp only [Finset.mem_filter, Finset.mem_range] at ha hb
      omega
    · intro i hi
      simp only [Finset.mem_range] at hi
      refine ⟨i + m - j, ?_, by omega⟩
      simp only [Finset.mem_filter, Finset.mem_range]
      omega
    · intro r hr; rfl
  calc ∑ r ∈ Finset.range (p + 1), ∑ j ∈ Finset.range (m + 1),
        |aCoef V p (k - p + r) m j| * (piece V k (p - m) (k - p + r + j)).eval u
      ≤ ∑ r ∈ Finset.range (p + 1), ∑ j ∈ Finset.range (m + 1),
        m.choose j / (V (k + 1) - V k) ^ m * (piece V k (p - m) (k - p + r + j)).eval u :=
        Finset.sum_le_sum fun r hr => Finset.sum_le_sum fun j hj =>
          hterm r (by have := Finset.mem_range.1 hr; omega) j (by have := Finset.mem_range.1 hj; omega)
    _ = ∑ j ∈ Finset.range (m + 1), m.choose j / (V (k + 1) - V k) ^ m *
        ∑ r ∈ Finset.range (p + 1), (piece V k (p - m) (k - p + r + j)).eval u := by
        rw [Finset.sum_comm]
        exact Finset.sum_congr rfl fun j _ => by rw [Finset.mul_sum]
    _ ≤ ∑ j ∈ Finset.range (m + 1), m.choose j / (V (k + 1) - V k) ^ m * 1 :=
        Finset.sum_le_sum fun j hj => mul_le_mul_of_nonneg_left
          (hrow j (by have := Finset.mem_range.1 hj; omega)) (by positivity)
    _ = (2 / (V (k + 1) - V k)) ^ m := by
        simp only [mul_one]
        rw [← Finset.sum_div, ← Nat.cast_sum, Nat.sum_range_choose, div_pow]
        norm_num

theorem rawAbs_nonneg {V : ℕ → K} (hV : Monotone V) {k p m r : ℕ} {u : K}
    (h1 : V k ≤ u) (h2 : u ≤ V (k + 1)) : 0 ≤ rawAbs V k p u r m := by
  unfold rawAbs
  split
  · exact Finset.sum_nonneg fun j _ => mul_nonneg (abs_nonneg _) (piece_eval_nonneg hV h1 h2 _ _)
  · exact le_rfl

end PySpline
