import Verif.Model.RoundedOneDers
import Verif.Lemmas.RoundedFit
import Verif.Lemmas.RoundedDersAll
import Verif.Lemmas.RoundedInsertion
import Verif.Lemmas.RoundedSolve
import Verif.Lemmas.IeeeFit

/-!
# Error propagation in `one_basis_function_ders`
-/

set_option linter.unusedSectionVars false

namespace PySpline

open Polynomial Spec

section
variable {K : Type} [Field K] [LinearOrder K] [IsStrictOrderedRing K]

/-- The table of `one_basis_function_ders`. -/
theorem oneBasisTableFl_near {ρ : K} {fl : K → K} (hf : Accurate ρ fl) {U : List K} (hU : Monotone (knotFn U))
    {p i : ℕ} (u : K) (hi : i + p + 1 < U.length) :
    Returns (oneBasisTableFl fl p U i u) fun T => Shape T (p + 1) (p + 1) ∧
      ∀ x k, x + k ≤ p → Near ρ (5 * k) (at2 T x k 0) (N (knotFn U) k (i + x) u) := by
  have p0 := hf.pos
  have p1 := hf.le_one
  unfold oneBasisTableFl
  set V := knotFn U with hV
  dsimp only
  refine Returns.bind (Returns.forN (fun j T => Shape T (p + 1) (p + 1) ∧
    (∀ x < j, at2 T x 0 0 = N V 0 (i + x) u) ∧ (∀ x, j ≤ x → x ≤ p → at2 T x 0 0 = 0))
    (by omega) ?_ ?_) ?_
  · refine ⟨shape_replicate _ _ _, by intro x hx; omega, ?_⟩
    intro x _ hx
    exact at2_replicate _ _ _ _ _ _ (by omega) (by omega)
  · rintro j T - hj ⟨h1, h2, h3⟩
    rw [pyGet_knot U _ (i + j) (by push_cast; rfl) (by omega), ok_bind,
      pyGet_knot U _ (i + j + 1) (by push_cast; rfl) (by omega), ok_bind]
    by_cases hc : V (i + j) ≤ u ∧ u < V (i + j + 1)
    · rw [if_pos hc]
      obtain ⟨m1, g1, sh1, at1⟩ := set2_nat h1 (j : ℤ) 0 j 0 (1 : K) 0 rfl rfl (by omega) (by omega)
      rw [g1]
      refine Returns.ok ⟨sh1, ?_, ?_⟩
      · intro x hx
        rw [at1]
        by_cases hxj : x = j
        · subst hxj; rw [if_pos ⟨rfl, rfl⟩]; unfold N; rw [if_pos hc]
        · rw [if_neg (by omega)]; exact h2 x (by omega)
      · intro x hx1 hx2
        rw [at1, if_neg (by omega)]; exact h3 x (by omega) hx2
    · rw [if_neg hc]
      refine Returns.ok ⟨h1, ?_, fun x hx => h3 x (by omega)⟩
      intro x hx
      by_cases hxj : x = j
      · subst hxj; rw [h3 x le_rfl (by omega)]; unfold N; rw [if_neg hc]
      · exact h2 x (by omega)
  rintro T0 ⟨hsh, hT0, -⟩
  refine (Returns.forN (fun k T => Shape T (p + 1) (p + 1) ∧
    (∀ x q, q < k → x + q ≤ p → Near ρ (5 * q) (at2 T x q 0) (N V q (i + x) u))) (by omega) ?_ ?_).mono ?_
  · refine ⟨hsh, fun x q hq hx => ?_⟩
    have : q = 0 := by omega
    subst this
    rw [hT0 x (by omega)]
    exact Near.refl p0 p1 _ (N_nonneg hU _ _ _)
  · rintro k T hk1 hk2 ⟨h1, h2⟩
    rw [get2_nat h1 0 _ 0 (k - 1) 0 rfl (by omega) (by omega) (by omega), ok_bind]
    refine Returns.bind (savedFl_near hf hU (i := i) (k := k) (by omega) hk1 (h2 0 (k - 1) (by omega) (by omega)) _ _ rfl
        (by push_cast; rfl)) ?_
    intro saved hsaved
    refine Returns.bind (Returns.forN (fun j st => Shape st.1 (p + 1) (p + 1) ∧
      (∀ x < j, Near ρ (5 * k) (at2 st.1 x k 0) (N V k (i + x) u)) ∧
      (∀ x q, q < k → x + q ≤ p → Near ρ (5 * q) (at2 st.1 x q 0) (N V q (i + x) u)) ∧
      Near ρ (5 * (k - 1) + 4) st.2
        ((u - V (i + j)) / (V (i + j + k) - V (i + j)) * N V (k - 1) (i + j) u))
      (by omega) ?_ ?_) ?_
    · exact ⟨h1, by intro x hx; omega, h2, hsaved⟩
    · rintro j ⟨T, saved⟩ - hj ⟨g1, g2, g3, g4⟩
      simp only at g1 g2 g3 g4 ⊢
      have n1 := g3 (j + 1) (k - 1) (by omega) (by omega)
      rw [pyGet_knot U _ (i + j + 1) (by push_cast; rfl) (by omega), ok_bind,
        pyGet_knot U _ (i + j + k + 1) (by push_cast; rfl) (by omega), ok_bind,
        get2_nat g1 _ _ (j + 1) (k - 1) 0 (by push_cast; rfl) (by omega) (by omega) (by omega),
        ok_bind, ← hV]
      obtain ⟨q, rfl⟩ : ∃ q, k = q + 1 := ⟨k - 1, by omega⟩
      simp only [Nat.add_sub_cancel] at g3 g4 n1 ⊢
      have hN : N V (q + 1) (i + j) u
          = (u - V (i + j)) / (V (i + j + (q + 1)) - V (i + j)) * N V q (i + j) u
            + (V (i + j + (q + 1) + 1) - u) / (V (i + j + (q + 1) + 1) - V (i + j + 1))
            * N V q (i + (j + 1)) u := by
        have e1 : i + j + (q + 1) = i + j + q + 1 := by omega
        have e2 : i + (j + 1) = i + j + 1 := by omega
        rw [e1, e2]
        show N V (q + 1) (i + j) u = _
        rw [N]
      by_cases hz : at2 T (j + 1) q 0 = 0
      · have hz' := (n1.zero_iff p0).1 hz
        rw [if_pos hz]
        obtain ⟨m1, k1, sh1, at1⟩ := set2_nat g1 (j : ℤ) ((q + 1 : ℕ) : ℤ) j (q + 1) saved 0 rfl rfl
          (by omega) (by omega)
        rw [k1, ok_bind]
        refine Returns.ok ⟨sh1, ?_, ?_, ?_⟩
        · intro x hx
          show Near ρ _ (at2 m1 x (q + 1) 0) _
          rw [at1]
          by_cases hxj : x = j
          · subst hxj
            rw [if_pos ⟨rfl, rfl⟩, hN, hz', mul_zero, add_zero]
            exact g4.mono p0 p1 (by omega)
          · rw [if_neg (by omega)]; exact g2 x (by omega)
        · intro x q' hq hx
          show Near ρ _ (at2 m1 x q' 0) _
          rw [at1, if_neg (by omega)]; exact g3 x q' hq hx
        · show Near ρ _ (0 : K) _
          rw [hz', mul_zero]; exact Near.zero _
      · rw [if_neg hz]
        obtain ⟨a, b⟩ := N_support hU (mt (n1.zero_iff p0).2 hz)
        have e1 : i + (j + 1) + q + 1 = i + j + (q + 1) + 1 := by omega
        have e2 : i + (j + 1) = i + j + 1 := by omega
        rw [e1] at b
        rw [e2] at a
        have d0 : 0 < V (i + j + (q + 1) + 1) - V (i + j + 1) := by linarith
        have n2 := (Near.refl p0 p1 0 d0.le).fl hf
        have n3 := (n1.div p0 n2 d0).fl hf
        have n4 := (Near.refl p0 p1 0 (sub_nonneg.2 b.le)).fl hf
        have n5 := (Near.refl p0 p1 0 (sub_nonneg.2 a)).fl hf
        have n6 := (n4.mul p0 n3).fl hf
        have n7 := (n5.mul p0 n3).fl hf
        unfold pyDivFl
        rw [pyDiv_ok (n2.pos p0 d0).ne', ok_bind, ok_bind]
        obtain ⟨m1, k1, sh1, at1⟩ := set2_nat g1 (j : ℤ) ((q + 1 : ℕ) : ℤ) j (q + 1)
          (fl (saved + fl (fl (V (i + j + (q + 1) + 1) - u) *
            fl (at2 T (j + 1) q 0 / fl (V (i + j + (q + 1) + 1) - V (i + j + 1)))))) 0 rfl rfl
          (by omega) (by omega)
        rw [k1, ok_bind]
        refine Returns.ok ⟨sh1, ?_, ?_, ?_⟩
        · intro x hx
          show Near ρ _ (at2 m1 x (q + 1) 0) _
          rw [at1]
          by_cases hxj : x = j
          · subst hxj
            rw [if_pos ⟨rfl, rfl⟩, hN]
            have n8 := ((g4.add (n6.mono p0 p1 (l := 5 * q + 4) (by omega))).fl hf).mono p0 p1
              (l := 5 * (q + 1)) (by omega)
            refine (congrArg (Near ρ (5 * (q + 1)) _) ?_).mp n8
            ring
          · rw [if_neg (by omega)]; exact g2 x (by omega)
        · intro x q' hq hx
          show Near ρ _ (at2 m1 x q' 0) _
          rw [at1, if_neg (by omega)]; exact g3 x q' hq hx
        · have e3 : i + (j + 1) + (q + 1) = i + j + (q + 1) + 1 := by omega
          have n8 := n7.mono p0 p1 (l := 5 * q + 4) (by omega)
          refine (congrArg (Near ρ (5 * q + 4) _) ?_).mp n8
          rw [e3, e2]
          ring
    · rintro ⟨T, saved⟩ ⟨g1, g2, g3, -⟩
      refine Returns.ok ⟨g1, fun x q hq hx => ?_⟩
      by_cases hqk : q = k
      · subst hqk; exact g2 x (by omega)
      · exact g3 x q (by omega) hx
  · rintro T ⟨h1, h2⟩
    exact ⟨h1, fun x k hx => h2 x k (by omega) hx⟩

/-! ## The size of the terms -/

/-- The recursion of the derivatives with all the terms counted positive. -/
noncomputable def absDer (V : ℕ → K) (s : ℕ) (u : K) : ℕ → ℕ → ℕ → K
  | 0, q, x => (piece V s q x).eval u
  | _ + 1, 0, _ => 0
  | m + 1, q + 1, x => ((q : K) + 1) * (absDer V s u m q x * w V q x + absDer V s u m q (x + 1) * w V q (x + 1))

theorem absDer_nonneg {V : ℕ → K} (hV : Monotone V) {s : ℕ} {u : K} (h1 : V s ≤ u) (h2 : u ≤ V (s + 1)) :
    ∀ m q x, 0 ≤ absDer V s u m q x
  | 0, q, x => piece_eval_nonneg hV h1 h2 q x
  | _ + 1, 0, _ => le_rfl
  | m + 1, q + 1, x => mul_nonneg (by positivity) (add_nonneg
      (mul_nonneg (absDer_nonneg hV h1 h2 m q x) (w_nonneg hV _ _))
      (mul_nonneg (absDer_nonneg hV h1 h2 m q (x + 1)) (w_nonneg hV _ _)))

/-- Outside the span there are no terms. -/
theorem absDer_eq_zero {V : ℕ → K} {s : ℕ} {u : K} : ∀ m q x, (s < x ∨ x + q < s) → absDer V s u m q x = 0
  | 0, q, x => fun h => by
    unfold absDer
    rcases h with h | h
    · rw [piece_eq_zero_of_lt V s q x h]; simp
    · rw [piece_eq_zero_of_gt V s q x h]; simp
  | _ + 1, 0, _ => fun _ => rfl
  | m + 1, q + 1, x => fun h => by
    unfold absDer
    rw [absDer_eq_zero m q x (by omega), absDer_eq_zero m q (x + 1) (by omega)]
    ring

theorem absDer_mul_w_le {V : ℕ → K} (hV : Monotone V) {s : ℕ} {u : K} (hs : V s < V (s + 1)) (h1 : V s ≤ u)
    (h2 : u ≤ V (s + 1)) (m q x : ℕ) :
    absDer V s u m q x * w V q x ≤ absDer V s u m q x * (1 / (V (s + 1) - V s)) := by
  by_cases h : s < x ∨ x + q < s
  · rw [absDer_eq_zero m q x h]; simp
  · refine mul_le_mul_of_nonneg_left ?_ (absDer_nonneg hV h1 h2 m q x)
    unfold w
    exact one_div_le_one_div_of_le (sub_pos.2 hs) (sub_le_sub (hV (by omega)) (hV (by omega)))

/-- All the terms together. -/
theorem sum_absDer_le {V : ℕ → K} (hV : Monotone V) {s : ℕ} {u : K} (h1 : V s ≤ u) (h2 : u < V (s + 1)) :
    ∀ m q n, ∑ x ∈ Finset.range n, absDer V s u m q x ≤ q.descFactorial m * (2 / (V (s + 1) - V s)) ^ m
  | 0, q, n => by
    simp only [absDer, Nat.descFactorial_zero, Nat.cast_one, pow_zero, mul_one]
    have : ∀ x, (piece V s q x).eval u = N V q x u := fun x => (N_eq_piece hV h1 h2 q x).symm
    simp only [this]
    exact sum_N_le_one hV u q n
  | m + 1, 0, n => by simp [absDer]
  | m + 1, q + 1, n => by
    have hs : V s < V (s + 1) := h1.trans_lt h2
    have h0 : 0 < V (s + 1) - V s := sub_pos.2 hs
    have a1 := sum_absDer_le hV h1 h2 m q n
    have a2 := sum_absDer_le hV h1 h2 m q (n + 1)
    have a3 : ∑ x ∈ Finset.range n, absDer V s u m q (x + 1) ≤ ∑ x ∈ Finset.range (n + 1), absDer V s u m q x := by
      rw [Finset.sum_range_succ' _ n]
      linarith [absDer_nonneg hV h1 h2.le m q 0]
    have hw : ∀ x, absDer V s u m q x * w V q x ≤ absDer V s u m q x * (1 / (V (s + 1) - V s)) :=
      absDer_mul_w_le hV hs h1 h2.le m q
    simp only [absDer]
    rw [← Finset.mul_sum, Finset.sum_add_distrib, Nat.succ_descFactorial_succ, pow_succ]
    have b1 := Finset.sum_le_sum fun x (_ : x ∈ Finset.range n) => hw x
    have b2 := Finset.sum_le_sum fun x (_ : x ∈ Finset.range n) => hw (x + 1)
    rw [← Finset.sum_mul] at b1 b2
    have hp : (0 : K) ≤ 1 / (V (s + 1) - V s) := one_div_nonneg.2 h0.le
    have c1 := mul_le_mul_of_nonneg_right a1 hp
    have c2 := mul_le_mul_of_nonneg_right (a3.trans a2) hp
    have := mul_le_mul_of_nonneg_left (add_le_add (b1.trans c1) (b2.trans c2)) (show (0 : K) ≤ (q : K) + 1 by positivity)
    refine this.trans (le_of_eq ?_)
    push_cast
    ring

/-- A derivative is at most the sum of the terms. -/
theorem deriv_piece_le_absDer {V : ℕ → K} (hV : Monotone V) {s : ℕ} {u : K} (h1 : V s ≤ u) (h2 : u ≤ V (s + 1)) :
    ∀ m q x, |(Spec.deriv m (piece V s q x)).eval u| ≤ absDer V s u m q x
  | 0, q, x => by
    simp only [Spec.deriv, Function.iterate_zero, id, absDer]
    exact (abs_of_nonneg (piece_eval_nonneg hV h1 h2 q x)).le
  | m + 1, 0, x => by
    have : Spec.deriv (m + 1) (piece V s 0 x) = 0 := by
      unfold Spec.deriv
      rw [Function.iterate_succ_apply]
      have : Polynomial.derivative (piece V s 0 x) = 0 := by
        unfold piece; split <;> simp
      rw [this]; simp
    rw [this]; simp [absDer]
  | m + 1, q + 1, x => by
    rw [deriv_piece_succ hV]
    unfold absDer
    have c1 : (0 : K) ≤ (q : K) + 1 := by positivity
    rw [abs_mul, abs_of_nonneg c1]
    refine mul_le_mul_of_nonneg_left ((abs_sub _ _).trans (add_le_add ?_ ?_)) c1
    · rw [abs_mul, abs_of_nonneg (w_nonneg hV q x)]
      exact mul_le_mul_of_nonneg_right (deriv_piece_le_absDer hV h1 h2 m q x) (w_nonneg hV _ _)
    · rw [abs_mul, abs_of_nonneg (w_nonneg hV q (x + 1))]
      exact mul_le_mul_of_nonneg_right (deriv_piece_le_absDer hV h1 h2 m q (x + 1)) (w_nonneg hV _ _)

/-! ## The derivatives -/

theorem Approx.eq_zero {g : K} {k : ℕ} {x y : K} (h : Approx g k x y 0) : x = 0 := by
  have h1 := abs_eq_zero.1 (le_antisymm h.1 (abs_nonneg y))
  have h2 := h.2
  rw [mul_zero, h1, sub_zero] at h2
  exact abs_eq_zero.1 (le_antisymm h2 (abs_nonneg x))

/-- A quotient that the code skips. -/
theorem Approx.skip {g : K} (hg : 1 ≤ g) {k : ℕ} {y B c : K} (hc : 0 ≤ c) (h : Approx g k 0 y B) :
    Approx g (k + 2) 0 (y * c) (B * c) := by
  refine Approx.mono hg (show k ≤ k + 2 by omega) ⟨?_, ?_⟩
  · rw [abs_mul, abs_of_nonneg hc]; exact mul_le_mul_of_nonneg_right h.1 hc
  · rw [show (0 : K) - y * c = (0 - y) * c by ring, abs_mul, abs_of_nonneg hc, ← mul_assoc]
    exact mul_le_mul_of_nonneg_right h.2 hc

/-- A quotient that the code computes. -/
theorem Approx.quot {ρ : K} {fl : K → K} (hr : Rounding fl) (hf : Accurate ρ fl) {V : ℕ → K} {q x k : ℕ} {n y B : K}
    (hx : V x < V (x + q + 1)) (h : Approx (1 / ρ) k n y B) :
    ∃ t, pyDivFl fl n (fl (V (x + q + 1) - V x)) = .ok t ∧ Approx (1 / ρ) (k + 2) t (y * w V q x) (B * w V q x) := by
  have p0 := hf.pos
  have p1 := hf.le_one
  have d0 : 0 < V (x + q + 1) - V x := sub_pos.2 hx
  have n2 := (Near.refl p0 p1 0 d0.le).fl hf
  have n3 := (Near.refl p0 p1 0 zero_le_one).div p0 n2 d0
  have n4 := ((h.mul hf.one_le (n3.approx p0 p1)).fl hr hf).mono hf.one_le (show _ ≤ k + 2 by omega)
  refine ⟨_, ?_, n4⟩
  unfold pyDivFl
  rw [pyDiv_ok (n2.pos p0 d0).ne', ok_bind, div_eq_mul_one_div n]

/-- One order of derivatives, at most the degree. -/
theorem oneDersStepFl_approx {ρ : K} {fl : K → K} (hr : Rounding fl) (hf : Accurate ρ fl) {U : List K}
    (hU : Monotone (knotFn U)) {p i s : ℕ} {u : K} (hi : i + p + 1 < U.length)
    (h1 : knotFn U s ≤ u) (h2 : u < knotFn U (s + 1)) {order : ℕ} {T : List (List K)} (hT : Shape T (p + 1) (p + 1))
    (hTv : ∀ j k, j + k ≤ p → Near ρ (5 * k) (at2 T j k 0) (N (knotFn U) k (i + j) u)) {k : ℕ} (hk1 : 1 ≤ k)
    (hk2 : k < order + 1)
    (hkp : k ≤ p) {ders ND : List K} (a1 : ders.length = order + 1) (a2 : ND.length = order + 1)
    (a3 : ∀ m < k, Approx (1 / ρ) (5 * p - m) (ders.getD m 0) ((Spec.deriv m (piece (knotFn U) s p i)).eval u)
      (absDer (knotFn U) s u m p i)) :
    Returns (oneDersStepFl fl p U i T k (ders, ND)) fun st => st.1.length = order + 1 ∧ st.2.length = order + 1 ∧
      st.1.getD 0 0 = ders.getD 0 0 ∧ ∀ m < k + 1, Approx (1 / ρ) (5 * p - m) (st.1.getD m 0) ((Spec.deriv m (piece (knotFn U) s p i)).eval u)
        (absDer (knotFn U) s u m p i) := by
  have p0 := hf.pos
  have p1 := hf.le_one
  have hg := hf.one_le
  unfold oneDersStepFl
  set V := knotFn U with hV
  have hs : V s < V (s + 1) := h1.trans_lt h2
  -- load the column
  refine Returns.bind (Returns.forN (fun j (ND : List K) => ND.length = order + 1 ∧
    ∀ x < j, Near ρ (5 * (p - k)) (ND.getD x 0) ((piece V s (p - k) (i + x)).eval u)) (by omega) ?_ ?_) ?_
  · exact ⟨a2, by intro x hx; omega⟩
  · rintro j ND - hj ⟨b1, b2⟩
    rw [get2_nat hT _ _ j (p - k) 0 rfl (by omega) (by omega) (by omega), ok_bind,
      pySet_nat ND _ j _ rfl (by omega)]
    refine Returns.ok ⟨by simp [b1], fun x hx => ?_⟩
    rw [getD_set _ _ _ _ _ (by omega)]
    by_cases hxj : x = j
    · subst hxj; rw [if_pos rfl, ← N_eq_piece hU h1 h2]; exact hTv x (p - k) (by omega)
    · rw [if_neg hxj]; exact b2 x (by omega)
  rintro ND0 ⟨b1, b2⟩
  -- the table of derivatives
  refine Returns.bind (Returns.forN (fun jj (ND : List K) => ND.length = order + 1 ∧
    ∀ x, x + (jj - 1) ≤ k → Approx (1 / ρ) (5 * (p - k) + 4 * (jj - 1)) (ND.getD x 0)
      ((Spec.deriv (jj - 1) (piece V s (p - k + (jj - 1)) (i + x))).eval u)
      (absDer V s u (jj - 1) (p - k + (jj - 1)) (i + x))) (by omega) ?_ ?_) ?_
  · exact ⟨b1, fun x hx => (b2 x (by omega)).approx p0 p1⟩
  · rintro jj ND hj1 hj2 ⟨c1, c2⟩
    obtain ⟨t, rfl⟩ : ∃ t, jj = t + 1 := ⟨jj - 1, by omega⟩
    simp only [Nat.add_sub_cancel] at c2 ⊢
    set q := p - k + t with hq
    set e := 5 * (p - k) + 4 * t with he
    set D : ℕ → K := fun x => (Spec.deriv t (piece V s q (i + x))).eval u with hD
    set A : ℕ → K := fun x => absDer V s u t q (i + x) with hA
    have hc2 : ∀ x, x + t ≤ k → Approx (1 / ρ) e (ND.getD x 0) (D x) (A x) := c2
    have hsup : ∀ x {n : K}, Approx (1 / ρ) e n (D x) (A x) → n ≠ 0 → V (i + x) < V (i + x + q + 1) := by
      intro x n hn h0
      by_contra hc
      refine h0 (Approx.eq_zero (y := D x) (g := 1 / ρ) (k := e) ?_)
      have : A x = 0 := by
        refine absDer_eq_zero t q (i + x) ?_
        by_contra hcc
        exact hc (lt_of_le_of_lt (hU (by omega)) (lt_of_lt_of_le hs (hU (by omega))))
      rw [← this]; exact hn
    rw [pyGet_nat ND 0 0 0 rfl (by omega), ok_bind]
    have hsaved : Returns (if ND.getD 0 0 ≠ 0 then (do
          let b ← pyGet U ((i : ℤ) + p - k + (t + 1 : ℕ))
          let a ← pyGet U (i : ℤ)
          pyDivFl fl (ND.getD 0 0) (fl (b - a)))
        else .ok 0 : Py K) fun saved => Approx (1 / ρ) (e + 2) saved (D 0 * w V q (i + 0)) (A 0 * w V q (i + 0)) := by
      have h := hc2 0 (by omega)
      by_cases h0 : ND.getD 0 0 = 0
      · rw [if_neg (by simpa using h0)]
        rw [h0] at h
        exact Returns.ok (h.skip hg (w_nonneg hU _ _))
      · rw [if_pos h0, pyGet_knot U _ (i + q + 1) (by push_cast; omega) (by omega), ok_bind,
          pyGet_knot U _ i rfl (by omega), ok_bind, ← hV]
        obtain ⟨t, e1, e2⟩ := h.quot hr hf (hsup 0 h h0)
        simp only [add_zero] at e1
        rw [e1]
        exact Returns.ok e2
    refine Returns.bind hsaved ?_
    intro saved hsaved
    refine Returns.bind (Returns.forN (fun j st => st.1.length = order + 1 ∧
      (∀ x < j, Approx (1 / ρ) (e + 4) (st.1.getD x 0)
        ((Spec.deriv (t + 1) (piece V s (q + 1) (i + x))).eval u) (absDer V s u (t + 1) (q + 1) (i + x))) ∧
      (∀ x, j ≤ x → x + t ≤ k → Approx (1 / ρ) e (st.1.getD x 0) (D x) (A x)) ∧
      Approx (1 / ρ) (e + 2) st.2 (D j * w V q (i + j)) (A j * w V q (i + j))) (by omega) ?_ ?_) ?_
    · exact ⟨c1, by intro x hx; omega, fun x _ hx => hc2 x hx, hsaved⟩
    · rintro j ⟨ND, saved⟩ - hj ⟨d1, d2, d3, d4⟩
      simp only at d1 d2 d3 d4 ⊢
      have h := d3 (j + 1) (by omega) (by omega)
      rw [pyGet_knot U _ (i + j + 1) (by push_cast; rfl) (by omega), ok_bind,
        pyGet_knot U _ (i + (j + 1) + q + 1) (by push_cast; omega) (by omega), ok_bind,
        pyGet_nat ND _ (j + 1) 0 (by push_cast; rfl) (by omega), ok_bind, ← hV]
      have hcast : ((p : K) - k + ((t + 1 : ℕ) : K)) = (q : K) + 1 := by
        have e : ((p - k + t : ℕ) : K) = (p : K) - k + t := by
          rw [Nat.cast_add, Nat.cast_sub (by omega)]
        rw [hq, e]; push_cast; ring
      have hval : (Spec.deriv (t + 1) (piece V s (q + 1) (i + j))).eval u
          = ((q : K) + 1) * (D j * w V q (i + j) - D (j + 1) * w V q (i + (j + 1))) := by
        rw [deriv_piece_succ hU]; rfl
      have habs : absDer V s u (t + 1) (q + 1) (i + j)
          = ((q : K) + 1) * (A j * w V q (i + j) + A (j + 1) * w V q (i + (j + 1))) := rfl
      have hq1 : Approx (1 / ρ) 0 ((q : K) + 1) ((q : K) + 1) ((q : K) + 1) := by
        have := Approx.refl hg 0 ((q : K) + 1)
        rwa [abs_of_nonneg (show (0 : K) ≤ (q : K) + 1 by positivity)] at this
      -- the new entry, with the quotient `τ`
      have hnew : ∀ τ δ, Approx (1 / ρ) (e + 2) τ (D (j + 1) * w V q (i + (j + 1))) (A (j + 1) * w V q (i + (j + 1))) →
          (δ = saved - τ ∨ δ = fl (saved - τ)) → Approx (1 / ρ) (e + 4) (fl (((q : K) + 1) * δ))
            ((Spec.deriv (t + 1) (piece V s (q + 1) (i + j))).eval u) (absDer V s u (t + 1) (q + 1) (i + j)) := by
        intro τ δ hτ hδ
        have n1 := d4.add hτ.neg
        rw [← sub_eq_add_neg, ← sub_eq_add_neg] at n1
        have n2 : Approx (1 / ρ) (e + 3) δ (D j * w V q (i + j) - D (j + 1) * w V q (i + (j + 1)))
            (A j * w V q (i + j) + A (j + 1) * w V q (i + (j + 1))) := by
          rcases hδ with rfl | rfl
          · exact n1.mono hg (by omega)
          · exact n1.fl hr hf
        have n3 := ((hq1.mul hg n2).fl hr hf).mono hg (show _ ≤ e + 4 by omega)
        rw [hval, habs]
        exact n3
      rw [hcast]
      by_cases hz : ND.getD (j + 1) 0 = 0
      · rw [if_pos hz, pySet_nat ND _ j _ rfl (by omega), ok_bind]
        rw [hz] at h
        have hsk := h.skip hg (w_nonneg hU q (i + (j + 1)))
        refine Returns.ok ⟨by simp [d1], ?_, ?_, hsk⟩
        · intro x hx
          show Approx _ _ ((ND.set j _).getD x 0) _ _
          rw [getD_set _ _ _ _ _ (by omega)]
          by_cases hxj : x = j
          · subst hxj; rw [if_pos rfl]
            exact hnew 0 saved hsk (.inl (sub_zero _).symm)
          · rw [if_neg hxj]; exact d2 x (by omega)
        · intro x hx1 hx2
          show Approx _ _ ((ND.set j _).getD x 0) _ _
          rw [getD_set _ _ _ _ _ (by omega), if_neg (by omega)]; exact d3 x (by omega) hx2
      · rw [if_neg hz]
        obtain ⟨τ, e1, e2⟩ := h.quot hr hf (hsup (j + 1) h hz)
        have e0 : i + j + 1 = i + (j + 1) := by omega
        rw [e0, e1, ok_bind, pySet_nat ND _ j _ rfl (by omega), ok_bind]
        refine Returns.ok ⟨by simp [d1], ?_, ?_, e2⟩
        · intro x hx
          show Approx _ _ ((ND.set j _).getD x 0) _ _
          rw [getD_set _ _ _ _ _ (by omega)]
          by_cases hxj : x = j
          · subst hxj; rw [if_pos rfl]
            exact hnew τ _ e2 (.inr rfl)
          · rw [if_neg hxj]; exact d2 x (by omega)
        · intro x hx1 hx2
          show Approx _ _ ((ND.set j _).getD x 0) _ _
          rw [getD_set _ _ _ _ _ (by omega), if_neg (by omega)]; exact d3 x (by omega) hx2
    · rintro ⟨ND, saved⟩ ⟨d1, d2, -, -⟩
      refine Returns.ok ⟨d1, fun x hx => ?_⟩
      have := d2 x (by omega)
      rw [he] at this
      exact this
  rintro ND ⟨c1, c2⟩
  have hc := c2 0 (by omega)
  simp only [Nat.add_sub_cancel, add_zero, show p - k + k = p by omega] at hc
  rw [pyGet_nat ND 0 0 0 rfl (by omega), ok_bind, pySet_nat ders _ k _ rfl (by omega), ok_bind]
  refine Returns.ok ⟨by simp [a1], c1, ?_, fun m hm => ?_⟩
  · show (ders.set k _).getD 0 0 = _
    rw [getD_set _ _ _ _ _ (by omega), if_neg (by omega)]
  show Approx _ _ ((ders.set k _).getD m 0) _ _
  rw [getD_set _ _ _ _ _ (by omega)]
  by_cases hmk : m = k
  · subst hmk; rw [if_pos rfl]; exact hc.mono hg (by omega)
  · rw [if_neg hmk]; exact a3 m (by omega)

/-- `one_basis_function_ders` in rounded arithmetic. -/
theorem oneBasisFunctionDersFl_approx {ρ : K} {fl : K → K} (hr : Rounding fl) (hf : Accurate ρ fl) {U : List K}
    (hU : Monotone (knotFn U)) {p i s : ℕ} {u : K}
    (hi : i + p + 1 < U.length) (h1 : knotFn U s ≤ u) (h2 : u < knotFn U (s + 1)) {order : ℕ}
    (ho : order ≤ p) :
    Returns (oneBasisFunctionDersFl fl p U i u order) fun ders => ders.length = order + 1 ∧
      (Near ρ (5 * p) (ders.getD 0 0) ((piece (knotFn U) s p i).eval u)) ∧
      ∀ m ≤ order, Approx (1 / ρ) (5 * p - m) (ders.getD m 0) ((Spec.deriv m (piece (knotFn U) s p i)).eval u)
        (absDer (knotFn U) s u m p i) := by
  have p0 := hf.pos
  have p1 := hf.le_one
  set V := knotFn U with hV
  have hs : V s < V (s + 1) := h1.trans_lt h2
  have zero_case : (s < i ∨ i + p < s) → Returns (.ok (zeros (order + 1) : List K))
      fun ders => ders.length = order + 1 ∧ (Near ρ (5 * p) (ders.getD 0 0) ((piece V s p i).eval u)) ∧
      ∀ m ≤ order, Approx (1 / ρ) (5 * p - m) (ders.getD m 0) ((Spec.deriv m (piece V s p i)).eval u)
        (absDer V s u m p i) := by
    intro h0
    have hp : piece V s p i = 0 := by
      rcases h0 with h | h
      · exact piece_eq_zero_of_lt V s p i h
      · exact piece_eq_zero_of_gt V s p i h
    have hz : ∀ m, (zeros (order + 1) : List K).getD m 0 = 0 := fun m => by
      simp [zeros, List.getD_eq_getElem?_getD, List.getElem?_replicate]
      split <;> rfl
    refine Returns.ok ⟨by simp [zeros], ?_, fun m hm => ?_⟩
    · rw [hz, hp]; simpa using Near.zero _
    · rw [hz, hp, absDer_eq_zero m p i h0]
      unfold Spec.deriv
      simpa using Approx.zero _ _
  by_cases hlo : u < knotFn U i
  · unfold oneBasisFunctionDersFl
    dsimp only
    rw [pyGet_knot U _ i rfl (by omega), ok_bind, if_pos hlo]
    refine zero_case (.inl ?_)
    by_contra hc
    exact absurd ((hU (by omega : i ≤ s)).trans h1) (not_le.2 hlo)
  by_cases hhi : u ≥ knotFn U (i + p + 1)
  · unfold oneBasisFunctionDersFl
    dsimp only
    rw [pyGet_knot U _ i rfl (by omega), ok_bind, if_neg hlo,
      pyGet_knot U _ (i + p + 1) (by push_cast; rfl) hi, ok_bind, if_pos hhi]
    refine zero_case (.inr ?_)
    by_contra hc
    exact absurd (hhi.trans_lt h2) (not_lt.2 (hU (by omega : s + 1 ≤ i + p + 1)))
  unfold oneBasisFunctionDersFl
  dsimp only
  rw [pyGet_knot U _ i rfl (by omega), ok_bind, if_neg hlo,
    pyGet_knot U _ (i + p + 1) (by push_cast; rfl) hi, ok_bind, if_neg hhi]
  refine Returns.bind (oneBasisTableFl_near hf hU u hi) ?_
  rintro T ⟨hT, hTv⟩
  have hv := hTv 0 p (by omega)
  rw [add_zero, N_eq_piece hU h1 h2] at hv
  rw [get2_nat hT 0 _ 0 p 0 rfl rfl (by omega) (by omega), ok_bind,
    pySet_nat _ 0 0 _ rfl (by simp [zeros]), ok_bind]
  have h00 : ((zeros (order + 1) : List K).set 0 (at2 T 0 p 0)).getD 0 0 = at2 T 0 p 0 := by
    rw [getD_set _ _ _ _ _ (by simp [zeros]), if_pos rfl]
  refine Returns.bind (Returns.forN (fun k st => st.1.length = order + 1 ∧ st.2.length = order + 1 ∧
    (∀ m < k, Approx (1 / ρ) (5 * p - m) (st.1.getD m 0) ((Spec.deriv m (piece V s p i)).eval u)
      (absDer V s u m p i)) ∧ st.1.getD 0 0 = at2 T 0 p 0) (by omega) ?_ ?_) ?_
  · refine ⟨by simp [zeros], by simp [zeros], fun m hm => ?_, h00⟩
    have : m = 0 := by omega
    subst this
    rw [h00]
    exact hv.approx p0 p1
  · rintro k ⟨ders, ND⟩ hk1 hk2 ⟨a1, a2, a3, a4⟩
    refine (oneDersStepFl_approx hr hf hU hi h1 h2 hT hTv hk1 hk2 (by omega) a1 a2 a3).mono ?_
    rintro st ⟨b1, b2, b3, b4⟩
    exact ⟨b1, b2, b4, b3.trans a4⟩
  rintro ⟨ders, ND⟩ ⟨a1, -, a3, a4⟩
  refine Returns.ok ⟨a1, ?_, fun m hm => a3 m (by omega)⟩
  rw [show ders.getD 0 0 = _ from a4]
  exact hv

end

end PySpline
