import Verif.Lemmas.Piece

/-!
# Pieces at a knot of given multiplicity; continuity; spans containing a parameter
-/

set_option linter.unusedSectionVars false

namespace PySpline.Spec

open Polynomial Finset

variable {K : Type} [Field K] [LinearOrder K] [IsStrictOrderedRing K]

theorem eval_piece_succ (V : ℕ → K) (k p i : ℕ) (u : K) :
    (piece V k (p + 1) i).eval u = w V p i * (u - V i) * (piece V k p i).eval u
      + w V p (i + 1) * (V (i + p + 2) - u) * (piece V k p (i + 1)).eval u := by
  rw [piece_succ]
  simp only [eval_add, eval_mul, eval_C, eval_sub, eval_X]

/-- Pieces of the span to the right of a knot, at the knot: if the last `m` knots up to `k` are
equal to `u`, the pieces of degree `q ≤ m` are `0` except number `k - q`. -/
theorem piece_at_left_end {V : ℕ → K} {k m : ℕ} {u : K} (hm : ∀ j < m, V (k - j) = u)
    (hu : u < V (k + 1)) (q : ℕ) (hq : q ≤ m) (hqk : q ≤ k) (i : ℕ) :
    (piece V k q i).eval u = if i + q = k then 1 else 0 := by
  induction q generalizing i with
  | zero => unfold piece; split <;> simp_all
  | succ q ih =>
    rw [eval_piece_succ, ih (by omega) (by omega), ih (by omega) (by omega)]
    have h1 : (w V q i * (u - V i) * if i + q = k then 1 else 0) = 0 := by
      by_cases h : i + q = k
      · have : V i = u := by
          have := hm q (by omega)
          rwa [show k - q = i by omega] at this
        rw [this]; simp
      · simp [h]
    rw [h1, zero_add]
    by_cases h : i + (q + 1) = k
    · rw [if_pos (by omega), if_pos h, mul_one]
      have e1 : V (i + 1) = u := by
        have := hm q (by omega)
        rwa [show k - q = i + 1 by omega] at this
      have e2 : i + q + 2 = k + 1 := by omega
      have e3 : i + 1 + q + 1 = k + 1 := by omega
      unfold w
      rw [e1, e2, e3]
      exact one_div_mul_cancel (by intro h; linarith)
    · rw [if_neg (by omega), if_neg h, mul_zero]

/-- Pieces of the span to the left of a knot, at the knot: if the first `m` knots from `k + 1` on
are equal to `u`, the pieces of degree `q ≤ m` are `0` except number `k`. -/
theorem piece_at_right_end {V : ℕ → K} {k m : ℕ} {u : K} (hm : ∀ j < m, V (k + 1 + j) = u)
    (hu : V k < u) (q : ℕ) (hq : q ≤ m) (i : ℕ) :
    (piece V k q i).eval u = if i = k then 1 else 0 := by
  induction q generalizing i with
  | zero => unfold piece; split <;> simp_all
  | succ q ih =>
    rw [eval_piece_succ, ih (by omega), ih (by omega)]
    have h1 : (w V q (i + 1) * (V (i + q + 2) - u) * if i + 1 = k then 1 else 0) = 0 := by
      by_cases h : i + 1 = k
      · have : V (i + q + 2) = u := by
          have := hm q (by omega)
          rwa [show k + 1 + q = i + q + 2 by omega] at this
        rw [this]; simp
      · simp [h]
    rw [h1, add_zero]
    by_cases h : i = k
    · rw [if_pos h, mul_one]
      subst h
      have : V (i + q + 1) = u := by
        have := hm q (by omega)
        rwa [show i + 1 + q = i + q + 1 by omega] at this
      unfold w
      rw [this]
      exact one_div_mul_cancel (by intro h; linarith)
    · rw [if_neg h, mul_zero]

/-- Continuity: at a knot of multiplicity `m ≤ p` the pieces of the two adjacent spans agree. -/
theorem piece_continuous {V : ℕ → K} {k m p : ℕ} {u : K} (h1 : V k < u)
    (h2 : ∀ j < m, V (k + 1 + j) = u) (h3 : u < V (k + m + 1)) (hmp : m ≤ p) (i : ℕ) :
    (piece V k p i).eval u = (piece V (k + m) p i).eval u := by
  obtain ⟨d, rfl⟩ : ∃ d, p = m + d := ⟨p - m, by omega⟩
  clear hmp
  induction d generalizing i with
  | zero =>
    rw [Nat.add_zero, piece_at_right_end h2 h1 m le_rfl,
      piece_at_left_end (k := k + m) (m := m) (u := u) ?_ h3 m le_rfl (by omega)]
    · by_cases h : i = k
      · rw [if_pos h, if_pos (by omega)]
      · rw [if_neg h, if_neg (by omega)]
    · intro j hj
      have := h2 (m - 1 - j) (by omega)
      rwa [show k + 1 + (m - 1 - j) = k + m - j by omega] at this
  | succ d ih => rw [← Nat.add_assoc, eval_piece_succ, eval_piece_succ, ih, ih]

/-- Every parameter of the half-open domain is in a half-open span. -/
theorem exists_span {V : ℕ → K} {p n : ℕ} {u : K} (h1 : V p ≤ u) (h2 : u < V n) (hpn : p ≤ n) :
    ∃ k, p ≤ k ∧ k < n ∧ V k ≤ u ∧ u < V (k + 1) := by
  induction n with
  | zero =>
    have : p = 0 := by omega
    subst this
    exact absurd (h1.trans_lt h2) (lt_irrefl _)
  | succ n ih =>
    have hp : p ≠ n + 1 := by
      rintro rfl; exact absurd (h1.trans_lt h2) (lt_irrefl _)
    by_cases h : u < V n
    · obtain ⟨k, a, b, c⟩ := ih h (by omega)
      exact ⟨k, a, by omega, c⟩
    · exact ⟨n, by omega, by omega, not_lt.1 h, h2⟩

theorem sum_piece_range {V : ℕ → K} (hV : Monotone V) {k p n : ℕ} (hp : p ≤ k) (hkn : k < n)
    (hs : V k < V (k + 1)) : ∑ i ∈ range n, piece V k p i = 1 := by
  rw [← sum_piece hV hs p hp]
  symm
  refine sum_subset (range_subset_range.2 (by omega)) fun i _ hi => ?_
  exact piece_eq_zero_of_lt V k p i (by simp at hi; omega)

theorem sum_N {V : ℕ → K} (hV : Monotone V) {p n : ℕ} {u : K} (h1 : V p ≤ u) (h2 : u < V n)
    (hpn : p ≤ n) : ∑ i ∈ range n, N V p i u = 1 := by
  obtain ⟨k, a, b, c, d⟩ := exists_span h1 h2 hpn
  have := congrArg (eval u) (sum_piece_range hV a b (c.trans_lt d))
  rw [eval_finsetSum, eval_one] at this
  rw [← this]
  exact sum_congr rfl fun i _ => N_eq_piece hV c d p i

theorem N_nonneg {V : ℕ → K} (hV : Monotone V) (p i : ℕ) (u : K) : 0 ≤ N V p i u := by
  by_cases hz : N V p i u = 0
  · rw [hz]
  induction p generalizing i with
  | zero => unfold N; split <;> simp
  | succ p ih =>
    have ih' : ∀ i, 0 ≤ N V p i u := fun i => by
      by_cases h : N V p i u = 0
      · rw [h]
      · exact ih i h
    have supp : ∀ i, N V p i u ≠ 0 → V i ≤ u ∧ u ≤ V (i + p + 1) := by
      intro i
      clear hz ih ih'
      induction p generalizing i with
      | zero =>
        intro h; unfold N at h; by_contra hc
        rw [if_neg (fun h => hc ⟨h.1, h.2.le⟩)] at h; exact h rfl
      | succ p ih =>
        intro h; unfold N at h
        by_cases h1 : N V p i u = 0
        · by_cases h2 : N V p (i + 1) u = 0
          · rw [h1, h2] at h; simp at h
          · have ⟨a, b⟩ := ih _ h2
            exact ⟨(hV (by omega)).trans a, b.trans (hV (by omega))⟩
        · have ⟨a, b⟩ := ih _ h1
          exact ⟨a, b.trans (hV (by omega))⟩
    unfold N
    refine add_nonneg ?_ ?_
    · by_cases h : N V p i u = 0
      · rw [h]; simp
      · exact mul_nonneg (div_nonneg (sub_nonneg.2 (supp i h).1)
          (sub_nonneg.2 (hV (by omega)))) (ih' i)
    · by_cases h : N V p (i + 1) u = 0
      · rw [h]; simp
      · have := (supp (i + 1) h).2
        have e : i + 1 + p + 1 = i + p + 2 := by omega
        rw [e] at this
        exact mul_nonneg (div_nonneg (sub_nonneg.2 this) (sub_nonneg.2 (hV (by omega)))) (ih' _)

end PySpline.Spec
