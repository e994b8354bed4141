import Verif.Lemmas.InsertionAux
import Verif.Lemmas.Marsden
import Verif.Lemmas.Piece
import Mathlib.Algebra.Polynomial.Roots
import Mathlib.Order.Interval.Set.Infinite

/-!
# Lemmas about a single insertion with any count of near knots
-/

set_option linter.unusedSectionVars false

namespace PySpline

open Spec Finset Polynomial

variable {K : Type} [Field K] [LinearOrder K] [IsStrictOrderedRing K]

/-- The control points computed when `s` knots are counted as copies of `u`. -/
def countedPts (V : ℕ → K) (p k s : ℕ) (u : K) (c : ℕ → K) : ℕ → K := fun m =>
  if m + p ≤ k then c m
  else if m + s ≤ k then (u - V m) / (V (m + p) - V m) * c m + (1 - (u - V m) / (V (m + p) - V m)) * c (m - 1)
  else c (m - 1)

section
variable {V : ℕ → K} {k k' p : ℕ} {u : K}

theorem insKnots_run (hkk : k ≤ k') (hrun : ∀ j, k < j → j ≤ k' → V j = u) :
    insKnots V k u 1 = insKnots V k' u 1 := by
  funext i
  unfold insKnots
  by_cases a : i ≤ k
  · rw [if_pos a, if_pos (by omega)]
  rw [if_neg a]
  by_cases b : i ≤ k + 1
  · rw [if_pos b]
    by_cases c : i ≤ k'
    · rw [if_pos c, hrun i (by omega) c]
    · rw [if_neg c, if_pos (by omega)]
  rw [if_neg b]
  by_cases c : i ≤ k'
  · rw [if_pos c, hrun i (by omega) c, hrun (i - 1) (by omega) (by omega)]
  rw [if_neg c]
  by_cases d : i ≤ k' + 1
  · rw [if_pos d, hrun (i - 1) (by omega) (by omega)]
  · rw [if_neg d]

theorem boehmA_run (hV : Monotone V) (hkk : k ≤ k') (hkp : k' ≤ k + p) (hlt : k < k' → V k < u)
    (hrun : ∀ j, k < j → j ≤ k' → V j = u) (i : ℕ) : boehmA V p k u i = boehmA V p k' u i := by
  unfold boehmA
  by_cases a : i + p ≤ k
  · rw [if_pos a, if_pos (by omega)]
  rw [if_neg a]
  by_cases b : k < i
  · rw [if_pos b]
    by_cases c : i + p ≤ k'
    · omega
    · rw [if_neg c]
      by_cases d : k' < i
      · rw [if_pos d]
      · rw [if_neg d, hrun i b (by omega), sub_self, zero_div]
  rw [if_neg b]
  by_cases c : i + p ≤ k'
  · have : V i ≤ V k := hV (by omega)
    have := hlt (by omega)
    rw [if_pos c, hrun (i + p) (by omega) c, div_self (by intro h; linarith)]
  · rw [if_neg c, if_neg (by omega)]

/-- Boehm's rule also holds when the new knot is the right end of the span. -/
theorem spline_boehm_run (hV : Monotone V) (hkk : k ≤ k') (hkp : k' ≤ k + p) (hlt : k < k' → V k < u)
    (hrun : ∀ j, k < j → j ≤ k' → V j = u) (h1 : V k' ≤ u) (h2 : u < V (k' + 1)) {n : ℕ} (hp : p ≤ k)
    (hn : k' < n) (c : ℕ → K) (x : K) :
    spline (insKnots V k u 1) p (n + 1) (boehm V p k u c) x = spline V p n c x := by
  have e : boehm V p k u c = boehm V p k' u c := by
    funext i
    unfold boehm
    rw [boehmA_run hV hkk hkp hlt hrun i]
  rw [e, insKnots_run hkk hrun]
  exact spline_boehm hV h1 h2 (by omega) hn c x

/-- The difference of the computed and the right control points. -/
theorem countedPts_eq {s : ℕ} (hs : s + 1 ≤ p) (c : ℕ → K) (i : ℕ) : countedPts V p k s u c i
    = boehm V p k u c i
      - if k < i + s ∧ i ≤ k then (u - V i) / (V (i + p) - V i) * (c i - c (i - 1)) else 0 := by
  unfold countedPts boehm boehmA
  by_cases a : i + p ≤ k
  · rw [if_pos a, if_pos a, if_neg (by omega)]; ring
  rw [if_neg a, if_neg a]
  by_cases b : i + s ≤ k
  · rw [if_pos b, if_neg (by omega), if_neg (by omega)]; ring
  rw [if_neg b]
  by_cases d : k < i
  · rw [if_pos d, if_neg (by omega)]; ring
  · rw [if_neg d, if_pos (by omega)]; ring

end

/-- On an interval inside a knot span a combination of basis functions is zero only if all
coefficients of the span vanish. -/
theorem coeff_zero_of_sum_zero {W : ℕ → K} (hW : Monotone W) {k p m : ℕ} (hk : p ≤ k) (hkm : k < m)
    (hs : W k < W (k + 1)) (c : ℕ → K)
    (h : ∀ x, W k ≤ x → x < W (k + 1) → ∑ i ∈ range m, c i * N W p i x = 0) :
    ∀ i, k ≤ i + p → i ≤ k → c i = 0 := by
  refine piece_independent hW hs p hk c ?_
  refine eq_zero_of_infinite_isRoot _ ((Set.Ioo_infinite hs).mono fun x hx => ?_)
  have h := h x hx.1.le hx.2
  change eval x _ = 0
  rw [eval_finsetSum, ← h]
  simp only [eval_mul, eval_C]
  rw [sum_congr rfl fun i _ => by rw [← N_eq_piece hW hx.1.le hx.2 p i]]
  refine sum_subset (range_subset_range.2 (by omega)) fun i _ hi => ?_
  rw [N_eq_piece hW hx.1.le hx.2, piece_eq_zero_of_lt _ _ _ _ (by simp at hi; omega), eval_zero, mul_zero]

/-- The copies of `u` behind the span found for it. -/
theorem exists_last_copy {U : List K} {n p k : ℕ} {u : K} (hU : KnotVector p n U) (hk : k < n)
    (h2 : u ≤ knotFn U (k + 1)) (hn : u < knotFn U n) :
    ∃ k', k ≤ k' ∧ k' < n ∧ (∀ j, k < j → j ≤ k' → knotFn U j = u) ∧ u < knotFn U (k' + 1) := by
  have hm := monotone_knotFn hU.mono
  induction hd : n - k generalizing k with
  | zero => omega
  | succ d ih =>
    by_cases h : u < knotFn U (k + 1)
    · exact ⟨k, le_rfl, hk, fun j h1 h2 => by omega, h⟩
    · have he : knotFn U (k + 1) = u := le_antisymm (not_lt.1 h) h2
      have hk1 : k + 1 < n := by
        by_contra hc
        rw [show k + 1 = n by omega] at he
        exact hn.ne he.symm
      obtain ⟨k', a, b, c, e⟩ := ih (k := k + 1) hk1 (he ▸ hm (by omega)) (by omega)
      refine ⟨k', by omega, b, fun j j1 j2 => ?_, e⟩
      by_cases hj : j = k + 1
      · rw [hj, he]
      · exact c j (by omega) j2

/-- Exact copies are counted. -/
theorem count_le_findMultiplicity (u : K) (U : List K) : U.count u ≤ findMultiplicity u U := by
  rw [(find_multiplicity_counts u U).1]
  unfold List.count
  refine List.countP_mono_left fun x _ hx => ?_
  rw [beq_iff_eq] at hx
  subst hx
  rw [decide_eq_true_eq, sub_self, abs_zero]
  positivity

/-- A run of equal entries is not longer than the count. -/
theorem run_le_count {U : List K} {u : K} {a m : ℕ} (hl : a + m ≤ U.length)
    (h : ∀ j, a ≤ j → j < a + m → knotFn U j = u) : m ≤ U.count u := by
  have e : (U.drop a).take m = List.replicate m u := by
    refine List.ext_getElem (by simp; omega) fun i h1 h2 => ?_
    rw [List.getElem_take, List.getElem_drop, List.getElem_replicate, ← knotFn_eq]
    simp at h2
    exact h _ (by omega) (by omega)
  have : (List.replicate m u).count u ≤ U.count u := by
    rw [← e]
    exact ((List.take_sublist _ _).trans (List.drop_sublist _ _)).count_le _
  rwa [List.count_replicate_self] at this

/-- If no knot within tolerance lies right of `u`, the counted knots are the last ones up to `u`. -/
theorem near_of_counted {U : List K} {k s i : ℕ} {u : K} (hU : U.Pairwise (· ≤ ·)) (hk : k < U.length)
    (h1 : knotFn U k ≤ u) (h2 : u < knotFn U (k + 1)) (hs : findMultiplicity u U = s)
    (hleft : ∀ x ∈ U, |u - x| ≤ 1 / 10 ^ 8 + 1 / 10 ^ 5 * |x| → x ≤ u)
    (i1 : k - s < i) (i2 : i ≤ k) :
    |u - knotFn U i| ≤ 1 / 10 ^ 8 + 1 / 10 ^ 5 * |knotFn U i| := by
  have hm := monotone_knotFn hU
  by_contra hc
  push Not at hc
  have hfar : ∀ j, j < U.length → (j ≤ i ∨ k < j) →
      ¬ |u - knotFn U j| ≤ 1 / 10 ^ 8 + 1 / 10 ^ 5 * |knotFn U j| := by
    intro j hj hd h
    have hju := hleft (knotFn U j) (by rw [knotFn_eq hj]; exact List.getElem_mem _) h
    rcases hd with hd | hd
    · have hji : knotFn U j ≤ knotFn U i := hm hd
      rw [abs_of_nonneg (by linarith)] at h
      have ht : |knotFn U j| ≤ |knotFn U i| + (knotFn U i - knotFn U j) := by
        have := abs_sub_abs_le_abs_sub (knotFn U j) (knotFn U i)
        rw [abs_sub_comm, abs_of_nonneg (by linarith : (0:K) ≤ knotFn U i - knotFn U j)] at this
        linarith
      have hiu : knotFn U i ≤ u := (hm i2).trans h1
      rw [abs_of_nonneg (sub_nonneg.2 hiu)] at hc
      linarith
    · have := hm (show k + 1 ≤ j by omega)
      linarith
  rw [(find_multiplicity_counts u U).1] at hs
  have e : U = U.take (i + 1) ++ ((U.drop (i + 1)).take (k - i) ++ U.drop (k + 1)) := by
    have : U.drop (k + 1) = (U.drop (i + 1)).drop (k - i) := by rw [List.drop_drop]; congr 1; omega
    rw [this, List.take_append_drop, List.take_append_drop]
  have c1 : (U.take (i + 1)).countP
      (fun x => decide (|u - x| ≤ 1 / 10 ^ 8 + 1 / 10 ^ 5 * |x|)) = 0 := by
    rw [List.countP_eq_zero]
    intro x hx
    obtain ⟨j, hj, rfl⟩ := List.mem_take_iff_getElem.1 hx
    rw [decide_eq_true_eq, ← knotFn_eq (by omega)]
    exact hfar j (by omega) (.inl (by omega))
  have c2 : (U.drop (k + 1)).countP
      (fun x => decide (|u - x| ≤ 1 / 10 ^ 8 + 1 / 10 ^ 5 * |x|)) = 0 := by
    rw [List.countP_eq_zero]
    intro x hx
    obtain ⟨j, hj, rfl⟩ := List.mem_iff_getElem.1 hx
    rw [List.length_drop] at hj
    rw [decide_eq_true_eq, List.getElem_drop, ← knotFn_eq (by omega)]
    exact hfar _ (by omega) (.inr (by omega))
  rw [e, List.countP_append, List.countP_append, c1, c2] at hs
  have := List.countP_le_length (p := fun x => decide (|u - x| ≤ 1 / 10 ^ 8 + 1 / 10 ^ 5 * |x|))
    (l := (U.drop (i + 1)).take (k - i))
  have : ((U.drop (i + 1)).take (k - i)).length ≤ k - i := by rw [List.length_take]; omega
  omega

end PySpline
