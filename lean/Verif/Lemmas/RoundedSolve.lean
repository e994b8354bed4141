import Verif.Model.RoundedSolve
import Verif.SpecSolver
import Verif.Lemmas.RoundedInsertion
import Verif.Props.FitDouble
import Verif.Props.Inexact

/-!
# Lemmas on complete fits in rounded arithmetic
-/

set_option linter.unusedSectionVars false

namespace PySpline

open Spec Finset

variable {K : Type} [Field K] [LinearOrder K] [IsStrictOrderedRing K]

theorem le_of_sq_le_mul {x c : K} (hx : 0 ≤ x) (hc : 0 ≤ c) (h : x ^ 2 ≤ c * x) : x ≤ c := by
  rcases hx.lt_or_eq with h0 | h0
  · rw [sq] at h
    exact le_of_mul_le_mul_right h h0
  · rw [← h0]; exact hc

theorem exists_max_abs {n : ℕ} (hn : 0 < n) (e : ℕ → K) : ∃ q < n, ∀ i < n, |e i| ≤ |e q| := by
  obtain ⟨q, hq, hmax⟩ := exists_max_image (range n) (fun i => |e i|) ⟨0, mem_range.2 hn⟩
  exact ⟨q, mem_range.1 hq, fun i hi => hmax i (mem_range.2 hi)⟩

/-! ## Perturbed least-squares problems -/

/-- If the values determine the free entries, the solution of a perturbed least-squares problem is close to the solution. -/
theorem perturbed_normal {m n : ℕ} {N A : ℕ → ℕ → K} {F : ℕ → Bool} {κ δ β D : K} {q b x z : ℕ → K} (hn : 0 < n)
    (hκ0 : 0 ≤ κ) (hδ0 : 0 ≤ δ) (hβ0 : 0 ≤ β) (hD0 : 0 ≤ D)
    (hN0 : ∀ r < m, ∀ i < n, 0 ≤ N r i) (hN1 : ∀ r < m, ∑ i ∈ range n, N r i ≤ 1)
    (hκ : ∀ e : ℕ → K, (∀ i < n, F i = true → e i = 0) → ∀ i < n,
      e i ^ 2 ≤ κ * ∑ r ∈ range m, (∑ i ∈ range n, N r i * e i) ^ 2)
    (hxz : ∀ i < n, F i = true → z i = x i)
    (hx : ∀ e : ℕ → K, (∀ i < n, F i = true → e i = 0) →
      ∑ r ∈ range m, (∑ i ∈ range n, N r i * x i - q r) * ∑ i ∈ range n, N r i * e i = 0)
    (hz : ∀ e : ℕ → K, (∀ i < n, F i = true → e i = 0) →
      ∑ r ∈ range m, (∑ i ∈ range n, A r i * (if F i then 0 else z i) - b r) * ∑ i ∈ range n, A r i * e i = 0)
    (hA : ∀ r < m, ∀ i < n, F i = false → |A r i - N r i| ≤ δ)
    (hb : ∀ r < m, |b r - (q r - ∑ i ∈ range n, if F i then N r i * x i else 0)| ≤ β)
    (hd : ∀ r < m, |q r - ∑ i ∈ range n, if F i then N r i * x i else 0| ≤ D)
    (h1 : n * δ ≤ 1) (h2 : 6 * κ * m * (n * δ) ≤ 1) :
    ∀ i < n, |z i - x i| ≤ 2 * κ * m * (n * δ * (3 * (κ * m * D) + D + β) + β) := by
  obtain ⟨f, hf⟩ : ∃ f : (ℕ → K) → ℕ → K, ∀ e r, f e r = ∑ i ∈ range n, N r i * e i := ⟨_, fun _ _ => rfl⟩
  obtain ⟨a, ha⟩ : ∃ a : (ℕ → K) → ℕ → K, ∀ e r, a e r = ∑ i ∈ range n, A r i * e i := ⟨_, fun _ _ => rfl⟩
  obtain ⟨d, hdd⟩ : ∃ d : ℕ → K, ∀ r, d r = q r - ∑ i ∈ range n, if F i then N r i * x i else 0 := ⟨_, fun _ => rfl⟩
  obtain ⟨y, hy⟩ : ∃ y : ℕ → K, ∀ i, y i = if F i then 0 else x i := ⟨_, fun _ => rfl⟩
  obtain ⟨y', hy'⟩ : ∃ y' : ℕ → K, ∀ i, y' i = if F i then 0 else z i := ⟨_, fun _ => rfl⟩
  obtain ⟨w, hw⟩ : ∃ w : ℕ → K, ∀ i, w i = y' i - y i := ⟨_, fun _ => rfl⟩
  simp only [← hf] at hκ hx
  simp only [← ha, ← hy'] at hz
  simp only [← hdd] at hb hd
  have yfree : ∀ i < n, F i = true → y i = 0 := fun i _ h => by rw [hy, if_pos h]
  have y'free : ∀ i < n, F i = true → y' i = 0 := fun i _ h => by rw [hy', if_pos h]
  have wfree : ∀ i < n, F i = true → w i = 0 := fun i hi h => by rw [hw, yfree i hi h, y'free i hi h, sub_zero]
  -- sizes
  have fle : ∀ (e : ℕ → K) (E : K), (∀ i < n, |e i| ≤ E) → ∀ r < m, |f e r| ≤ E := by
    intro e E he r hr
    have hE : 0 ≤ E := (abs_nonneg _).trans (he 0 hn)
    rw [hf]
    refine (abs_sum_le_sum_abs _ _).trans ((sum_le_sum fun i hi => ?_).trans
      ((sum_mul (range n) (fun i => N r i) E).symm.le.trans ((mul_le_mul_of_nonneg_right (hN1 r hr) hE).trans (one_mul E).le)))
    rw [abs_mul, abs_of_nonneg (hN0 r hr i (mem_range.1 hi))]
    exact mul_le_mul_of_nonneg_left (he i (mem_range.1 hi)) (hN0 r hr i (mem_range.1 hi))
  have afle : ∀ (e : ℕ → K) (E : K), (∀ i < n, F i = true → e i = 0) → (∀ i < n, |e i| ≤ E) → ∀ r < m,
      |a e r - f e r| ≤ n * δ * E := by
    intro e E h0 he r hr
    have hE : 0 ≤ E := (abs_nonneg _).trans (he 0 hn)
    rw [hf, ha, ← sum_sub_distrib]
    have : ∀ i ∈ range n, |A r i * e i - N r i * e i| ≤ δ * E := by
      intro i hi
      have hi := mem_range.1 hi
      rw [← sub_mul, abs_mul]
      cases hF : F i with
      | true => rw [h0 i hi hF, abs_zero, mul_zero]; exact mul_nonneg hδ0 hE
      | false => exact mul_le_mul (hA r hr i hi hF) (he i hi) (abs_nonneg _) hδ0
    refine (abs_sum_le_sum_abs _ _).trans ((sum_le_sum this).trans (le_of_eq ?_))
    rw [sum_const, card_range, nsmul_eq_mul]; ring
  -- the exact solution
  have fsub : ∀ r, f w r = f y' r - f y r := fun r => by
    rw [hf, hf, hf, ← sum_sub_distrib]
    exact sum_congr rfl fun i _ => by rw [hw]; ring
  have hxy : ∀ r, f x r - q r = f y r - d r := fun r => by
    have : f x r = f y r + ∑ i ∈ range n, if F i then N r i * x i else 0 := by
      rw [hf, hf, ← sum_add_distrib]
      refine sum_congr rfl fun i _ => ?_
      rw [hy]
      cases F i <;> simp
    rw [this, hdd]; ring
  simp only [hxy] at hx
  obtain ⟨s, hs, hYmax⟩ := exists_max_abs hn y
  obtain ⟨Y, hY⟩ : ∃ Y, Y = |y s| := ⟨_, rfl⟩
  rw [← hY] at hYmax
  have hY0 : 0 ≤ Y := hY ▸ abs_nonneg _
  have bound : ∀ (g : ℕ → K) (c : K), (∀ r < m, g r ≤ c) → ∑ r ∈ range m, g r ≤ m * c := by
    intro g c hg
    refine (sum_le_sum fun r hr => hg r (mem_range.1 hr)).trans (le_of_eq ?_)
    rw [sum_const, card_range, nsmul_eq_mul]
  have hm0 : (0 : K) ≤ m := Nat.cast_nonneg m
  have hYle : Y ≤ κ * m * D := by
    refine le_of_sq_le_mul hY0 (by positivity) ?_
    have e1 : ∑ r ∈ range m, f y r ^ 2 = ∑ r ∈ range m, d r * f y r := by
      rw [← sub_eq_zero, ← sum_sub_distrib]
      refine Eq.trans (sum_congr rfl fun r _ => ?_) (hx y yfree)
      ring
    have e2 := hκ y yfree s hs
    rw [← sq_abs, ← hY, e1] at e2
    refine e2.trans ?_
    have e3 : ∑ r ∈ range m, d r * f y r ≤ m * (D * Y) := bound _ _ fun r hr => by
      refine (le_abs_self _).trans ?_
      rw [abs_mul]
      exact mul_le_mul (hd r hr) (fle y Y hYmax r hr) (abs_nonneg _) hD0
    exact (mul_le_mul_of_nonneg_left e3 hκ0).trans_eq (by ring)
  -- the difference
  obtain ⟨t, ht, hWmax⟩ := exists_max_abs hn w
  obtain ⟨W, hW⟩ : ∃ W, W = |w t| := ⟨_, rfl⟩
  rw [← hW] at hWmax
  have hW0 : 0 ≤ W := hW ▸ abs_nonneg _
  have hY' : ∀ i < n, |y' i| ≤ Y + W := fun i hi => by
    have := abs_add_le (y i) (w i)
    rw [hw, add_sub_cancel] at this
    have := hYmax i hi
    have := hWmax i hi
    rw [hw] at this
    linarith
  have hnδ : 0 ≤ (n : K) * δ := mul_nonneg (Nat.cast_nonneg n) hδ0
  have hYW : 0 ≤ Y + W := add_nonneg hY0 hW0
  set c : K := (2 * (Y + W) + D + β) * (n * δ) + (n * δ * (Y + W) + β) with hc
  have hc0 : 0 ≤ c := by positivity
  have hWle : W ≤ κ * (m * c) := by
    refine le_of_sq_le_mul hW0 (by positivity) ?_
    have e1 : ∑ r ∈ range m, f w r ^ 2
        = ∑ r ∈ range m, ((a y' r - b r) * (f w r - a w r) + (f y' r - a y' r + (b r - d r)) * f w r) := by
      have h3 := hx w wfree
      have h4 := hz w wfree
      have h5 : ∑ r ∈ range m, ((a y' r - b r) * (f w r - a w r) + (f y' r - a y' r + (b r - d r)) * f w r)
          = ∑ r ∈ range m, f w r ^ 2 + ∑ r ∈ range m, (f y r - d r) * f w r - ∑ r ∈ range m, (a y' r - b r) * a w r := by
        rw [← sum_add_distrib, ← sum_sub_distrib]
        exact sum_congr rfl fun r _ => by rw [fsub]; ring
      rw [h5, h3, h4, add_zero, sub_zero]
    have e2 := hκ w wfree t ht
    rw [← sq_abs, ← hW, e1] at e2
    refine e2.trans ?_
    have e3 : ∑ r ∈ range m, ((a y' r - b r) * (f w r - a w r) + (f y' r - a y' r + (b r - d r)) * f w r)
        ≤ m * (c * W) := bound _ _ fun r hr => by
      have g1 := fle w W hWmax r hr
      have g2 := afle w W wfree hWmax r hr
      have g3 := fle y' _ hY' r hr
      have g4 := afle y' _ y'free hY' r hr
      have g5 := hb r hr
      have g6 := hd r hr
      have g7 : |a y' r - b r| ≤ 2 * (Y + W) + D + β := by
        have k1 := abs_add_le (a y' r - f y' r) (f y' r)
        have k2 := abs_add_le (b r - d r) (d r)
        rw [sub_add_cancel] at k1 k2
        have k3 := abs_sub (a y' r) (b r)
        have k4 : n * δ * (Y + W) ≤ 1 * (Y + W) := mul_le_mul_of_nonneg_right h1 hYW
        linarith
      have g8 : |f w r - a w r| ≤ n * δ * W := by rw [abs_sub_comm]; exact g2
      have g9 : |f y' r - a y' r + (b r - d r)| ≤ n * δ * (Y + W) + β := by
        refine (abs_add_le _ _).trans ?_
        rw [abs_sub_comm (f y' r)]
        exact add_le_add g4 g5
      refine (le_abs_self _).trans ((abs_add_le _ _).trans ?_)
      rw [abs_mul, abs_mul]
      have l1 := mul_le_mul g7 g8 (abs_nonneg _) (by positivity)
      have l2 := mul_le_mul g9 g1 (abs_nonneg _) (by positivity)
      refine (add_le_add l1 l2).trans (le_of_eq ?_)
      rw [hc]; ring
    exact (mul_le_mul_of_nonneg_left e3 hκ0).trans_eq (by ring)
  have hfin : W ≤ 2 * κ * m * (n * δ * (3 * (κ * m * D) + D + β) + β) := by
    have k1 : 6 * κ * m * (n * δ) * W ≤ 1 * W := mul_le_mul_of_nonneg_right h2 hW0
    have k2 : κ * m * (n * δ * 3) * Y ≤ κ * m * (n * δ * 3) * (κ * m * D) :=
      mul_le_mul_of_nonneg_left hYle (by positivity)
    have k3 : κ * (m * c) = (6 * κ * m * (n * δ) * W) / 2 + κ * m * (n * δ * 3) * Y + κ * m * (n * δ * (D + β) + β) := by
      rw [hc]; ring
    rw [k3] at hWle
    have k4 : 2 * κ * m * (n * δ * (3 * (κ * m * D) + D + β) + β)
        = 2 * (κ * m * (n * δ * 3) * (κ * m * D)) + 2 * (κ * m * (n * δ * (D + β) + β)) := by ring
    rw [k4]
    linarith
  intro i hi
  cases hF : F i with
  | true =>
    rw [hxz i hi hF, sub_self, abs_zero]
    exact hW0.trans hfin
  | false =>
    have := hWmax i hi
    rw [hw, hy, hy', hF] at this
    simp only [Bool.false_eq_true, if_false] at this
    exact this.trans hfin

/-! ## `linear_fit_fixed` -/

/-- What is subtracted from the data: the fixed columns, added one after the other. -/
def fixedSumFl (fl : K → K) (F : ℕ → Bool) (R P : ℕ → K) : ℕ → K
  | 0 => 0
  | i + 1 => if F i then fl (fixedSumFl fl F R P i + fl (R i * P i)) else fixedSumFl fl F R P i

/-- `linear_fit_fixed` in rounded arithmetic solves the system with the columns of the free entries. -/
theorem linearFitFixedFl_reduce {fl : K → K} {ls : ℕ → List (List K) → List K → List K}
    (hlen : ∀ n A b, A.length = b.length → (∀ row ∈ A, row.length = n) → (ls n A b).length = n)
    {R : List (List K)} {Q P : List K} {fixed : List Bool} (hR : Shape R Q.length P.length)
    (hf : fixed.length = P.length) :
    Returns (linearFitFixedFl fl ls R Q P fixed) fun x => x.length = P.length ∧
      (∀ i < P.length, fixed.getD i false = true → x.getD i 0 = P.getD i 0) ∧
      ((∀ i < P.length, fixed.getD i false = true) ∨
        ∃ (Rfree : List (List K)) (b : List K), Rfree.length = b.length ∧ b.length = Q.length ∧
          (∀ row ∈ Rfree, row.length = corank (fun i => fixed.getD i false) P.length) ∧
          (∀ i < P.length, fixed.getD i false = false → x.getD i 0
            = (ls (corank (fun i => fixed.getD i false) P.length) Rfree b).getD (corank (fun i => fixed.getD i false) i) 0) ∧
          (∀ j < P.length, fixed.getD j false = false → ∀ r < Q.length,
            at2 Rfree r (corank (fun i => fixed.getD i false) j) 0 = at2 R r j 0) ∧
          ∀ r < Q.length, b.getD r 0 = fl (Q.getD r 0
            - fixedSumFl fl (fun i => fixed.getD i false) (fun j => at2 R r j 0) (fun j => P.getD j 0) P.length)) := by
  obtain ⟨n, hn⟩ : ∃ n, P.length = n := ⟨_, rfl⟩
  obtain ⟨m, hm⟩ : ∃ m, Q.length = m := ⟨_, rfl⟩
  set F : ℕ → Bool := fun i => fixed.getD i false with hF
  have hget : ∀ i : ℕ, i < n → pyGet fixed (i : ℤ) = .ok (F i) := fun i hi =>
    pyGet_nat _ _ _ _ rfl (by omega)
  have hgetP : ∀ i : ℕ, i < n → pyGet P (i : ℤ) = .ok (P.getD i 0) := fun i hi =>
    pyGet_nat _ _ _ _ rfl (by omega)
  unfold linearFitFixedFl
  rw [hn, hm] at hR ⊢
  refine Returns.bind (Returns.forN (fun i (c : ℕ) => c = rank F i) (by omega) rfl ?_) ?_
  · rintro i c - hi rfl
    rw [hget i hi, ok_bind]
    refine Returns.ok ?_
    conv_rhs => unfold rank
  rintro _ rfl
  have hsum := rank_add_corank F n
  split
  · rename_i hall
    refine Returns.ok ⟨hn, fun i _ _ => rfl, Or.inl fun i hi => ?_⟩
    by_contra hne
    have hlt := corank_lt F hi (Bool.eq_false_iff.2 hne)
    omega
  have hfree : n - rank F n = corank F n := by omega
  dsimp only
  rw [hfree]
  refine Returns.bind (Returns.forN (fun i (st : List (List K) × List (List K) × List K × ℕ × ℕ) =>
      Shape st.1 m (corank F n) ∧ Shape st.2.1 m (rank F n) ∧ st.2.2.1.length = m ∧
      st.2.2.2.1 = rank F i ∧ st.2.2.2.2 = corank F i ∧
      (∀ j < i, F j = false → ∀ r < m, at2 st.1 r (corank F j) 0 = at2 R r j 0) ∧
      ∀ r < m, st.2.2.1.getD r 0 = fixedSumFl fl F (fun j => at2 R r j 0) (fun j => P.getD j 0) i)
    (by omega) ?_ ?_) ?_
  · refine ⟨shape_replicate _ _ _, shape_replicate _ _ _, by simp [zeros], rfl, rfl,
      fun j hj => absurd hj (by omega), fun r hr => ?_⟩
    simp [zeros, List.getD_eq_getElem?_getD, hr, fixedSumFl]
  · rintro i ⟨Rfree, Rfixed, Qfixed, j, k⟩ - hi ⟨h1, h2, h3, h4, h5, h6, h7⟩
    dsimp only at h1 h2 h3 h4 h5 h6 h7 ⊢
    subst h4 h5
    rw [hget i hi, ok_bind, column_nat hR i i rfl hi, ok_bind]
    have hcl : (R.map fun row => row.getD i 0).length = m := by simp [hR.1]
    by_cases hFi : F i = true
    · rw [if_pos hFi]
      obtain ⟨m', e, hs, -⟩ := setColumn_nat h2 (rank F i : ℤ) (rank F i) _ rfl (rank_lt F hi hFi) hcl
      rw [e, ok_bind, hgetP i hi, ok_bind]
      unfold vadd
      rw [if_pos (by rw [h3]; simp [hR.1]), ok_bind]
      refine Returns.ok ⟨h1, hs, ?_, ?_, ?_, ?_, ?_⟩
      · simp [h3, hR.1]
      · conv_rhs => unfold rank
        rw [if_pos hFi]
      · conv_rhs => unfold corank
        rw [if_pos hFi]
      · intro j hj hFj r hr
        rcases Nat.lt_succ_iff_lt_or_eq.1 hj with hj | rfl
        · exact h6 j hj hFj r hr
        · rw [hFi] at hFj; cases hFj
      · intro r hr
        rw [fixedSumFl, ← h7 r hr, if_pos hFi, ← getD_map_row R r i]
        have l1 : r < Qfixed.length := by omega
        have l2 : r < R.length := by rw [hR.1]; exact hr
        simp [List.getD_eq_getElem?_getD, l1, l2]
    · rw [if_neg hFi]
      have hFi' : F i = false := by simpa using hFi
      obtain ⟨m', e, hs, hat⟩ := setColumn_nat h1 (corank F i : ℤ) (corank F i) _ rfl
        (corank_lt F hi hFi') hcl
      rw [e, ok_bind]
      refine Returns.ok ⟨hs, h2, h3, ?_, ?_, ?_, ?_⟩
      · conv_rhs => unfold rank
        rw [if_neg hFi]
      · conv_rhs => unfold corank
        rw [if_neg hFi]
      · intro j hj hFj r hr
        rw [hat r hr]
        rcases Nat.lt_succ_iff_lt_or_eq.1 hj with hj | rfl
        · have := corank_lt F hj hFj
          rw [if_neg (by omega)]
          exact h6 j hj hFj r hr
        · rw [if_pos rfl, getD_map_row]
      · intro r hr
        rw [fixedSumFl, ← h7 r hr, if_neg hFi]
  rintro ⟨Rfree, Rfixed, Qfixed, j, k⟩ ⟨h1, -, h3, -, -, h6, h7⟩
  dsimp only at h1 h3 h6 h7 ⊢
  rw [vsub_same _ _ (by rw [hm, h3]), ok_bind]
  set b := (List.zipWith (· - ·) Q Qfixed).map fl with hb
  have hbl : b.length = m := by simp [hb, hm, h3]
  have hAl : Rfree.length = b.length := by rw [h1.1, hbl]
  set y := ls (corank F n) Rfree b with hy
  have hyl : y.length = corank F n := hlen _ _ _ hAl h1.2
  refine Returns.bind (Returns.forN (fun i (st : List K × ℕ) =>
      st.1.length = n ∧ st.2 = corank F i ∧
      ∀ j < i, st.1.getD j 0 = if F j then P.getD j 0 else y.getD (corank F j) 0) (by omega) ?_ ?_) ?_
  · exact ⟨by simp [zeros], rfl, fun j hj => absurd hj (by omega)⟩
  · rintro i ⟨full, j⟩ - hi ⟨g1, g2, g3⟩
    dsimp only at g1 g2 g3 ⊢
    subst g2
    rw [hget i hi, ok_bind]
    by_cases hFi : F i = true
    · rw [if_pos hFi, hgetP i hi, ok_bind, pySet_nat _ _ i _ rfl (by omega), ok_bind]
      refine Returns.ok ⟨by simp [g1], ?_, fun j hj => ?_⟩
      · conv_rhs => unfold corank
        rw [if_pos hFi]
      · rw [getD_set _ _ _ _ _ (by omega)]
        by_cases h : j = i
        · subst h; rw [if_pos rfl, if_pos hFi]
        · rw [if_neg h]; exact g3 j (by omega)
    · have hFi' : F i = false := by simpa using hFi
      rw [if_neg hFi, pyGet_nat y _ (corank F i) 0 rfl (by rw [hyl]; exact corank_lt F hi hFi'),
        ok_bind, pySet_nat _ _ i _ rfl (by omega), ok_bind]
      refine Returns.ok ⟨by simp [g1], ?_, fun j hj => ?_⟩
      · conv_rhs => unfold corank
        rw [if_neg hFi]
      · rw [getD_set _ _ _ _ _ (by omega)]
        by_cases h : j = i
        · subst h; rw [if_pos rfl, if_neg hFi]
        · rw [if_neg h]; exact g3 j (by omega)
  rintro ⟨full, j⟩ ⟨g1, -, g3⟩
  dsimp only at g1 g3
  refine Returns.ok ⟨g1, fun i hi hFi => ?_, Or.inr ⟨Rfree, b, hAl, hbl, h1.2, fun i hi hFi => ?_, h6, fun r hr => ?_⟩⟩
  · rw [g3 i hi, if_pos hFi]
  · rw [g3 i hi, if_neg (by rw [hF]; dsimp only; rw [hFi]; simp)]
  rw [← h7 r hr]
  have l1 : r < Q.length := by omega
  have l2 : r < Qfixed.length := by omega
  simp [hb, List.getD_eq_getElem?_getD, l1, l2]

theorem Approx.neg {g : K} {k : ℕ} {x y B : K} (h : Approx g k x y B) : Approx g k (-x) (-y) B := by
  refine ⟨by rw [abs_neg]; exact h.1, ?_⟩
  rw [show -x - -y = -(x - y) by ring, abs_neg]
  exact h.2

theorem fixedSumFl_approx {ρ : K} {fl : K → K} (hr : Rounding fl) (hfa : Accurate ρ fl) {F : ℕ → Bool} {R N P : ℕ → K}
    {a n : ℕ} (hR : ∀ i < n, Near ρ a (R i) (N i)) : ∀ i ≤ n, Approx (1 / ρ) (a + 1 + i) (fixedSumFl fl F R P i)
      (∑ j ∈ range i, if F j then N j * P j else 0) (∑ j ∈ range i, if F j then N j * |P j| else 0) := by
  have hg := hfa.one_le
  intro i
  induction i with
  | zero => intro _; constructor <;> simp [fixedSumFl]
  | succ i ih =>
    intro hi
    rw [fixedSumFl, sum_range_succ, sum_range_succ]
    have h1 := ih (by omega)
    split
    · have h2 := (((hR i (by omega)).approx hfa.pos hfa.le_one).mul hg (Approx.refl hg 0 (P i))).fl hr hfa
      exact (h1.add (h2.mono hg (by omega))).fl hr hfa
    · rw [add_zero, add_zero]
      exact h1.mono hg (by omega)

/-- The error of `linear_fit_fixed` in rounded arithmetic with a backward stable solver. -/
theorem linearFitFixedFl_close {ρ ε κ B : K} {fl : K → K} (hr : Rounding fl) (hfa : Accurate ρ fl)
    {ls : ℕ → List (List K) → List K → List K} (hls : BackwardStable ε ls) {a m n : ℕ} {N : ℕ → ℕ → K}
    {R : List (List K)} {Q P : List K} {fixed : List Bool} (hQl : Q.length = m) (hPl : P.length = n) (hn : 0 < n)
    (hR : Shape R m n) (hf : fixed.length = n)
    (hN1 : ∀ r < m, ∑ i ∈ range n, N r i ≤ 1) (hM : ∀ r < m, ∀ i < n, Near ρ a (at2 R r i 0) (N r i)) (hκ0 : 0 ≤ κ)
    (hκ : ∀ e : ℕ → K, (∀ i < n, fixed.getD i false = true → e i = 0) → ∀ i < n,
      e i ^ 2 ≤ κ * ∑ r ∈ range m, (∑ i ∈ range n, N r i * e i) ^ 2)
    (hB0 : 0 ≤ B) (hQ : ∀ r < m, |Q.getD r 0| ≤ B) (hP : ∀ i < n, fixed.getD i false = true → |P.getD i 0| ≤ B)
    (hε : (1 / ρ) ^ (a + n + 2) ≤ 1 + ε) (h1 : n * ((2 * m + 1) * ε) ≤ 1) (h2 : 6 * κ * m * (n * ((2 * m + 1) * ε)) ≤ 1)
    {x : ℕ → K} (hxP : ∀ i < n, fixed.getD i false = true → x i = P.getD i 0)
    (hx : ∀ e : ℕ → K, (∀ i < n, fixed.getD i false = true → e i = 0) →
      ∑ r ∈ range m, (∑ i ∈ range n, N r i * x i - Q.getD r 0) * ∑ i ∈ range n, N r i * e i = 0) :
    Returns (linearFitFixedFl fl ls R Q P fixed) fun z => z.length = n ∧
      (∀ i < n, fixed.getD i false = true → z.getD i 0 = P.getD i 0) ∧
      ∀ i < n, |z.getD i 0 - x i| ≤ 2 * κ * m * (2 * m + 1) * (n * (6 * κ * m + 4) + 2) * ε * B := by
  have hg := hfa.one_le
  have hm0 : (0 : K) ≤ m := Nat.cast_nonneg m
  have hn1 : (1 : K) ≤ n := by exact_mod_cast hn
  have hε0 : 0 ≤ ε := by have := one_le_pow₀ hg (n := a + n + 2); linarith
  have hεm : ε ≤ (2 * m + 1) * ε := by nlinarith
  have hδ : (2 * m + 1) * ε ≤ 1 := by
    have : 1 * ((2 * m + 1) * ε) ≤ n * ((2 * m + 1) * ε) := mul_le_mul_of_nonneg_right hn1 (by positivity)
    linarith
  have hε1 : ε ≤ 1 := hεm.trans hδ
  have ha : (1 / ρ) ^ a ≤ 1 + ε := (pow_le_pow_right₀ hg (by omega)).trans hε
  have hN0 : ∀ r < m, ∀ i < n, 0 ≤ N r i := fun r hr i hi => (hM r hr i hi).1
  have hNle : ∀ r < m, ∀ i < n, N r i ≤ 1 := fun r hr i hi =>
    (single_le_sum (f := fun i => N r i) (fun i hi => hN0 r hr i (mem_range.1 hi)) (mem_range.2 hi)).trans (hN1 r hr)
  refine (linearFitFixedFl_reduce hls.length (hQl ▸ hPl ▸ hR) (by rw [hf, hPl])).mono ?_
  rintro z ⟨z1, z2, z3⟩
  rw [hPl] at z1 z2 z3
  refine ⟨z1, z2, ?_⟩
  rcases z3 with z3 | ⟨Rfree, b, hAl, hbl, hrow, hzx, hfree, hb⟩
  · intro i hi
    rw [z2 i hi (z3 i hi), hxP i hi (z3 i hi), sub_self, abs_zero]
    positivity
  set F : ℕ → Bool := fun i => fixed.getD i false with hF
  rw [hQl] at hbl hfree hb
  obtain ⟨A', b', hA'l, hA'row, hb'l, hA', hb', hleast⟩ := hls.solves _ Rfree b hAl hrow
  rw [hbl] at hA'l hb'l hA' hb'
  -- the right-hand side
  have hbd : ∀ r < m, Approx (1 / ρ) (a + n + 2) (b.getD r 0) (Q.getD r 0 - ∑ i ∈ range n, if F i then N r i * x i else 0) (2 * B) := by
    intro r hr'
    have e1 := fixedSumFl_approx hr hfa (F := F) (R := fun j => at2 R r j 0) (N := N r) (P := fun j => P.getD j 0)
      (a := a) (n := n) (fun i hi => hM r hr' i hi) n le_rfl
    have e2 := ((Approx.refl hg (a + 1 + n) (Q.getD r 0)).add e1.neg).fl hr hfa
    rw [hb r hr', sub_eq_add_neg]
    have e3 : (∑ i ∈ range n, if F i then N r i * x i else 0) = ∑ i ∈ range n, if F i then N r i * P.getD i 0 else 0 :=
      sum_congr rfl fun i hi => by
        split
        · rw [hxP i (mem_range.1 hi) ‹_›]
        · rfl
    have e4 : |Q.getD r 0| + (∑ i ∈ range n, if F i then N r i * |P.getD i 0| else 0) ≤ 2 * B := by
      have : (∑ i ∈ range n, if F i then N r i * |P.getD i 0| else 0) ≤ (∑ i ∈ range n, N r i) * B := by
        rw [sum_mul]
        refine sum_le_sum fun i hi => ?_
        have hi := mem_range.1 hi
        split
        · exact mul_le_mul_of_nonneg_left (hP i hi ‹_›) (hN0 r hr' i hi)
        · exact mul_nonneg (hN0 r hr' i hi) hB0
      have := mul_le_mul_of_nonneg_right (hN1 r hr') hB0
      have := hQ r hr'
      linarith
    rw [e3, sub_eq_add_neg, show a + n + 2 = a + 1 + n + 1 by omega]
    exact ⟨e2.1.trans e4, e2.2.trans (mul_le_mul_of_nonneg_left e4 (sub_nonneg.2 (one_le_pow₀ hg)))⟩
  have hbs : ∀ r < m, |b.getD r 0| ≤ 4 * B := fun r hr' => by
    have h3 := (hbd r hr').abs_le
    have h4 : (1 / ρ) ^ (a + n + 2) * (2 * B) ≤ 2 * (2 * B) := mul_le_mul_of_nonneg_right (by linarith) (by linarith)
    linarith
  have hb'd : ∀ r < m, |b'.getD r 0 - (Q.getD r 0 - ∑ i ∈ range n, if F i then N r i * x i else 0)|
      ≤ 2 * ((2 * m + 1) * ε) * B := by
    intro r hr'
    have e1 : ∑ r ∈ range m, |b.getD r 0| ≤ m * (4 * B) := by
      refine (sum_le_sum fun r hr => hbs r (mem_range.1 hr)).trans (le_of_eq ?_)
      rw [sum_const, card_range, nsmul_eq_mul]
    have e2 := (hb' r hr').trans (mul_le_mul_of_nonneg_left e1 hε0)
    have e3 := (hbd r hr').2.trans (mul_le_mul_of_nonneg_right (show (1 / ρ) ^ (a + n + 2) - 1 ≤ ε by linarith)
      (by linarith : 0 ≤ 2 * B))
    have e4 := abs_add_le (b'.getD r 0 - b.getD r 0) (b.getD r 0 - (Q.getD r 0 - ∑ i ∈ range n, if F i then N r i * x i else 0))
    rw [sub_add_sub_cancel] at e4
    refine e4.trans ((add_le_add e2 e3).trans (le_of_eq (by ring)))
  -- the matrix
  have hsize : ∑ r ∈ range m, ∑ t ∈ range (corank F n), |(Rfree.getD r []).getD t 0| ≤ m * 2 := by
    refine (sum_le_sum fun r hr => ?_).trans (le_of_eq (by rw [sum_const, card_range, nsmul_eq_mul]))
    have hr' := mem_range.1 hr
    rw [sum_corank F (fun t => |(Rfree.getD r []).getD t 0|)]
    have : ∀ i ∈ range n, (if F i then 0 else |(Rfree.getD r []).getD (corank F i) 0|) ≤ 2 * N r i := by
      intro i hi
      have hi := mem_range.1 hi
      have hNi := hN0 r hr' i hi
      cases hFi : F i with
      | true => simp only [if_true]; linarith
      | false =>
        simp only [Bool.false_eq_true, if_false]
        have e1 := hfree i hi hFi r hr'
        unfold at2 at e1
        rw [e1]
        have e2 := ((hM r hr' i hi).approx hfa.pos hfa.le_one).abs_le
        unfold at2 at e2
        refine e2.trans (mul_le_mul_of_nonneg_right (by linarith) hNi)
    refine (sum_le_sum this).trans ?_
    rw [← mul_sum]
    linarith [hN1 r hr']
  have hAN : ∀ r < m, ∀ i < n, F i = false → |(A'.getD r []).getD (corank F i) 0 - N r i| ≤ (2 * m + 1) * ε := by
    intro r hr' i hi hFi
    have e1 := (hA' r hr' _ (corank_lt F hi hFi)).trans (mul_le_mul_of_nonneg_left hsize hε0)
    have e2 := hfree i hi hFi r hr'
    unfold at2 at e2
    rw [e2] at e1
    have e3 := ((hM r hr' i hi).approx hfa.pos hfa.le_one).2
    unfold at2 at e3
    have e4 : ((1 / ρ) ^ a - 1) * N r i ≤ ε * 1 :=
      mul_le_mul (by linarith) (hNle r hr' i hi) (hN0 r hr' i hi) hε0
    have e5 := abs_add_le ((A'.getD r []).getD (corank F i) 0 - (R.getD r []).getD i 0) ((R.getD r []).getD i 0 - N r i)
    rw [sub_add_sub_cancel] at e5
    refine e5.trans ((add_le_add e1 (e3.trans e4)).trans (le_of_eq (by ring)))
  -- the normal equations of the perturbed system
  have hz : ∀ e : ℕ → K, (∀ i < n, F i = true → e i = 0) →
      ∑ r ∈ range m, (∑ i ∈ range n, (A'.getD r []).getD (corank F i) 0 * (if F i then 0 else z.getD i 0) - b'.getD r 0)
        * ∑ i ∈ range n, (A'.getD r []).getD (corank F i) 0 * e i = 0 := by
    intro e he
    obtain ⟨v, hv⟩ := exists_corank F e n
    have := normal_of_least (m := m) (F := fun v r => ∑ t ∈ range (corank F n), (A'.getD r []).getD t 0 * v t)
      (d := fun r => b'.getD r 0) (x := fun t => (ls (corank F n) Rfree b).getD t 0) (free := fun _ => True)
      (fun x e s r => by
        rw [mul_sum, ← sum_add_distrib]
        exact sum_congr rfl fun i _ => by ring)
      (fun s e _ => by
        have := hleast fun i => (ls (corank F n) Rfree b).getD i 0 + s * e i
        unfold sqResid at this
        rw [hb'l] at this
        exact this) (e := v) trivial
    refine Eq.trans (sum_congr rfl fun r hr => ?_) this
    rw [sum_corank F (fun t => (A'.getD r []).getD t 0 * v t),
      sum_corank F (fun t => (A'.getD r []).getD t 0 * (ls (corank F n) Rfree b).getD t 0)]
    congr 1
    · congr 1
      refine sum_congr rfl fun i hi => ?_
      have hi := mem_range.1 hi
      cases hFi : F i with
      | true => simp
      | false =>
        simp only [Bool.false_eq_true, if_false]
        rw [hzx i hi hFi]
    · refine sum_congr rfl fun i hi => ?_
      have hi := mem_range.1 hi
      cases hFi : F i with
      | true => rw [he i hi hFi]; simp
      | false =>
        simp only [Bool.false_eq_true, if_false]
        rw [hv i hi hFi]
  have hfin := perturbed_normal (F := F) (A := fun r i => (A'.getD r []).getD (corank F i) 0) (z := fun i => z.getD i 0)
    (b := fun r => b'.getD r 0) (q := fun r => Q.getD r 0) (D := 2 * B) (β := 2 * ((2 * m + 1) * ε) * B) hn hκ0
    (by positivity : 0 ≤ (2 * m + 1) * ε) (by positivity) (by positivity) hN0 hN1 hκ
    (fun i hi h => by rw [z2 i hi h, hxP i hi h]) hx hz hAN hb'd (fun r hr' => (hbd r hr').1) h1 h2
  intro i hi
  refine (hfin i hi).trans ?_
  have hβ : 2 * ((2 * m + 1) * ε) * B ≤ 2 * B := by
    have := mul_le_mul_of_nonneg_right hδ hB0
    nlinarith
  have e1 : n * ((2 * m + 1) * ε) * (3 * (κ * m * (2 * B)) + 2 * B + 2 * ((2 * m + 1) * ε) * B)
      ≤ n * ((2 * m + 1) * ε) * (3 * (κ * m * (2 * B)) + 2 * B + 2 * B) :=
    mul_le_mul_of_nonneg_left (by linarith) (by positivity)
  refine (mul_le_mul_of_nonneg_left (add_le_add_left e1 _) (by positivity)).trans (le_of_eq ?_)
  ring

/-- The three calls of `linear_fit_fixed`. -/
theorem fitColumnsFl_close {ρ ε κ B : K} {fl : K → K} (hr : Rounding fl) (hfa : Accurate ρ fl)
    {ls : ℕ → List (List K) → List K → List K} (hls : BackwardStable ε ls) {a m n w : ℕ} {N : ℕ → ℕ → K}
    {R data P Z : List (List K)} {fixed : List Bool} (hd : Shape data m w) (hw : 3 ≤ w) (hPs : Shape P n 3) (hn : 0 < n)
    (hR : Shape R m n) (hf : fixed.length = n)
    (hN1 : ∀ r < m, ∑ i ∈ range n, N r i ≤ 1) (hM : ∀ r < m, ∀ i < n, Near ρ a (at2 R r i 0) (N r i)) (hκ0 : 0 ≤ κ)
    (hκ : ∀ e : ℕ → K, (∀ i < n, fixed.getD i false = true → e i = 0) → ∀ i < n,
      e i ^ 2 ≤ κ * ∑ r ∈ range m, (∑ i ∈ range n, N r i * e i) ^ 2)
    (hB0 : 0 ≤ B) (hQ : ∀ k < 3, ∀ r < m, |at2 data r k 0| ≤ B)
    (hP : ∀ k < 3, ∀ i < n, fixed.getD i false = true → |coord P k i| ≤ B)
    (hε : (1 / ρ) ^ (a + n + 2) ≤ 1 + ε) (h1 : n * ((2 * m + 1) * ε) ≤ 1) (h2 : 6 * κ * m * (n * ((2 * m + 1) * ε)) ≤ 1)
    (hZP : ∀ k < 3, ∀ i < n, fixed.getD i false = true → coord Z k i = coord P k i)
    (hZ : ∀ k < 3, ∀ e : ℕ → K, (∀ i < n, fixed.getD i false = true → e i = 0) →
      ∑ r ∈ range m, (∑ i ∈ range n, N r i * coord Z k i - at2 data r k 0) * ∑ i ∈ range n, N r i * e i = 0) :
    Returns (fitColumnsFl fl ls R data P fixed) fun new => Shape new n 3 ∧ ∀ k < 3,
      (∀ i < n, fixed.getD i false = true → coord new k i = coord P k i) ∧
      ∀ i < n, |coord new k i - coord Z k i| ≤ 2 * κ * m * (2 * m + 1) * (n * (6 * κ * m + 4) + 2) * ε * B := by
  have key : ∀ k : ℕ, k < 3 → Returns (linearFitFixedFl fl ls R (data.map fun row => row.getD k 0)
      (P.map fun row => row.getD k 0) fixed) fun z => z.length = n ∧
      (∀ i < n, fixed.getD i false = true → z.getD i 0 = coord P k i) ∧
      ∀ i < n, |z.getD i 0 - coord Z k i| ≤ 2 * κ * m * (2 * m + 1) * (n * (6 * κ * m + 4) + 2) * ε * B := by
    intro k hk
    have eP : ∀ i, (P.map fun row => row.getD k 0).getD i 0 = coord P k i := fun i => getD_map_row P i k
    have eQ : ∀ i, (data.map fun row => row.getD k 0).getD i 0 = at2 data i k 0 := fun i => getD_map_row data i k
    have := linearFitFixedFl_close hr hfa hls (R := R) (Q := data.map fun row => row.getD k 0)
      (P := P.map fun row => row.getD k 0) (fixed := fixed) (by simp [hd.1]) (by simp [hPs.1]) hn hR hf hN1 hM hκ0 hκ hB0
      (fun r hr => by rw [eQ]; exact hQ k hk r hr) (fun i hi h => by rw [eP]; exact hP k hk i hi h) hε h1 h2
      (x := coord Z k) (fun i hi h => by rw [eP]; exact hZP k hk i hi h)
      (fun e he => by simp only [eQ]; exact hZ k hk e he)
    refine this.mono fun x hx => ?_
    simp only [eP] at hx
    exact hx
  unfold fitColumnsFl
  rw [column_nat hd 0 0 rfl (by omega), ok_bind, column_nat hPs 0 0 rfl (by omega), ok_bind]
  refine Returns.bind (key 0 (by omega)) fun x hx => ?_
  rw [column_nat hd 1 1 rfl (by omega), ok_bind, column_nat hPs 1 1 rfl (by omega), ok_bind]
  refine Returns.bind (key 1 (by omega)) fun y hy => ?_
  rw [column_nat hd 2 2 rfl (by omega), ok_bind, column_nat hPs 2 2 rfl (by omega), ok_bind]
  refine Returns.bind (key 2 (by omega)) fun z hz => ?_
  unfold columnStack3
  rw [if_pos ⟨by omega, by omega⟩]
  have hrow : ∀ i < n, ((List.range x.length).map fun i => [x.getD i 0, y.getD i 0, z.getD i 0]).getD i []
      = [x.getD i 0, y.getD i 0, z.getD i 0] := fun i hi => columnStack3_getD (by omega)
  refine Returns.ok ⟨⟨by simp [hx.1], fun row hr => ?_⟩, fun k hk => ?_⟩
  · obtain ⟨i, -, rfl⟩ := List.mem_map.1 hr; rfl
  · have e : ∀ k i, i < n → coord ((List.range x.length).map fun i => [x.getD i 0, y.getD i 0, z.getD i 0]) k i
          = [x.getD i 0, y.getD i 0, z.getD i 0].getD k 0 := fun k i hi => by unfold coord; rw [hrow i hi]
    match k, hk with
    | 0, _ => exact ⟨fun i hi h => by rw [e 0 i hi]; exact hx.2.1 i hi h, fun i hi => by rw [e 0 i hi]; exact hx.2.2 i hi⟩
    | 1, _ => exact ⟨fun i hi h => by rw [e 1 i hi]; exact hy.2.1 i hi h, fun i hi => by rw [e 1 i hi]; exact hy.2.2 i hi⟩
    | 2, _ => exact ⟨fun i hi h => by rw [e 2 i hi]; exact hz.2.1 i hi h, fun i hi => by rw [e 2 i hi]; exact hz.2.2 i hi⟩

/-- The check passes or reports. -/
theorem CheckUnityFl.cases {fl : K → K} {M : List (List K)} {m : ℕ} {r : Py Unit} (h : CheckUnityFl fl M m r) :
    r = .error .valueError ∨ r = .ok () := by
  obtain ⟨u, t, -, -, rfl⟩ := h
  split
  · exact Or.inl rfl
  · exact Or.inr rfl

theorem surface_eq_sum (U : ℕ → K) (p n : ℕ) (V : ℕ → K) (q l : ℕ) (x : ℕ → K) (u v : K) :
    surface U p n V q l x u v = ∑ t ∈ range (n * l), Nclosed U p n (t / l) u * Nclosed V q l (t % l) v * x t := by
  unfold surface
  rw [sum_grid]
  refine sum_congr rfl fun i _ => sum_congr rfl fun j hj => ?_
  have hj' := mem_range.1 hj
  rw [mul_comm i, Nat.mul_add_div (by omega), Nat.div_eq_of_lt hj', add_zero, Nat.mul_add_mod, Nat.mod_eq_of_lt hj']
  ring

theorem sum_Nclosed_prod (U : ℕ → K) (p n : ℕ) (V : ℕ → K) (q l : ℕ) (u v : K) :
    ∑ t ∈ range (n * l), Nclosed U p n (t / l) u * Nclosed V q l (t % l) v
      = (∑ i ∈ range n, Nclosed U p n i u) * ∑ j ∈ range l, Nclosed V q l j v := by
  rw [sum_grid, sum_mul]
  refine sum_congr rfl fun i _ => ?_
  rw [mul_sum]
  refine sum_congr rfl fun j hj => ?_
  have hj' := mem_range.1 hj
  rw [mul_comm i, Nat.mul_add_div (by omega), Nat.div_eq_of_lt hj', add_zero, Nat.mul_add_mod, Nat.mod_eq_of_lt hj']

/-- The relative error of `k` roundings in double precision. -/
theorem pow_fl64_le {k : ℕ} {ε : ℚ} (hk : k ≤ 2 ^ 52) (h : k / 2 ^ 52 ≤ ε) : (1 / (1 - 1 / 2 ^ 53) : ℚ) ^ k ≤ 1 + ε := by
  have h1 := one_add_mul_le_pow (a := (-(1 / 2 ^ 53) : ℚ)) (by norm_num) k
  have hk' : (k : ℚ) ≤ 2 ^ 52 := by exact_mod_cast hk
  have hk0 : (0 : ℚ) ≤ k := Nat.cast_nonneg k
  obtain ⟨t, ht⟩ : ∃ t : ℚ, t = k * (1 / 2 ^ 53) := ⟨_, rfl⟩
  have h2 : (k : ℚ) / 2 ^ 52 = 2 * t := by rw [ht]; ring
  have t0 : 0 ≤ t := by rw [ht]; positivity
  have t1 : t ≤ 1 / 2 := by rw [ht]; linarith
  have h3 : (1 : ℚ) - t ≤ (1 - 1 / 2 ^ 53) ^ k := by
    rw [ht]
    refine le_trans (le_of_eq (by ring)) (h1.trans (le_of_eq ?_))
    congr 1; ring
  rw [one_div_pow, div_le_iff₀ (pow_pos (by norm_num) k)]
  rw [h2] at h
  have h4 : (1 + 2 * t) * (1 - t) ≤ (1 + ε) * (1 - 1 / 2 ^ 53) ^ k :=
    mul_le_mul (by linarith) h3 (by linarith) (by linarith)
  nlinarith

end PySpline
