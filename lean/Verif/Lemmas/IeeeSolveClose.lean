import Verif.Lemmas.IeeeSolve
import Verif.Props.IeeeInsertion

/-!
# Lemmas on the error of complete fits in IEEE arithmetic
-/

set_option linter.unusedSectionVars false

namespace PySpline

open Spec Ext Finset

variable {K : Type} [Field K] [LinearOrder K] [IsStrictOrderedRing K]

theorem IsApx.neg {rd : K → Ext K} {ρ η M T b S : K} {k : ℕ} {e : Ext K} (hr : IeeeRounding ρ η M rd)
    (h : IsApx rd (1 / ρ) k T e b S) : IsApx rd (1 / ρ) k T (-e) (-b) S := by
  obtain ⟨h0, a, rfl, h1, h2, h3⟩ := h
  refine ⟨h0, -a, rfl, by rw [hr.neg, h1]; rfl, by rw [abs_neg]; exact h2, ?_⟩
  rw [show -a - -b = -(a - b) by ring, abs_neg]
  exact h3

theorem IsApx.stored {rd : K → Ext K} {ρ η M a S : K} (hr : IeeeRounding ρ η M rd) (h : rd a = fin a) (hS : |a| ≤ S) (k : ℕ) :
    IsApx rd (1 / ρ) k 0 (fin a) a S := by
  refine ⟨le_rfl, a, rfl, h, hS, ?_⟩
  rw [sub_self, abs_zero, mul_zero, add_zero]
  exact mul_nonneg (sub_nonneg.2 (one_le_pow₀ hr.one_le)) ((abs_nonneg _).trans hS)

theorem IsApx.size {rd : K → Ext K} {g T b S R : K} {k : ℕ} {e : Ext K} (hg : 1 ≤ g)
    (h : IsApx rd g k T e b S) (hS : S ≤ R) : IsApx rd g k T e b R := by
  obtain ⟨h0, a, rfl, h1, h2, h3⟩ := h
  exact ⟨h0, a, rfl, h1, h2.trans hS, h3.trans (add_le_add_left
    (mul_le_mul_of_nonneg_left hS (sub_nonneg.2 (one_le_pow₀ hg))) _)⟩

theorem sub_eq_add_negE {x y : K} : (fin x : Ext K) - fin y = fin x + -fin y := by
  show fin (x - y) = fin (x + -y)
  rw [sub_eq_add_neg]

/-- The sizes for `linear_fit_fixed`: the entries of the matrix have `k` roundings and an error `E`, `B` bounds the data and
the fixed entries. -/
structure SolveSizes (ρ η M E B ε : K) (k n : ℕ) : Prop where
  E0 : 0 ≤ E
  B0 : 0 ≤ B
  eta : η ≤ E * B
  eps : (1 / ρ) ^ (k + n + 2) * (1 + n * E) ≤ 1 + ε
  eps1 : ε ≤ 1
  M2 : 4 ≤ M
  MB : 8 * B ≤ M

section
variable {ρ η M E B ε : K} {k n : ℕ} {rd : K → Ext K}

theorem SolveSizes.pow_le (h : SolveSizes ρ η M E B ε k n) (hr : IeeeRounding ρ η M rd) {l : ℕ} (hl : l ≤ k + n + 2) :
    (1 / ρ) ^ l ≤ 2 := by
  have h1 : (1 / ρ) ^ l ≤ (1 / ρ) ^ (k + n + 2) := pow_le_pow_right₀ hr.one_le hl
  have h2 : (1 : K) ≤ (1 / ρ) ^ (k + n + 2) := one_le_pow₀ hr.one_le
  have h3 : 0 ≤ (n : K) * E := mul_nonneg (Nat.cast_nonneg n) h.E0
  have h4 : (1 / ρ) ^ (k + n + 2) * 1 ≤ (1 / ρ) ^ (k + n + 2) * (1 + n * E) :=
    mul_le_mul_of_nonneg_left (by linarith) (by linarith)
  linarith [h.eps, h.eps1]

theorem SolveSizes.nE (h : SolveSizes ρ η M E B ε k n) (hr : IeeeRounding ρ η M rd) : n * E ≤ 1 := by
  have h2 : (1 : K) ≤ (1 / ρ) ^ (k + n + 2) := one_le_pow₀ hr.one_le
  have h3 : 0 ≤ (n : K) * E := mul_nonneg (Nat.cast_nonneg n) h.E0
  have h4 : 1 * (1 + n * E) ≤ (1 / ρ) ^ (k + n + 2) * (1 + n * E) := mul_le_mul_of_nonneg_right h2 (by linarith)
  linarith [h.eps, h.eps1]

theorem fixedSumR_apx (h : SolveSizes ρ η M E B ε k n) (hr : IeeeRounding ρ η M rd) {F : ℕ → Bool} {R : ℕ → Ext K}
    {N p : ℕ → K} (hR : ∀ i < n, IsNear rd ρ k E (R i) (N i)) (hN1 : ∑ i ∈ range n, N i ≤ 1)
    (hp : ∀ i < n, F i = true → rd (p i) = fin (p i) ∧ |p i| ≤ B) : ∀ i ≤ n,
    IsApx rd (1 / ρ) (k + 1 + i) (i * (2 * E * B)) (fixedSumR rd F R (fun i => fin (p i)) i)
      (∑ j ∈ range i, if F j then N j * p j else 0) (∑ j ∈ range i, if F j then N j * B else 0) := by
  have hg := hr.one_le
  have hE0 := h.E0
  have hB0 := h.B0
  have hEB : 0 ≤ E * B := mul_nonneg hE0 hB0
  have hNn : ∀ i < n, 0 ≤ N i := fun i hi => by
    obtain ⟨-, _, -, -, -, h, -⟩ := hR i hi
    exact h
  have hNle : ∀ i < n, N i ≤ 1 := fun i hi =>
    (single_le_sum (f := fun i => N i) (fun i hi => hNn i (mem_range.1 hi)) (mem_range.2 hi)).trans hN1
  intro i
  induction i with
  | zero =>
    intro _
    simp only [fixedSumR, range_zero, sum_empty, Nat.cast_zero, zero_mul]
    exact IsApx.zero hr _ le_rfl
  | succ i ih =>
    intro hi
    have hi' : i < n := by omega
    have h1 := ih (by omega)
    rw [fixedSumR, sum_range_succ, sum_range_succ]
    have hcast : ((i + 1 : ℕ) : K) * (2 * E * B) = i * (2 * E * B) + 2 * E * B := by push_cast; ring
    rw [hcast]
    by_cases hF : F i = true
    · rw [if_pos hF, if_pos hF, if_pos hF]
      obtain ⟨q1, q2⟩ := hp i hi' hF
      have hnE := h.nE hr
      have hE1 : E ≤ 1 := by
        have : 1 * E ≤ n * E := mul_le_mul_of_nonneg_right (by exact_mod_cast (show 1 ≤ n by omega)) hE0
        linarith
      have h2 := ((hR i hi').apx hr).mul hr (IsApx.stored hr q1 q2 0) (by
        have a1 := h.pow_le hr (l := k + 0) (by omega)
        have a2 : (N i + E) * (B + 0) ≤ 2 * B := by
          rw [add_zero]; exact mul_le_mul_of_nonneg_right (by linarith [hNle i hi']) hB0
        have a3 : 0 ≤ (N i + E) * (B + 0) := mul_nonneg (add_nonneg (hNn i hi') hE0) (by linarith)
        have := mul_le_mul a1 a2 a3 zero_le_two
        linarith [h.MB])
      have h3 := h2.mono hr (l := k + 1 + i) (Q := 2 * E * B) (by omega) (by
        have := h.eta
        linarith)
      refine (h1.add hr h3 ?_).mono hr (by omega) le_rfl
      have a1 := h.pow_le hr (l := k + 1 + i) (by omega)
      have a2 : (∑ j ∈ range i, if F j then N j * B else 0) + N i * B ≤ B := by
        have b1 : (∑ j ∈ range i, if F j then N j * B else 0) + N i * B ≤ (∑ j ∈ range (i + 1), N j) * B := by
          rw [sum_range_succ, add_mul, sum_mul]
          refine add_le_add_left (sum_le_sum fun j hj => ?_) _
          have := mem_range.1 hj
          have := mul_nonneg (hNn j (by omega)) hB0
          split <;> linarith
        have b2 : ∑ j ∈ range (i + 1), N j ≤ ∑ j ∈ range n, N j :=
          sum_le_sum_of_subset_of_nonneg (range_mono hi) fun j hj _ => hNn j (mem_range.1 hj)
        have := mul_le_mul_of_nonneg_right (b2.trans hN1) hB0
        linarith
      have a3 : (i : K) * (2 * E * B) + 2 * E * B ≤ 2 * B := by
        have c1 : ((i : K) + 1) ≤ n := by exact_mod_cast hi
        have c2 := mul_le_mul_of_nonneg_right c1 hEB
        have c3 := mul_le_mul_of_nonneg_right hnE hB0
        linarith
      have a4 : 0 ≤ (i : K) * (2 * E * B) := by positivity
      have a5 : 0 ≤ ∑ j ∈ range i, if F j then N j * B else 0 := sum_nonneg fun j hj => by
        have := mem_range.1 hj
        have := mul_nonneg (hNn j (by omega)) hB0
        split <;> linarith
      have a6 := mul_nonneg (hNn i hi') hB0
      have := mul_le_mul a1 (show (∑ j ∈ range i, if F j then N j * B else 0) + N i * B
        + ((i : K) * (2 * E * B) + 2 * E * B) ≤ 3 * B by linarith) (by linarith) zero_le_two
      linarith [h.MB]
    · rw [if_neg hF, if_neg hF, if_neg hF, add_zero, add_zero]
      exact h1.mono hr (by omega) (by linarith)

/-- The right-hand side given to the solver. -/
theorem rhs_apx (h : SolveSizes ρ η M E B ε k n) (hr : IeeeRounding ρ η M rd) {F : ℕ → Bool} {R : ℕ → Ext K} {N p : ℕ → K}
    (hR : ∀ i < n, IsNear rd ρ k E (R i) (N i)) (hN1 : ∑ i ∈ range n, N i ≤ 1)
    (hp : ∀ i < n, F i = true → rd (p i) = fin (p i) ∧ |p i| ≤ B) {q : K} (hq : rd q = fin q) (hqB : |q| ≤ B) :
    ∃ b, rnd rd (fin q - fixedSumR rd F R (fun i => fin (p i)) n) = fin b ∧ rd b = fin b ∧
      |q - ∑ j ∈ range n, if F j then N j * p j else 0| ≤ 2 * B ∧
      |b - (q - ∑ j ∈ range n, if F j then N j * p j else 0)| ≤ ε * (2 * B) ∧ |b| ≤ M := by
  have hg := hr.one_le
  have hE0 := h.E0
  have hB0 := h.B0
  have hNn : ∀ i < n, 0 ≤ N i := fun i hi => by
    obtain ⟨-, _, -, -, -, h, -⟩ := hR i hi
    exact h
  have hnE := h.nE hr
  have hS : (∑ j ∈ range n, if F j then N j * B else 0) ≤ B := by
    have b1 : (∑ j ∈ range n, if F j then N j * B else 0) ≤ (∑ j ∈ range n, N j) * B := by
      rw [sum_mul]
      refine sum_le_sum fun j hj => ?_
      have := mul_nonneg (hNn j (mem_range.1 hj)) hB0
      split <;> linarith
    have := mul_le_mul_of_nonneg_right hN1 hB0
    linarith
  have h1 := ((fixedSumR_apx h hr hR hN1 hp n le_rfl).size hg hS).neg hr
  have hT : (n : K) * (2 * E * B) ≤ 2 * B := by
    have := mul_le_mul_of_nonneg_right hnE hB0
    linarith
  have hT0 : 0 ≤ (n : K) * (2 * E * B) := by positivity
  have h2 := (IsApx.stored hr hq hqB (k + 1 + n)).add hr h1 (by
    have a1 := h.pow_le hr (l := k + 1 + n) (by omega)
    have := mul_le_mul a1 (show B + B + (0 + (n : K) * (2 * E * B)) ≤ 4 * B by linarith) (by linarith) zero_le_two
    linarith [h.MB])
  obtain ⟨-, a, e1, -, -, -⟩ := fixedSumR_apx h hr hR hN1 hp n le_rfl
  rw [e1, ← sub_eq_add_negE, ← e1, ← sub_eq_add_neg] at h2
  obtain ⟨-, b, b1, b2, b3, b4⟩ := h2
  have b5 : |b - (q - ∑ j ∈ range n, if F j then N j * p j else 0)| ≤ ε * (2 * B) := by
    refine b4.trans ?_
    rw [show k + 1 + n + 1 = k + n + 2 by omega]
    have c1 := mul_le_mul_of_nonneg_right h.eps (show 0 ≤ 2 * B by linarith)
    linarith
  have b6 : |q - ∑ j ∈ range n, if F j then N j * p j else 0| ≤ 2 * B := by linarith
  refine ⟨b, b1, b2, b6, b5, ?_⟩
  have c1 := abs_add_le (b - (q - ∑ j ∈ range n, if F j then N j * p j else 0)) (q - ∑ j ∈ range n, if F j then N j * p j else 0)
  rw [sub_add_cancel] at c1
  have c2 := mul_le_mul_of_nonneg_right h.eps1 (show 0 ≤ 2 * B by linarith)
  linarith [h.MB]

/-- One entry of the matrix. -/
theorem entry_near (h : SolveSizes ρ η M E B ε k n) (hr : IeeeRounding ρ η M rd) (hn : 0 < n) {e : Ext K} {N : K}
    (hN : IsNear rd ρ k E e N) (hN1 : N ≤ 1) : ∃ a, e = fin a ∧ rd a = fin a ∧ |a - N| ≤ ε ∧ |a| ≤ M := by
  have hN0 : 0 ≤ N := by
    obtain ⟨-, _, -, -, -, h, -⟩ := hN
    exact h
  obtain ⟨a, h1, h2, h3, h4⟩ := hN.abs_sub_le hr
  have hg : 1 ≤ (1 / ρ) ^ k := one_le_pow₀ hr.one_le
  have hle : (1 / ρ) ^ k ≤ (1 / ρ) ^ (k + n + 2) := pow_le_pow_right₀ hr.one_le (by omega)
  have hn1 : (1 : K) ≤ n := by exact_mod_cast hn
  have hE : E ≤ n * E := by
    have := mul_le_mul_of_nonneg_right hn1 h.E0
    linarith
  have h5 : |a - N| ≤ ε := by
    have c1 : ((1 / ρ) ^ k - 1) * N ≤ ((1 / ρ) ^ k - 1) * 1 := mul_le_mul_of_nonneg_left hN1 (by linarith)
    have c2 : (1 / ρ) ^ k * (1 + E) ≤ (1 / ρ) ^ (k + n + 2) * (1 + n * E) :=
      mul_le_mul hle (by linarith) (by linarith [h.E0]) (by linarith)
    linarith [h.eps]
  refine ⟨a, h1, h2, h5, ?_⟩
  have c1 := abs_add_le (a - N) N
  rw [sub_add_cancel, abs_of_nonneg hN0] at c1
  linarith [h.eps1, h.M2]

end

/-- The error of `linear_fit_fixed` in IEEE arithmetic with a backward stable solver. -/
theorem linearFitFixedR_close {ρ η M E B ε κ : K} {k m n : ℕ} {rd : K → Ext K} (h : SolveSizes ρ η M E B ε k n)
    (hr : IeeeRounding ρ η M rd) {ls : ℕ → List (List (Ext K)) → List (Ext K) → Py (List (Ext K))}
    (hls : IeeeSolver rd M ε ls) {N : ℕ → ℕ → K} {R : List (List (Ext K))} {Q P : List K} {fixed : List Bool}
    (hQl : Q.length = m) (hPl : P.length = n) (hn : 0 < n) (hR : Shape R m n) (hf : fixed.length = n)
    (hN1 : ∀ r < m, ∑ i ∈ range n, N r i ≤ 1) (hM : ∀ r < m, ∀ i < n, IsNear rd ρ k E (at2 R r i 0) (N r i))
    (hκ0 : 0 ≤ κ)
    (hκ : ∀ e : ℕ → K, (∀ i < n, fixed.getD i false = true → e i = 0) → ∀ i < n,
      e i ^ 2 ≤ κ * ∑ r ∈ range m, (∑ i ∈ range n, N r i * e i) ^ 2)
    (hQ : ∀ r < m, rd (Q.getD r 0) = fin (Q.getD r 0) ∧ |Q.getD r 0| ≤ B)
    (hP : ∀ i < n, fixed.getD i false = true → rd (P.getD i 0) = fin (P.getD i 0) ∧ |P.getD i 0| ≤ B)
    (h1 : n * ((2 * m + 1) * ε) ≤ 1) (h2 : 6 * κ * m * (n * ((2 * m + 1) * ε)) ≤ 1) (hMκ : 16 * (κ * m) * B ≤ M)
    {x : ℕ → K} (hxP : ∀ i < n, fixed.getD i false = true → x i = P.getD i 0)
    (hx : ∀ e : ℕ → K, (∀ i < n, fixed.getD i false = true → e i = 0) →
      ∑ r ∈ range m, (∑ i ∈ range n, N r i * x i - Q.getD r 0) * ∑ i ∈ range n, N r i * e i = 0) :
    ∃ z : List K, linearFitFixedR rd ls R (lift1 Q) (lift1 P) fixed = .ok (lift1 z) ∧ z.length = n ∧
      (∀ i < n, fixed.getD i false = true → z.getD i 0 = P.getD i 0) ∧
      ∀ i < n, |z.getD i 0 - x i| ≤ 2 * κ * m * (2 * m + 1) * (n * (6 * κ * m + 4) + 2) * ε * B := by
  obtain ⟨ls', hls', hrun⟩ := hls
  have hB0 := h.B0
  have hm0 : (0 : K) ≤ m := Nat.cast_nonneg m
  have hN0 : ∀ r < m, ∀ i < n, 0 ≤ N r i := fun r hr i hi => by
    obtain ⟨-, _, -, -, -, h, -⟩ := hM r hr i hi
    exact h
  have hNle : ∀ r < m, ∀ i < n, N r i ≤ 1 := fun r hr i hi =>
    (single_le_sum (f := fun i => N r i) (fun i hi => hN0 r hr i (mem_range.1 hi)) (mem_range.2 hi)).trans (hN1 r hr)
  have hε0 : 0 ≤ ε := by
    have h2 : (1 : K) ≤ (1 / ρ) ^ (k + n + 2) := one_le_pow₀ hr.one_le
    have h3 : 0 ≤ (n : K) * E := mul_nonneg (Nat.cast_nonneg n) h.E0
    have := one_le_mul_of_one_le_of_one_le h2 (show (1 : K) ≤ 1 + n * E by linarith)
    linarith [h.eps]
  set F : ℕ → Bool := fun i => fixed.getD i false with hF
  have hsum : ∀ r, (∑ j ∈ range n, if F j then N r j * x j else 0) = ∑ j ∈ range n, if F j then N r j * P.getD j 0 else 0 :=
    fun r => sum_congr rfl fun i hi => by
      split
      · rw [hxP i (mem_range.1 hi) ‹_›]
      · rfl
  obtain ⟨bnd, hbnd⟩ : ∃ bnd : K, bnd = 2 * κ * m * (2 * m + 1) * (n * (6 * κ * m + 4) + 2) * ε * B := ⟨_, rfl⟩
  have hbnd0 : 0 ≤ bnd := by rw [hbnd]; positivity
  have hbndM : bnd ≤ 14 * (κ * m) * B := by
    have c0 : 0 ≤ 2 * (κ * m) * B := by positivity
    have c1 : (2 * m + 1) * ε ≤ n * ((2 * m + 1) * ε) := by
      have : (1 : K) ≤ n := by exact_mod_cast hn
      have := mul_le_mul_of_nonneg_right this (show 0 ≤ (2 * m + 1) * ε by positivity)
      linarith
    have c2 : 6 * κ * m * (n * ((2 * m + 1) * ε)) + 4 * (n * ((2 * m + 1) * ε)) + 2 * ((2 * m + 1) * ε) ≤ 7 := by linarith
    have := mul_le_mul_of_nonneg_left c2 c0
    rw [hbnd]
    linarith
  rw [← hbnd]
  -- what the solver is given and what it returns
  obtain ⟨X, hX, X1, X2, X3⟩ := linearFitFixedR_returns (rd := rd) (ls := ls) (R := R) (Q := lift1 Q) (P := lift1 P) (fixed := fixed)
    (by rw [List.length_map, List.length_map, hQl, hPl]; exact hR) (by rw [List.length_map, hPl, hf])
    (fun y => ∃ z₀ : List K, y = lift1 z₀ ∧ z₀.length = corank F n ∧ ∀ z : ℕ → K, (∀ i < n, F i = true → z i = x i) →
      (∀ i < n, F i = false → z i = z₀.getD (corank F i) 0) → ∀ i < n, |z i - x i| ≤ bnd) (by
    intro Rfree b g1 g2 g3 g4
    rw [List.length_map, List.length_map, hQl, hPl] at g1
    rw [List.length_map, hQl] at g2
    rw [List.length_map, List.length_map, hQl, hPl] at g3
    rw [List.length_map, List.length_map, hQl, hPl] at g4
    rw [List.length_map, hPl]
    have hRA : ∀ r < m, ∀ t < corank F n, ∃ a, at2 Rfree r t 0 = fin a ∧ rd a = fin a ∧ |a| ≤ M ∧
        ∀ i < n, F i = false → corank F i = t → |a - N r i| ≤ ε := by
      intro r hr' t ht
      obtain ⟨i, hi, hFi, rfl⟩ := corank_surj F ht
      obtain ⟨a, a1, a2, a3, a4⟩ := entry_near h hr hn (hM r hr' i hi) (hNle r hr' i hi)
      refine ⟨a, by rw [g3 i hi hFi r hr', a1], a2, a4, fun j hj hFj hc => ?_⟩
      rcases lt_trichotomy i j with hij | rfl | hij
      · exact absurd hc (ne_of_gt (corank_lt F hij hFi))
      · exact a3
      · exact absurd hc (ne_of_lt (corank_lt F hij hFj))
    have hb : ∀ r < m, ∃ a, b.getD r 0 = fin a ∧ rd a = fin a ∧ |Q.getD r 0 - ∑ j ∈ range n, if F j then N r j * x j else 0| ≤ 2 * B ∧
        |a - (Q.getD r 0 - ∑ j ∈ range n, if F j then N r j * x j else 0)| ≤ ε * (2 * B) ∧ |a| ≤ M := by
      intro r hr'
      rw [g4 r hr', hsum]
      have e1 : (fun j => (lift1 P).getD j (0 : Ext K)) = fun j => fin (P.getD j 0) := by
        funext j
        exact getD_lift P j
      have e2 : (lift1 Q).getD r (0 : Ext K) = fin (Q.getD r 0) := getD_lift Q r
      rw [e1, e2]
      exact rhs_apx h hr (hM r hr') (hN1 r hr') hP (hQ r hr').1 (hQ r hr').2
    -- the system of numbers
    set A : List (List K) := Rfree.map (List.map Ext.val) with hAdef
    set β : List K := b.map Ext.val with hβdef
    have hAs : Shape A m (corank F n) := by
      refine ⟨by rw [hAdef, List.length_map]; exact g1.1, ?_⟩
      intro row hrow
      obtain ⟨l, hl, rfl⟩ := List.mem_map.1 hrow
      rw [List.length_map]
      exact g1.2 l hl
    have hβl : β.length = m := by rw [hβdef, List.length_map, g2]
    have hAv : ∀ r < m, ∀ t < corank F n, fin (at2 A r t 0) = at2 Rfree r t 0 := by
      intro r hr' t ht
      have k1 : r < Rfree.length := by rw [g1.1]; exact hr'
      have k2 : t < (Rfree[r]).length := by rw [g1.2 _ (List.getElem_mem k1)]; exact ht
      have : at2 A r t 0 = (at2 Rfree r t 0).val := by simp [hAdef, at2, List.getD_eq_getElem?_getD, k1, k2]
      obtain ⟨a, ha, -⟩ := hRA r hr' t ht
      rw [this, ha]
      rfl
    have hβv : ∀ r < m, fin (β.getD r 0) = b.getD r 0 := by
      intro r hr'
      have k1 : r < b.length := by omega
      have : β.getD r 0 = (b.getD r 0).val := by simp [hβdef, List.getD_eq_getElem?_getD, k1]
      obtain ⟨a, ha, -⟩ := hb r hr'
      rw [this, ha]
      rfl
    have hRfree : Rfree = lift2 A := by
      refine shape_ext g1 (shape_lift2 hAs) 0 fun r hr' t ht => ?_
      rw [at2_lift2]
      exact (hAv r hr' t ht).symm
    have hbβ : b = lift1 β := by
      refine List.ext_getElem (by rw [List.length_map, hβl, g2]) fun r k1 k2 => ?_
      have := hβv r (by omega)
      rw [List.getD_eq_getElem?_getD, List.getD_eq_getElem?_getD, List.getElem?_eq_getElem k1,
        List.getElem?_eq_getElem (by rw [List.length_map] at k2; exact k2)] at this
      rw [List.getElem_map]
      exact this.symm
    have hAmem : ∀ row ∈ A, ∀ y ∈ row, rd y = fin y ∧ |y| ≤ M := by
      intro row hrow y hy
      obtain ⟨r, hr1, rfl⟩ := List.getElem_of_mem hrow
      obtain ⟨t, ht1, rfl⟩ := List.getElem_of_mem hy
      have hr' : r < m := by rw [hAs.1] at hr1; exact hr1
      have ht : t < corank F n := by rw [hAs.2 _ hrow] at ht1; exact ht1
      have e : A[r][t] = at2 A r t 0 := by simp [at2, List.getD_eq_getElem?_getD, hr1, ht1]
      obtain ⟨a, a1, a2, a3, -⟩ := hRA r hr' t ht
      have := hAv r hr' t ht
      rw [a1] at this
      rw [e, Ext.fin.inj this]
      exact ⟨a2, a3⟩
    have hβmem : ∀ y ∈ β, rd y = fin y ∧ |y| ≤ M := by
      intro y hy
      obtain ⟨r, hr1, rfl⟩ := List.getElem_of_mem hy
      have hr' : r < m := by omega
      have e : β[r] = β.getD r 0 := by simp [List.getD_eq_getElem?_getD, hr1]
      obtain ⟨a, a1, a2, -, -, a5⟩ := hb r hr'
      have := hβv r hr'
      rw [a1] at this
      rw [e, Ext.fin.inj this]
      exact ⟨a2, a5⟩
    have hlen := hls'.length (corank F n) A β (by rw [hAs.1, hβl]) hAs.2
    have hclose : ∀ z : ℕ → K, (∀ i < n, F i = true → z i = x i) →
        (∀ i < n, F i = false → z i = (ls' (corank F n) A β).getD (corank F i) 0) → ∀ i < n, |z i - x i| ≤ bnd := by
      intro z hz1 hz2
      rw [hbnd]
      refine solved_close hls' hAs hβl hn hε0 hN0 hN1 hκ0 hκ hB0 h1 h2 (fun r hr' i hi hFi => ?_) (fun r hr' => ?_)
        (fun r hr' => ?_) hx hz1 hz2
      · obtain ⟨a, a1, -, -, a4⟩ := hRA r hr' _ (corank_lt F hi hFi)
        have := hAv r hr' _ (corank_lt F hi hFi)
        rw [a1] at this
        rw [Ext.fin.inj this]
        exact a4 i hi hFi rfl
      · obtain ⟨a, -, -, a3, -⟩ := hb r hr'
        exact a3
      · obtain ⟨a, a1, -, -, a4, -⟩ := hb r hr'
        have := hβv r hr'
        rw [a1] at this
        rw [Ext.fin.inj this]
        exact a4
    have hsmall : ∀ y ∈ ls' (corank F n) A β, |y| ≤ M := by
      intro y hy
      obtain ⟨t, ht1, rfl⟩ := List.getElem_of_mem hy
      obtain ⟨i, hi, hFi, hit⟩ := corank_surj F (show t < corank F n by omega)
      have c1 := hclose (fun i => if F i then x i else (ls' (corank F n) A β).getD (corank F i) 0)
        (fun i _ hFi => if_pos hFi) (fun i _ hFi => if_neg (by rw [hFi]; simp)) i hi
      have e : (ls' (corank F n) A β)[t] = (ls' (corank F n) A β).getD t 0 := by simp [List.getD_eq_getElem?_getD, ht1]
      have hneg : ¬ F i = true := by rw [hFi]; simp
      simp only [if_neg hneg] at c1
      rw [hit, ← e] at c1
      have c2 := normal_size hn hκ0 (show 0 ≤ 2 * B by linarith) hN0 hN1 hκ hx (fun r hr' => by
        obtain ⟨a, -, -, a3, -⟩ := hb r hr'
        exact a3) i hi hFi
      have c3 := abs_add_le ((ls' (corank F n) A β)[t] - x i) (x i)
      rw [sub_add_cancel] at c3
      linarith
    have hres := hrun (corank F n) A β hAmem hβmem hsmall
    rw [hRfree, hbβ]
    change Returns (ls (corank F n) (A.map (List.map fin)) (β.map fin)) _
    rw [hres]
    exact Returns.ok ⟨by rw [List.length_map]; exact hlen, ls' (corank F n) A β, rfl, hlen, hclose⟩)
  rw [List.length_map, hPl] at X1 X2 X3
  have eP : ∀ i, (lift1 P).getD i (0 : Ext K) = fin (P.getD i 0) := fun i => getD_lift P i
  simp only [eP] at X2
  rcases X3 with hall | ⟨y, ⟨z₀, rfl, hz0, hz⟩, hy⟩
  · have hXP : X = lift1 P := by
      refine List.ext_getElem (by rw [List.length_map, X1, hPl]) fun i k1 k2 => ?_
      have hi : i < n := by omega
      have := X2 i hi (hall i hi)
      have hiP : i < P.length := by omega
      rw [List.getD_eq_getElem?_getD, List.getD_eq_getElem?_getD, List.getElem?_eq_getElem k1, List.getElem?_eq_getElem hiP] at this
      rw [List.getElem_map]
      exact this
    refine ⟨P, by rw [hX, hXP], hPl, fun _ _ _ => rfl, fun i hi => ?_⟩
    rw [hxP i hi (hall i hi), sub_self, abs_zero]
    exact hbnd0
  · set z : List K := (List.range n).map fun i => if F i then P.getD i 0 else z₀.getD (corank F i) 0 with hzdef
    have hzg : ∀ i < n, z.getD i 0 = if F i then P.getD i 0 else z₀.getD (corank F i) 0 := by
      intro i hi
      rw [List.getD_eq_getElem?_getD, hzdef, List.getElem?_map, List.getElem?_range hi]
      rfl
    have hzl : z.length = n := by rw [hzdef, List.length_map, List.length_range]
    have hXz : X = lift1 z := by
      refine List.ext_getElem (by rw [List.length_map, X1, hzl]) fun i k1 k2 => ?_
      have hi : i < n := by omega
      have hiz : i < z.length := by omega
      have e1 : X.getD i 0 = fin (z.getD i 0) := by
        rw [hzg i hi]
        by_cases hFi : F i = true
        · rw [if_pos hFi]; exact X2 i hi hFi
        · rw [if_neg hFi, hy i hi (Bool.eq_false_of_not_eq_true hFi)]
          exact getD_lift z₀ _
      rw [List.getD_eq_getElem?_getD, List.getD_eq_getElem?_getD, List.getElem?_eq_getElem k1, List.getElem?_eq_getElem hiz] at e1
      rw [List.getElem_map]
      exact e1
    refine ⟨z, by rw [hX, hXz], hzl, fun i hi hFi => by rw [hzg i hi, if_pos hFi], ?_⟩
    exact hz (fun i => z.getD i 0) (fun i hi hFi => by rw [hzg i hi, if_pos hFi, hxP i hi hFi])
      (fun i hi hFi => by rw [hzg i hi, if_neg (by rw [hFi]; simp)])

/-- The three calls of `linear_fit_fixed`. -/
theorem fitColumnsR_close {ρ η M E B ε κ : K} {k m n w : ℕ} {rd : K → Ext K} (h : SolveSizes ρ η M E B ε k n)
    (hr : IeeeRounding ρ η M rd) {ls : ℕ → List (List (Ext K)) → List (Ext K) → Py (List (Ext K))}
    (hls : IeeeSolver rd M ε ls) {N : ℕ → ℕ → K} {R : List (List (Ext K))} {data P Z : List (List K)} {fixed : List Bool}
    (hd : Shape data m w) (hw : 3 ≤ w) (hPs : Shape P n 3) (hn : 0 < n) (hR : Shape R m n) (hf : fixed.length = n)
    (hN1 : ∀ r < m, ∑ i ∈ range n, N r i ≤ 1) (hM : ∀ r < m, ∀ i < n, IsNear rd ρ k E (at2 R r i 0) (N r i))
    (hκ0 : 0 ≤ κ)
    (hκ : ∀ e : ℕ → K, (∀ i < n, fixed.getD i false = true → e i = 0) → ∀ i < n,
      e i ^ 2 ≤ κ * ∑ r ∈ range m, (∑ i ∈ range n, N r i * e i) ^ 2)
    (hQ : ∀ y < 3, ∀ r < m, rd (at2 data r y 0) = fin (at2 data r y 0) ∧ |at2 data r y 0| ≤ B)
    (hP : ∀ y < 3, ∀ i < n, fixed.getD i false = true → rd (coord P y i) = fin (coord P y i) ∧ |coord P y i| ≤ B)
    (h1 : n * ((2 * m + 1) * ε) ≤ 1) (h2 : 6 * κ * m * (n * ((2 * m + 1) * ε)) ≤ 1) (hMκ : 16 * (κ * m) * B ≤ M)
    (hZP : ∀ y < 3, ∀ i < n, fixed.getD i false = true → coord Z y i = coord P y i)
    (hZ : ∀ y < 3, ∀ e : ℕ → K, (∀ i < n, fixed.getD i false = true → e i = 0) →
      ∑ r ∈ range m, (∑ i ∈ range n, N r i * coord Z y i - at2 data r y 0) * ∑ i ∈ range n, N r i * e i = 0) :
    ∃ new : List (List K), fitColumnsR rd ls R (lift2 data) (lift2 P) fixed = .ok (lift2 new) ∧ Shape new n 3 ∧ ∀ y < 3,
      (∀ i < n, fixed.getD i false = true → coord new y i = coord P y i) ∧
      ∀ i < n, |coord new y i - coord Z y i| ≤ 2 * κ * m * (2 * m + 1) * (n * (6 * κ * m + 4) + 2) * ε * B := by
  have ecol : ∀ (A : List (List K)) (y : ℕ), ((lift2 A).map fun row => row.getD y (0 : Ext K))
      = lift1 (A.map fun row => row.getD y 0) := by
    intro A y
    simp only [List.map_map]
    exact List.map_congr_left fun row _ => getD_lift row y
  have key : ∀ y : ℕ, y < 3 → ∃ z : List K, linearFitFixedR rd ls R ((lift2 data).map fun row => row.getD y 0)
      ((lift2 P).map fun row => row.getD y 0) fixed = .ok (lift1 z) ∧ z.length = n ∧
      (∀ i < n, fixed.getD i false = true → z.getD i 0 = coord P y i) ∧
      ∀ i < n, |z.getD i 0 - coord Z y i| ≤ 2 * κ * m * (2 * m + 1) * (n * (6 * κ * m + 4) + 2) * ε * B := by
    intro y hy
    have eP : ∀ i, (P.map fun row => row.getD y 0).getD i 0 = coord P y i := fun i => getD_map_row P i y
    have eQ : ∀ i, (data.map fun row => row.getD y 0).getD i 0 = at2 data i y 0 := fun i => getD_map_row data i y
    have := linearFitFixedR_close h hr hls (R := R) (Q := data.map fun row => row.getD y 0)
      (P := P.map fun row => row.getD y 0) (fixed := fixed) (by simp [hd.1]) (by simp [hPs.1]) hn hR hf hN1 hM hκ0 hκ
      (fun r hr => by rw [eQ]; exact hQ y hy r hr) (fun i hi h => by rw [eP]; exact hP y hy i hi h) h1 h2 hMκ
      (x := coord Z y) (fun i hi h => by rw [eP]; exact hZP y hy i hi h)
      (fun e he => by simp only [eQ]; exact hZ y hy e he)
    rw [ecol, ecol]
    simp only [eP] at this
    exact this
  obtain ⟨x, x1, x2, x3⟩ := key 0 (by omega)
  obtain ⟨y, y1, y2, y3⟩ := key 1 (by omega)
  obtain ⟨z, z1, z2, z3⟩ := key 2 (by omega)
  refine ⟨(List.range x.length).map fun i => [x.getD i 0, y.getD i 0, z.getD i 0], ?_, ⟨by simp [x2], ?_⟩, ?_⟩
  · have sd := shape_lift2 hd
    have sP := shape_lift2 hPs
    unfold fitColumnsR
    rw [columnE_nat sd 0 0 rfl (by omega), ok_bind, columnE_nat sP 0 0 rfl (by omega), ok_bind, x1, ok_bind,
      columnE_nat sd 1 1 rfl (by omega), ok_bind, columnE_nat sP 1 1 rfl (by omega), ok_bind, y1, ok_bind,
      columnE_nat sd 2 2 rfl (by omega), ok_bind, columnE_nat sP 2 2 rfl (by omega), ok_bind, z1, ok_bind]
    unfold columnStack3E
    rw [if_pos (by rw [List.length_map, List.length_map, List.length_map]; omega), List.length_map]
    congr 1
    rw [lift2, List.map_map]
    refine List.map_congr_left fun i _ => ?_
    simp only [Function.comp, List.map_cons, List.map_nil]
    exact congrArg₂ _ (getD_lift x i) (congrArg₂ _ (getD_lift y i) (congrArg₂ _ (getD_lift z i) rfl))
  · intro row hr
    obtain ⟨i, -, rfl⟩ := List.mem_map.1 hr
    rfl
  · intro k hk
    have hrow : ∀ i < n, ((List.range x.length).map fun i => [x.getD i 0, y.getD i 0, z.getD i 0]).getD i []
        = [x.getD i 0, y.getD i 0, z.getD i 0] := fun i hi => columnStack3_getD (by omega)
    have e : ∀ k i, i < n → coord ((List.range x.length).map fun i => [x.getD i 0, y.getD i 0, z.getD i 0]) k i
          = [x.getD i 0, y.getD i 0, z.getD i 0].getD k 0 := fun k i hi => by unfold coord; rw [hrow i hi]
    match k, hk with
    | 0, _ => exact ⟨fun i hi h => by rw [e 0 i hi]; exact x3.1 i hi h, fun i hi => by rw [e 0 i hi]; exact x3.2 i hi⟩
    | 1, _ => exact ⟨fun i hi h => by rw [e 1 i hi]; exact y3.1 i hi h, fun i hi => by rw [e 1 i hi]; exact y3.2 i hi⟩
    | 2, _ => exact ⟨fun i hi h => by rw [e 2 i hi]; exact z3.1 i hi h, fun i hi => by rw [e 2 i hi]; exact z3.2 i hi⟩

end PySpline
