import Verif.Lemmas.SmoothAux
import Mathlib.MeasureTheory.Integral.IntervalIntegral.FundThmCalculus

/-!
# Integrals of basis functions
-/

namespace PySpline

open Spec Polynomial Set Filter Topology MeasureTheory

variable {p n : ℕ} {U : List ℝ}

theorem N_succ_first (hU : Clamped p n U) (hfirst : knotFn U p < knotFn U (p + 1)) (j : ℕ) :
    N (knotFn U) (p + 1) j (knotFn U 0) = 0 := by
  have hN : ∀ i, N (knotFn U) p i (knotFn U 0) = if i = 0 then 1 else 0 := N_first hU hfirst
  rw [N, hN, hN, if_neg (Nat.succ_ne_zero j), mul_zero, add_zero]
  split_ifs with h
  · rw [h, sub_self, zero_div, zero_mul]
  · rw [mul_zero]

/-- The function whose derivative is `(p + 1) N_{i,p} / (U[i+p+1] - U[i])`. -/
noncomputable def primitive (V : ℕ → ℝ) (p n i : ℕ) (u : ℝ) : ℝ := ∑ j ∈ Finset.Ico i n, N V (p + 1) j u

theorem integral_Nclosed (hU : Clamped p n U) (hfirst : knotFn U p < knotFn U (p + 1))
    (hlast : knotFn U (n - 1) < knotFn U n) (hmult' : MultAtMost (knotFn U) (knotFn U 0) (knotFn U (n + p)) p)
    {i : ℕ} (hi : i < n) :
    ∫ u in (knotFn U 0)..(knotFn U (n + p)), Nclosed (knotFn U) p n i u
      = (knotFn U (i + p + 1) - knotFn U i) / ((p : ℝ) + 1) := by
  set V := knotFn U with hVdef
  have hV : Monotone V := monotone_knotFn hU.mono
  have hsz := hU.size
  have hlen := hU.len
  have hr : ∀ j, n ≤ j → V j = V (n + p) := by
    intro j hj
    rcases le_or_gt j (n + p) with h | h
    · exact hU.right j hj h
    · rw [hVdef]
      unfold knotFn
      rw [List.getD_eq_getElem?_getD, List.getElem?_eq_none (by omega), List.getD_eq_getElem?_getD,
        List.getLastD_eq_getLast?, List.getLast?_eq_getElem?, show U.length - 1 = n + p by omega,
        List.getElem?_eq_getElem (by omega)]
      rfl
  have h0p : V p = V 0 := hU.left p le_rfl
  have hab : V 0 < V (n + p) := by
    rw [← h0p]
    exact hfirst.trans_le (hV (by omega))
  have hcont := Nclosed_continuousOn hU hfirst hlast hmult' hi
  have hlt : V i < V (i + p + 1) := by
    rcases (hV (Nat.zero_le i)).eq_or_lt with h | h
    · rw [← h, ← h0p]
      exact hfirst.trans_le (hV (by omega))
    · have : V i < V (n + p) := ((hV (by omega : i ≤ n - 1)).trans_lt hlast).trans_le (hV (by omega))
      exact (hmult' i h this).trans_le (hV (by omega))
  have tel : ∀ u, ∑ j ∈ Finset.Ico i n, ((p : ℝ) + 1) * (w V p j * N V p j u - w V p (j + 1) * N V p (j + 1) u)
      = ((p : ℝ) + 1) * (w V p i * N V p i u) := by
    intro u
    rw [← Finset.mul_sum, Finset.sum_Ico_eq_sum_range]
    have := Finset.sum_range_sub' (fun t => w V p (i + t) * N V p (i + t) u) (n - i)
    simp only [← add_assoc] at this
    rw [this, show i + (n - i) = n by omega, add_zero]
    have : w V p n = 0 := by
      unfold w
      rw [hr n le_rfl, hr (n + p + 1) (by omega), sub_self, div_zero]
    rw [this, zero_mul, sub_zero]
  have key : ∫ u in (V 0)..(V (n + p)), ((p : ℝ) + 1) * (w V p i * Nclosed V p n i u) = 1 - 0 := by
    refine intervalIntegral.integral_eq_sub_of_hasDerivAt_of_tendsto (f := primitive V p n i) hab ?_ ?_ ?_ ?_
    · intro u hu
      obtain ⟨k, m, -, hm, ha⟩ := hmult'.around hV le_rfl le_rfl hu
      have : Nclosed V p n i u = N V p i u := by rw [Nclosed, if_neg hu.2.ne]
      rw [this, ← tel u]
      exact HasDerivAt.fun_sum fun j _ => ha.hasDerivAt hV hm j
    · refine ContinuousOn.intervalIntegrable ?_
      rw [uIcc_of_le hab.le]
      exact continuousOn_const.mul (continuousOn_const.mul hcont)
    · have e : primitive V p n i =ᶠ[𝓝[>] (V 0)] fun t => ∑ j ∈ Finset.Ico i n, (piece V p (p + 1) j).eval t := by
        have : ∀ j, N V (p + 1) j =ᶠ[𝓝[>] (V 0)] fun t => (piece V p (p + 1) j).eval t := fun j =>
          (N_eventuallyEq_right hV h0p.le (by rw [← h0p]; exact hfirst) (p + 1) j).filter_mono
            (nhdsWithin_mono _ Ioi_subset_Ici_self)
        have h := (Finset.eventually_all (Finset.Ico i n)).2 fun j _ => this j
        filter_upwards [h] with t ht
        exact Finset.sum_congr rfl ht
      refine Tendsto.congr' e.symm ?_
      have z : ∑ j ∈ Finset.Ico i n, (piece V p (p + 1) j).eval (V 0) = 0 := by
        refine Finset.sum_eq_zero fun j _ => ?_
        rw [← N_eq_piece hV h0p.le (by rw [← h0p]; exact hfirst)]
        exact N_succ_first hU hfirst j
      rw [← z]
      exact (tendsto_finsetSum _ fun j _ => (piece V p (p + 1) j).differentiable.continuous.tendsto _).mono_left nhdsWithin_le_nhds
    · have hle := hr n le_rfl
      have e : primitive V p n i =ᶠ[𝓝[<] (V (n + p))]
          fun t => ∑ j ∈ Finset.Ico i n, (piece V (n - 1) (p + 1) j).eval t := by
        have : ∀ j, N V (p + 1) j =ᶠ[𝓝[<] (V (n + p))] fun t => (piece V (n - 1) (p + 1) j).eval t := fun j =>
          N_eventuallyEq_left hV (by rw [← hle]; exact hlast) (by rw [show n - 1 + 1 = n by omega, hle]) (p + 1) j
        have h := (Finset.eventually_all (Finset.Ico i n)).2 fun j _ => this j
        filter_upwards [h] with t ht
        exact Finset.sum_congr rfl ht
      refine Tendsto.congr' e.symm ?_
      have z : ∑ j ∈ Finset.Ico i n, (piece V (n - 1) (p + 1) j).eval (V (n + p)) = 1 := by
        have : ∀ j, (piece V (n - 1) (p + 1) j).eval (V (n + p)) = if j = n - 1 then 1 else 0 :=
          piece_at_right_end (m := p + 1) (fun j _ => by rw [show n - 1 + 1 + j = n + j by omega]; exact hr _ (by omega))
            (by rw [← hle]; exact hlast) (p + 1) le_rfl
        simp only [this]
        rw [Finset.sum_ite_eq', if_pos (Finset.mem_Ico.2 ⟨by omega, by omega⟩)]
      rw [← z]
      exact (tendsto_finsetSum _ fun j _ => (piece V (n - 1) (p + 1) j).differentiable.continuous.tendsto _).mono_left
        nhdsWithin_le_nhds
  rw [intervalIntegral.integral_const_mul, intervalIntegral.integral_const_mul, sub_zero] at key
  have h1 : V (i + p + 1) - V i ≠ 0 := (sub_pos.2 hlt).ne'
  have h2 : (p : ℝ) + 1 ≠ 0 := by positivity
  unfold w at key
  field_simp at key ⊢
  linarith

end PySpline
