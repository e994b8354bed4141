import Verif.Props.Double

/-!
# Auxiliary lemmas for `Props/KnotsDouble.lean`
-/

set_option linter.unusedSectionVars false

namespace PySpline

open Spec

section
variable {K : Type} [Field K] [LinearOrder K] [IsStrictOrderedRing K]

theorem clampedFrom_knot {p n : ℕ} (h : p < n) (f : ℕ → K) (h0 : f 0 = 0) (h1 : f (n - p) = 1) {i : ℕ}
    (hi : i ≤ n + p) :
    knotFn (zeros p ++ (List.range (n - p + 1)).map f ++ ones p) i
      = if i ≤ p then 0 else if i < n then f (i - p) else 1 := by
  have hlen : ((zeros p ++ (List.range (n - p + 1)).map f ++ ones p) : List K).length = n + p + 1 := by
    simp [zeros, ones]; omega
  rw [knotFn_eq (by omega)]
  by_cases h2 : i < p
  · rw [List.getElem_append_left (by simp [zeros]; omega),
      List.getElem_append_left (by simpa [zeros] using h2), if_pos h2.le]
    simp [zeros]
  · by_cases h3 : i ≤ n
    · rw [List.getElem_append_left (by simp [zeros]; omega),
        List.getElem_append_right (by simpa [zeros] using h2)]
      simp only [List.getElem_map, List.getElem_range, zeros, List.length_replicate]
      by_cases h4 : i = p
      · subst h4; rw [if_pos le_rfl, Nat.sub_self, h0]
      · rw [if_neg (by omega)]
        by_cases h5 : i < n
        · rw [if_pos h5]
        · have : i = n := by omega
          subst this
          rw [if_neg h5, h1]
    · rw [List.getElem_append_right (by simp [zeros]; omega), if_neg (by omega), if_neg (by omega)]
      simp [ones]

theorem clampedFrom {p n : ℕ} (h : p < n) (f : ℕ → K) (h0 : f 0 = 0) (h1 : f (n - p) = 1)
    (hf : ∀ i < n - p, f i < f (i + 1)) :
    let U := zeros p ++ (List.range (n - p + 1)).map f ++ ones p
    Clamped p n U ∧ DistinctInterior p n U ∧ knotFn U 0 = 0 ∧ knotFn U (n + p) = 1 := by
  intro U
  have hlen : U.length = n + p + 1 := by simp [U, zeros, ones]; omega
  have hk : ∀ i ≤ n + p, knotFn U i = if i ≤ p then 0 else if i < n then f (i - p) else 1 :=
    fun i hi => clampedFrom_knot h f h0 h1 hi
  have hleft : ∀ i ≤ p, knotFn U i = 0 := fun i hi => by rw [hk i (by omega), if_pos hi]
  have hright : ∀ i, n ≤ i → i ≤ n + p → knotFn U i = 1 := fun i h1 h2 => by
    rw [hk i h2, if_neg (by omega), if_neg (by omega)]
  have hmid : ∀ i, p ≤ i → i ≤ n → knotFn U i = f (i - p) := by
    intro i h2 h3
    rcases h2.eq_or_lt with rfl | h2
    · rw [hleft p le_rfl, Nat.sub_self, h0]
    · rcases h3.eq_or_lt with rfl | h3
      · rw [hright i le_rfl (by omega), h1]
      · rw [hk i (by omega), if_neg (by omega), if_pos h3]
  have hdist : DistinctInterior p n U := by
    intro i h2 h3
    rw [hmid i h2 h3.le, hmid (i + 1) (by omega) h3, show i + 1 - p = i - p + 1 by omega]
    exact hf (i - p) (by omega)
  refine ⟨⟨⟨hlen, ?_, h⟩, ?_, ?_⟩, hdist, hleft 0 (by omega), hright (n + p) (by omega) le_rfl⟩
  · rw [List.pairwise_iff_getElem]
    intro i j hi hj hij
    rw [← knotFn_eq hi, ← knotFn_eq hj]
    have step : ∀ i, i + 1 ≤ n + p → knotFn U i ≤ knotFn U (i + 1) := by
      intro i hi
      by_cases h1 : i < p
      · rw [hleft i (by omega), hleft (i + 1) (by omega)]
      · by_cases h2 : i < n
        · exact (hdist i (by omega) h2).le
        · rw [hright i (by omega) (by omega), hright (i + 1) (by omega) (by omega)]
    have : ∀ d, i + d ≤ n + p → knotFn U i ≤ knotFn U (i + d) := by
      intro d
      induction d with
      | zero => intro _; exact le_rfl
      | succ d ih => intro hd; exact (ih (by omega)).trans (step (i + d) (by omega))
    have := this (j - i) (by omega)
    rwa [show i + (j - i) = j by omega] at this
  · intro i hi; rw [hleft i hi, hleft 0 (by omega)]
  · intro i h1 h2; rw [hright i h1 h2, hright (n + p) (by omega) le_rfl]

end

/-- `i * (1 / m)` in double precision ascends strictly up to `m - 1` and stays below `1` there; each
value has a relative error of at most `2.0000001 * 2^-53`. -/
theorem vtkParam_lt {m i : ℕ} (hm : m ≤ 2 ^ 50) (hi : i < m) :
    vtkParam m i < 1 ∧ vtkParam m i < vtkParam m (i + 1) ∧
      |vtkParam m i - (i : ℚ) / m| ≤ 1 / 2 ^ 51 * ((i : ℚ) / m) := by
  have hm1 : 1 ≤ m := by omega
  have hm0 : (0 : ℚ) < m := by exact_mod_cast hm1
  have hmq : (m : ℚ) ≤ 2 ^ 50 := by exact_mod_cast hm
  have hiq : (i : ℚ) + 1 ≤ m := by exact_mod_cast hi
  have hi0 : (0 : ℚ) ≤ i := by positivity
  obtain ⟨s0, s1, s2⟩ := vtkStep_bounds hm1
  have a1 := fl64_upper (x := (i : ℚ) * vtkStep m) (by positivity)
  have a2 := fl64_lower (x := ((i : ℚ) + 1) * vtkStep m) (by positivity)
  have a3 := fl64_lower (x := (i : ℚ) * vtkStep m) (by positivity)
  refine ⟨?_, ?_, ?_⟩
  · refine lt_of_le_of_lt a1 ?_
    have h1 : (i : ℚ) * vtkStep m ≤ (m - 1) * vtkStep m := mul_le_mul_of_nonneg_right (by linarith) s0.le
    have h2 : vtkStep m * m * m ≥ (1 - 1 / 2 ^ 53) * m := by nlinarith
    have h3 : vtkStep m ≥ 1 / 2 ^ 51 := by
      have : 1 / 2 ^ 51 * (m : ℚ) ≤ vtkStep m * m := by
        refine le_trans ?_ s1
        have : 1 / 2 ^ 51 * (m : ℚ) ≤ 1 / 2 ^ 51 * 2 ^ 50 := mul_le_mul_of_nonneg_left hmq (by norm_num)
        refine this.trans (by norm_num)
      exact le_of_mul_le_mul_right this hm0
    have h4 : (i : ℚ) * vtkStep m ≤ 1 + 1 / 2 ^ 53 - 1 / 2 ^ 51 := by linarith
    calc (1 + 1 / 2 ^ 53) * ((i : ℚ) * vtkStep m) ≤ (1 + 1 / 2 ^ 53) * (1 + 1 / 2 ^ 53 - 1 / 2 ^ 51) :=
          mul_le_mul_of_nonneg_left h4 (by norm_num)
      _ < 1 := by norm_num
  · refine lt_of_le_of_lt a1 (lt_of_lt_of_le ?_ (by simpa [vtkParam] using a2))
    rw [← mul_assoc, ← mul_assoc]
    refine mul_lt_mul_of_pos_right ?_ s0
    have : (i : ℚ) ≤ 2 ^ 50 := by linarith
    norm_num at this ⊢
    linarith
  · have hx : (i : ℚ) * vtkStep m = (i : ℚ) / m * (vtkStep m * m) := by field_simp
    have hq : (0 : ℚ) ≤ (i : ℚ) / m := by positivity
    rw [hx] at a1 a3
    have u1 : (i : ℚ) / m * (vtkStep m * m) ≤ (i : ℚ) / m * (1 + 1 / 2 ^ 53) := mul_le_mul_of_nonneg_left s2 hq
    have l1 : (i : ℚ) / m * (1 - 1 / 2 ^ 53) ≤ (i : ℚ) / m * (vtkStep m * m) := mul_le_mul_of_nonneg_left s1 hq
    have e : vtkParam m i = fl64 ((i : ℚ) / m * (vtkStep m * m)) := by rw [vtkParam, hx]
    rw [e, abs_le]
    constructor
    · have : (1 - 1 / 2 ^ 53) * ((i : ℚ) / m * (1 - 1 / 2 ^ 53)) ≤ fl64 ((i : ℚ) / m * (vtkStep m * m)) :=
        (mul_le_mul_of_nonneg_left l1 (by norm_num)).trans a3
      have c : (1 - 1 / 2 ^ 53 : ℚ) * (1 - 1 / 2 ^ 53) ≥ 1 - 1 / 2 ^ 51 := by norm_num
      have := mul_le_mul_of_nonneg_left c hq
      nlinarith
    · have : fl64 ((i : ℚ) / m * (vtkStep m * m)) ≤ (1 + 1 / 2 ^ 53) * ((i : ℚ) / m * (1 + 1 / 2 ^ 53)) :=
        a1.trans (mul_le_mul_of_nonneg_left u1 (by norm_num))
      have c : (1 + 1 / 2 ^ 53 : ℚ) * (1 + 1 / 2 ^ 53) ≤ 1 + 1 / 2 ^ 51 := by norm_num
      have := mul_le_mul_of_nonneg_left c hq
      nlinarith

theorem generateUniformFl_eq {p n : ℕ} (h : p < n) : generateUniformFl fl64 p n = .ok (zeros p ++
    (List.range (n - p + 1)).map (fun i => if i = n - p then 1 else vtkParam (n - p) i) ++ ones p) := by
  unfold generateUniformFl linspace01Fl
  dsimp only
  rw [if_neg (by omega), if_neg (by omega), ok_bind]
  have e : ((n : ℤ) + p + 1 - 2 * p).toNat = n - p + 1 := by omega
  rw [e]
  congr 3
  refine List.map_congr_left fun i _ => ?_
  have e2 : (((n : ℤ) + p + 1 - 2 * p : ℤ) : ℚ) - 1 = ((n - p : ℕ) : ℚ) := by
    rw [Nat.cast_sub h.le]; push_cast; ring
  rw [e2]
  by_cases hi : i = n - p
  · rw [if_pos (by omega), if_pos hi]
  · rw [if_neg (by omega), if_neg hi]; rfl

theorem midFl_id {K : Type} [Field K] [LinearOrder K] [IsStrictOrderedRing K] (l r : K) :
    midFl id l r = (l + r) / 2 := by
  unfold midFl; simp only [id]; ring

end PySpline
