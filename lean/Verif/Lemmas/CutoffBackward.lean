import Verif.Lemmas.CutoffFit
import Verif.Lemmas.BroadcastAux
import Verif.Model.RoundedSolve
import Verif.SpecSolver

/-!
# A solver with cutoff solves a nearby problem exactly
-/

set_option linter.unusedSectionVars false

namespace PySpline

open Spec Finset

variable {K : Type} [Field K] [LinearOrder K] [IsStrictOrderedRing K] {A : ℕ → ℕ → K} {m n : ℕ} {v : ℕ → ℕ → K}

/-- The part of the matrix that belongs to some of the singular vectors. -/
def part (A : ℕ → ℕ → K) (n : ℕ) (v : ℕ → ℕ → K) (S : ℕ → Prop) [DecidablePred S] (r k : ℕ) : K :=
  ∑ i ∈ range n, if S i then matVec A n (v i) r * v i k else 0

/-- A unit vector. -/
def unitVec (k i : ℕ) : K := if i = k then 1 else 0

theorem matVec_unitVec (A : ℕ → ℕ → K) {k : ℕ} (hk : k < n) (r : ℕ) : matVec A n (unitVec k) r = A r k := by
  unfold matVec unitVec
  simp only [mul_ite, mul_one, mul_zero]
  rw [sum_ite_eq', if_pos (mem_range.2 hk)]

theorem comp_unitVec (v : ℕ → ℕ → K) {k : ℕ} (hk : k < n) (i : ℕ) : comp n v (unitVec k) i = v i k := by
  unfold comp unitVec
  simp only [ite_mul, one_mul, zero_mul]
  rw [sum_ite_eq', if_pos (mem_range.2 hk)]

theorem SingularBasis.matVec_part (h : SingularBasis A m n v) (S : ℕ → Prop) [DecidablePred S] {i : ℕ} (hi : i < n)
    (r : ℕ) : matVec (part A n v S) n (v i) r = if S i then matVec A n (v i) r else 0 := by
  conv_lhs => unfold matVec
  unfold part
  simp only [sum_mul]
  rw [sum_comm]
  have : ∀ j ∈ range n, ∑ k ∈ range n, (if S j then matVec A n (v j) r * v j k else 0) * v i k
      = if j = i then (if S j then matVec A n (v j) r else 0) else 0 := by
    intro j hj
    by_cases hS : S j
    · simp only [if_pos hS, mul_assoc]
      rw [← mul_sum, h.inner (mem_range.1 hj) hi]
      split_ifs <;> simp
    · simp [if_neg hS]
  rw [sum_congr rfl this, sum_ite_eq', if_pos (mem_range.2 hi)]

theorem SingularBasis.part (h : SingularBasis A m n v) (S : ℕ → Prop) [DecidablePred S] :
    SingularBasis (part A n v S) m n v := by
  refine ⟨h.unit, h.orth, fun i hi j hj hij => ?_⟩
  by_cases hS : S i ∧ S j
  · rw [← h.image i hi j hj hij]
    refine sum_congr rfl fun r _ => ?_
    rw [h.matVec_part S hi, h.matVec_part S hj, if_pos hS.1, if_pos hS.2]
  · refine sum_eq_zero fun r _ => ?_
    rw [h.matVec_part S hi, h.matVec_part S hj]
    by_cases hi' : S i
    · rw [if_neg fun hj' => hS ⟨hi', hj'⟩, mul_zero]
    · rw [if_neg hi', zero_mul]

theorem SingularBasis.energy_part (h : SingularBasis A m n v) (S : ℕ → Prop) [DecidablePred S] {i : ℕ} (hi : i < n) :
    energy (PySpline.part A n v S) m n (v i) = if S i then energy A m n (v i) else 0 := by
  unfold energy
  by_cases hS : S i
  · rw [if_pos hS]
    exact sum_congr rfl fun r _ => by rw [h.matVec_part S hi, if_pos hS]
  · rw [if_neg hS]
    exact sum_eq_zero fun r _ => by rw [h.matVec_part S hi, if_neg hS, zero_pow two_ne_zero]

/-- The parts add up to the matrix. -/
theorem SingularBasis.part_add (h : SingularBasis A m n v) (S : ℕ → Prop) [DecidablePred S] {k : ℕ} (hk : k < n) (r : ℕ) :
    PySpline.part A n v S r k - A r k = -PySpline.part A n v (fun i => ¬S i) r k := by
  have := h.matVec_eq (unitVec k) r
  rw [matVec_unitVec A hk] at this
  rw [this]
  unfold PySpline.part
  rw [← sum_sub_distrib, ← sum_neg_distrib]
  refine sum_congr rfl fun i _ => ?_
  rw [comp_unitVec v hk]
  by_cases hS : S i
  · simp only [hS, if_true, not_true_eq_false, if_false]; ring
  · simp only [hS, if_false, not_false_eq_true, if_true]; ring

/-- The image of a unit vector is at most as long as the sum of the entries. -/
theorem SingularBasis.energy_le (h : SingularBasis A m n v) {j : ℕ} (hj : j < n) :
    energy A m n (v j) ≤ (∑ r ∈ range m, ∑ i ∈ range n, |A r i|) ^ 2 := by
  have h1 : ∀ r ∈ range m, matVec A n (v j) r ^ 2 ≤ (∑ i ∈ range n, |A r i|) ^ 2 := by
    intro r _
    refine sq_le_sq' ?_ ?_
    all_goals
      have hle : |matVec A n (v j) r| ≤ ∑ i ∈ range n, |A r i| := by
        unfold matVec
        refine (abs_sum_le_sum_abs _ _).trans (sum_le_sum fun i hi => ?_)
        rw [abs_mul]
        refine mul_le_of_le_one_right (abs_nonneg _) ?_
        have : v j i ^ 2 ≤ 1 ^ 2 := by
          rw [one_pow, ← h.unit j hj]
          refine le_trans (le_of_eq (sq _)) (single_le_sum (f := fun k => v j k * v j k) (fun k _ => mul_self_nonneg _) hi)
        exact abs_le_of_sq_le_sq this zero_le_one
    · exact neg_le_of_abs_le hle
    · exact le_of_abs_le hle
  exact (sum_le_sum h1).trans (sum_sq_le_sq_sum_of_nonneg fun r _ => sum_nonneg fun i _ => abs_nonneg _)

theorem SingularBasis.part_le (h : SingularBasis A m n v) {δ : K} (hδ : 0 ≤ δ) {r k : ℕ} (hr : r < m) (hk : k < n) :
    |PySpline.part A n v (fun i => ¬Kept δ A m n v i) r k| ≤ δ * ∑ r ∈ range m, ∑ i ∈ range n, |A r i| := by
  set T := ∑ r ∈ range m, ∑ i ∈ range n, |A r i| with hT
  have hT0 : 0 ≤ T := sum_nonneg fun r _ => sum_nonneg fun i _ => abs_nonneg _
  refine abs_le_of_sq_le_sq ?_ (mul_nonneg hδ hT0)
  set B := PySpline.part A n v (fun i => ¬Kept δ A m n v i) with hB
  have h1 : B r k ^ 2 ≤ energy B m n (unitVec k) := by
    rw [← matVec_unitVec B hk r]
    exact single_le_sum (f := fun r => matVec B n (unitVec k) r ^ 2) (fun _ _ => sq_nonneg _) (mem_range.2 hr)
  refine h1.trans ?_
  rw [(h.part (fun i => ¬Kept δ A m n v i)).energy_eq]
  have h2 : ∀ i ∈ range n, comp n v (unitVec k) i ^ 2 * energy B m n (v i) ≤ v i k * v i k * (δ * T) ^ 2 := by
    intro i hi
    rw [comp_unitVec v hk, ← sq]
    refine mul_le_mul_of_nonneg_left ?_ (sq_nonneg _)
    rw [hB, h.energy_part _ (mem_range.1 hi)]
    by_cases hK : Kept δ A m n v i
    · rw [if_neg (not_not.2 hK)]
      exact sq_nonneg _
    · rw [if_pos hK]
      unfold Kept at hK
      push Not at hK
      obtain ⟨j, hj, hle⟩ := hK
      rw [mul_pow]
      exact hle.trans (mul_le_mul_of_nonneg_left (h.energy_le (mem_range.1 hj)) (sq_nonneg _))
  refine (sum_le_sum h2).trans ?_
  rw [← sum_mul, h.inner' hk hk, if_pos rfl, one_mul]

/-- The solution with cutoff solves the problem with the part of the matrix that is kept. -/
theorem SingularBasis.part_optimal (h : SingularBasis A m n v) (δ : K) (b y : ℕ → K) :
    resid (PySpline.part A n v (Kept δ A m n v)) m n b (cutoffSolution δ A m n v b)
      ≤ resid (PySpline.part A n v (Kept δ A m n v)) m n b y := by
  set B := PySpline.part A n v (Kept δ A m n v) with hB
  have hs : ∀ i ∈ range n, energy B m n (v i) = if Kept δ A m n v i then energy A m n (v i) else 0 := fun i hi =>
    h.energy_part _ (mem_range.1 hi)
  have hkept : ∀ i ∈ range n, Kept 0 B m n v i ↔ Kept δ A m n v i := by
    intro i hi
    constructor
    · intro h0
      have h1 := h0 i hi
      rw [zero_pow two_ne_zero, zero_mul, hs i hi] at h1
      by_contra hc
      rw [if_neg hc] at h1
      exact lt_irrefl _ h1
    · intro h0 j _
      rw [zero_pow two_ne_zero, zero_mul, hs i hi, if_pos h0]
      exact Kept.pos (mem_range.1 hi) h0
  have e : ∀ k, cutoffSolution δ A m n v b k = cutoffSolution 0 B m n v b k := by
    intro k
    unfold cutoffSolution
    refine sum_congr rfl fun i hi => ?_
    by_cases hk : Kept δ A m n v i
    · have hk' := (hkept i hi).2 hk
      rw [show (if ∀ j ∈ range n, δ ^ 2 * energy A m n (v j) < energy A m n (v i) then
        (∑ r ∈ range m, matVec A n (v i) r * b r) / energy A m n (v i) * v i k else 0)
          = (∑ r ∈ range m, matVec A n (v i) r * b r) / energy A m n (v i) * v i k from if_pos hk,
        show (if ∀ j ∈ range n, (0 : K) ^ 2 * energy B m n (v j) < energy B m n (v i) then
        (∑ r ∈ range m, matVec B n (v i) r * b r) / energy B m n (v i) * v i k else 0)
          = (∑ r ∈ range m, matVec B n (v i) r * b r) / energy B m n (v i) * v i k from if_pos hk', hs i hi, if_pos hk]
      congr 2
      exact sum_congr rfl fun r _ => by rw [hB, h.matVec_part _ (mem_range.1 hi), if_pos hk]
    · have hk' := fun hc => hk ((hkept i hi).1 hc)
      exact (if_neg hk).trans (if_neg hk').symm
  rw [resid_congr fun i _ => e i]
  refine (h.part _).cutoff_optimal b (fun i hi => ?_) y
  by_cases hk : Kept δ A m n v i
  · exact Or.inr ((hkept i (mem_range.2 hi)).2 hk)
  · exact Or.inl (by rw [← hB, hs i (mem_range.2 hi), if_neg hk])

/-- For problems of at most `N` rows and columns a solver with cutoff is backward stable. -/
theorem IsCutoffLstsq.backward {ε : K} (hε : 0 ≤ ε) {ls : ℕ → List (List K) → List K → List K} (h : IsCutoffLstsq ε ls)
    (N : ℕ) : ∃ ls', BackwardStable (ε * N) ls' ∧
      ∀ n A b, A.length ≤ N → n ≤ N → ls' n A b = ls n A b := by
  obtain ⟨ls₀, h₀⟩ := exists_lstsq (K := K)
  have hN : 0 ≤ ε * (N : K) := mul_nonneg hε (Nat.cast_nonneg _)
  refine ⟨fun n A b => if A.length ≤ N ∧ n ≤ N then ls n A b else ls₀ n A b, ⟨fun n A b h1 h2 => ?_, fun n A b h1 h2 => ?_⟩,
    fun n A b h1 h2 => if_pos ⟨h1, h2⟩⟩
  · split_ifs
    · exact h.length n A b h1 h2
    · exact h₀.length n A b h1 h2
  split_ifs with hs
  · obtain ⟨v, hv, hx⟩ := h.value n A b h1 h2
    set δ : K := ε * (max A.length n : ℕ) with hδ
    have hδ0 : 0 ≤ δ := mul_nonneg hε (Nat.cast_nonneg _)
    have hδN : δ ≤ ε * N := mul_le_mul_of_nonneg_left (Nat.cast_le.2 (max_le hs.1 hs.2)) hε
    set B := PySpline.part (fun r i => at2 A r i 0) n v (Kept δ (fun r i => at2 A r i 0) A.length n v) with hB
    let A' : List (List K) := (List.range b.length).map fun r => (List.range n).map fun k => B r k
    have hA' : ∀ r < b.length, ∀ k < n, (A'.getD r []).getD k 0 = B r k := by
      intro r hr k hk
      simp [A', List.getD_eq_getElem?_getD, hr, hk]
    refine ⟨A', b, by simp [A'], fun row hr => ?_, rfl, fun r hr k hk => ?_, fun r hr => ?_, fun x => ?_⟩
    · obtain ⟨r, -, rfl⟩ := List.mem_map.1 hr
      simp
    · rw [hA' r hr k hk]
      have h3 := hv.part_add (Kept δ (fun r i => at2 A r i 0) A.length n v) hk r
      have h4 := hv.part_le hδ0 (r := r) (k := k) (by omega) hk
      rw [show B r k - (A.getD r []).getD k 0 = B r k - at2 A r k 0 from rfl, h3, abs_neg]
      rw [h1] at h4 ⊢
      exact h4.trans (mul_le_mul_of_nonneg_right hδN (sum_nonneg fun r _ => sum_nonneg fun i _ => abs_nonneg _))
    · rw [sub_self, abs_zero]
      exact mul_nonneg hN (sum_nonneg fun _ _ => abs_nonneg _)
    · have e : ∀ y : ℕ → K, sqResid A' n y b = resid B A.length n (fun r => b.getD r 0) y := by
        intro y
        rw [h1]
        unfold sqResid resid matVec
        refine sum_congr rfl fun r hr => ?_
        rw [sum_congr rfl fun i hi => by rw [hA' r (mem_range.1 hr) i (mem_range.1 hi)]]
      rw [e, e, resid_congr hx]
      exact hv.part_optimal δ _ x
  · refine ⟨A, b, h1, h2, rfl, fun r hr k hk => ?_, fun r hr => ?_, h₀.least n A b h1 h2⟩
    · rw [sub_self, abs_zero]
      exact mul_nonneg hN (sum_nonneg fun r _ => sum_nonneg fun i _ => abs_nonneg _)
    · rw [sub_self, abs_zero]
      exact mul_nonneg hN (sum_nonneg fun _ _ => abs_nonneg _)

/-! ## The fits depend on the solver for problems of their size only -/

theorem setColumn_length {M M' : List (List K)} {c : ℤ} {x : List K} (h : setColumn M c x = .ok M') :
    M'.length = M.length := by
  unfold setColumn at h
  split_ifs at h with hl
  rw [mapPy_length h, List.length_zip, hl, min_self]

theorem linearFitFixedFl_solver {fl : K → K} {ls ls' : ℕ → List (List K) → List K → List K} {R : List (List K)}
    {Q P : List K} {fixed : List Bool} (h : ∀ k M b, M.length = Q.length → k ≤ P.length → ls k M b = ls' k M b) :
    linearFitFixedFl fl ls R Q P fixed = linearFitFixedFl fl ls' R Q P fixed := by
  unfold linearFitFixedFl
  refine bind_congr_ok fun nf _ => ?_
  split_ifs
  · rfl
  refine bind_congr_ok fun st hst => ?_
  have hlen : st.1.length = Q.length := by
    refine forN_inv_of_ok (fun st => st.1.length = Q.length) hst (by simp [zeros2]) ?_
    rintro i ⟨Rf, Rx, Qf, j, k⟩ s' - - hI hs
    dsimp only at hI hs
    obtain ⟨f, -, hs⟩ := bind_eq_ok hs
    obtain ⟨col, -, hs⟩ := bind_eq_ok hs
    split_ifs at hs
    · obtain ⟨Rx', -, hs⟩ := bind_eq_ok hs
      obtain ⟨p, -, hs⟩ := bind_eq_ok hs
      obtain ⟨sum, -, hs⟩ := bind_eq_ok hs
      cases hs
      exact hI
    · obtain ⟨Rf', hR, hs⟩ := bind_eq_ok hs
      cases hs
      exact (setColumn_length hR).trans hI
  obtain ⟨Rf, Rx, Qf, j, k⟩ := st
  dsimp only at hlen ⊢
  refine bind_congr_ok fun b _ => ?_
  rw [h _ Rf _ hlen (Nat.sub_le _ _)]

theorem fitColumnsFl_solver {fl : K → K} {ls ls' : ℕ → List (List K) → List K → List K} {M data P : List (List K)}
    {fixed : List Bool} (h : ∀ k A b, A.length = data.length → k ≤ P.length → ls k A b = ls' k A b) :
    fitColumnsFl fl ls M data P fixed = fitColumnsFl fl ls' M data P fixed := by
  have key : ∀ {a b : ℤ} {q p : List K}, column data a = .ok q → column P b = .ok p →
      linearFitFixedFl fl ls M q p fixed = linearFitFixedFl fl ls' M q p fixed := fun hq hp =>
    linearFitFixedFl_solver fun k A b h1 h2 => h k A b (h1.trans (column_length hq)) (h2.trans_eq (column_length hp))
  unfold fitColumnsFl
  refine bind_congr_ok fun q hq => bind_congr_ok fun p hp => ?_
  rw [key hq hp]
  refine bind_congr_ok fun x _ => bind_congr_ok fun q hq => bind_congr_ok fun p hp => ?_
  rw [key hq hp]
  refine bind_congr_ok fun y _ => bind_congr_ok fun q hq => bind_congr_ok fun p hp => ?_
  rw [key hq hp]

theorem SingleFitCurveFl_solver {fl : K → K} {ls ls' : ℕ → List (List K) → List K → List K} {c : Curve K}
    {data : List (List K)} {r : Py (Curve K)}
    (h : ∀ k A b, A.length = data.length → k ≤ c.ctrlpts.length → ls k A b = ls' k A b) :
    SingleFitCurveFl fl ls c data r ↔ SingleFitCurveFl fl ls' c data r := by
  unfold SingleFitCurveFl
  simp only [fitColumnsFl_solver h]

theorem SingleFitSurfaceFl_solver {fl : K → K} {ls ls' : ℕ → List (List K) → List K → List K} {s : Surface K}
    {data : List (List K)} {r : Py (Surface K)}
    (h : ∀ k A b, A.length = data.length → k ≤ s.ctrlpts.length → ls k A b = ls' k A b) :
    SingleFitSurfaceFl fl ls s data r ↔ SingleFitSurfaceFl fl ls' s data r := by
  unfold SingleFitSurfaceFl
  simp only [fitColumnsFl_solver h]

end PySpline
