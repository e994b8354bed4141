import Verif.Lemmas.Cutoff
import Verif.Lemmas.Fitting
import Verif.Lemmas.FittingAux
import Verif.Lemmas.RoundedSolve

/-!
# `linear_fit_fixed` with the cutoff
-/

set_option linter.unusedSectionVars false

namespace PySpline

open Spec Finset

variable {K : Type} [Field K] [LinearOrder K] [IsStrictOrderedRing K]

/-- Young's inequality for all parameters is the triangle inequality. -/
theorem le_add_sq_of_young {X a d e : K} (hd : 0 ≤ d) (he : 0 ≤ e) (ha : a ≤ d ^ 2)
    (h : ∀ θ, 0 < θ → X ≤ (1 + θ) * a + (1 + 1 / θ) * e ^ 2) : X ≤ (d + e) ^ 2 := by
  have h' : ∀ θ, 0 < θ → X ≤ (1 + θ) * d ^ 2 + (1 + 1 / θ) * e ^ 2 := fun θ hθ =>
    (h θ hθ).trans (by have := mul_le_mul_of_nonneg_left ha (show 0 ≤ 1 + θ by linarith); linarith)
  rcases hd.eq_or_lt with rfl | hd
  · refine le_of_forall_pos_le_add fun t ht => ?_
    have hp : 0 < (e ^ 2 + 1) / t := by positivity
    have := h' _ hp
    have h3 : 1 / ((e ^ 2 + 1) / t) * e ^ 2 ≤ t := by
      rw [one_div_div, div_mul_eq_mul_div, div_le_iff₀ (by positivity)]
      nlinarith
    nlinarith
  · rcases he.eq_or_lt with rfl | he
    · refine le_of_forall_pos_le_add fun t ht => ?_
      have hp : 0 < t / d ^ 2 := by positivity
      have := h' _ hp
      have h3 : t / d ^ 2 * d ^ 2 = t := div_mul_cancel₀ _ (by positivity)
      nlinarith
    · have := h' (e / d) (by positivity)
      have e1 : (1 + e / d) * d ^ 2 + (1 + 1 / (e / d)) * e ^ 2 = (d + e) ^ 2 := by
        field_simp
        ring
      rwa [e1] at this

/-- What `linear_fit_fixed` computes with the cutoff `δ`. -/
structure CutoffFit (δ : K) (F : ℕ → Bool) (R : ℕ → ℕ → K) (m n : ℕ) (Q P x : ℕ → K) : Prop where
  fixed : ∀ i < n, F i = true → x i = P i
  near : ∀ G z d e, (∀ y, (∀ i < n, F i = true → y i = 0) → energy R m n y ≤ G * ∑ i ∈ range n, y i ^ 2) →
    (∀ i < n, F i = true → z i = P i) → 0 ≤ d → 0 ≤ e → resid R m n Q z ≤ d ^ 2 →
    δ ^ 2 * G * (∑ i ∈ range n, if F i then 0 else z i ^ 2) ≤ e ^ 2 → resid R m n Q x ≤ (d + e) ^ 2
  bound : ∀ y, (∀ i < n, F i = true → y i = 0) → δ ^ 2 * energy R m n y * (∑ i ∈ range n, if F i then 0 else x i ^ 2)
    ≤ resid R m n Q (fun i => if F i then P i else 0) * ∑ i ∈ range n, y i ^ 2
  small : ∀ z, (∀ i < n, F i = true → z i = P i) →
    (∀ z', (∀ i < n, F i = true → z' i = P i) → resid R m n Q z ≤ resid R m n Q z') →
    (∑ i ∈ range n, if F i then 0 else x i ^ 2) ≤ ∑ i ∈ range n, if F i then 0 else z i ^ 2
  exact : ∀ γ G, (∀ y, (∀ i < n, F i = true → y i = 0) → energy R m n y ≤ G * ∑ i ∈ range n, y i ^ 2) →
    (∀ y, (∀ i < n, F i = true → y i = 0) → γ * ∑ i ∈ range n, y i ^ 2 ≤ energy R m n y) → δ ^ 2 * G < γ →
    ∀ z, (∀ i < n, F i = true → z i = P i) → resid R m n Q x ≤ resid R m n Q z

theorem fixedSumFl_id (F : ℕ → Bool) (R P : ℕ → K) (n : ℕ) :
    fixedSumFl id F R P n = ∑ i ∈ range n, if F i then R i * P i else 0 := by
  induction n with
  | zero => rfl
  | succ n ih =>
    rw [sum_range_succ, ← ih]
    conv_lhs => unfold fixedSumFl
    split_ifs
    · rfl
    · rw [add_zero]

theorem resid_congr {R : ℕ → ℕ → K} {m n : ℕ} {Q x y : ℕ → K} (h : ∀ i < n, x i = y i) :
    resid R m n Q x = resid R m n Q y := by
  unfold resid matVec
  refine sum_congr rfl fun r _ => ?_
  rw [sum_congr rfl fun i hi => by rw [h i (mem_range.1 hi)]]

theorem linearFitFixed_cutoff {ε : K} {ls : ℕ → List (List K) → List K → List K} (hls : IsCutoffLstsq ε ls)
    {R : List (List K)} {Q P : List K} {fixed : List Bool} {m n : ℕ} (hQ : Q.length = m) (hP : P.length = n)
    (hR : Shape R m n) (hf : fixed.length = n) :
    Returns (linearFitFixed ls R Q P fixed) fun x => x.length = n ∧
      CutoffFit (ε * (max m (corank (fun i => fixed.getD i false) n) : ℕ)) (fun i => fixed.getD i false)
        (fun r i => at2 R r i 0) m n (fun r => Q.getD r 0) (fun i => P.getD i 0) fun i => x.getD i 0 := by
  have hid : linearFitFixed ls R Q P fixed = linearFitFixedFl id ls R Q P fixed := by
    unfold linearFitFixedFl linearFitFixed
    simp only [List.map_id, id]
  rw [hid]
  subst hQ hP
  refine (linearFitFixedFl_reduce hls.length hR hf).mono ?_
  rintro x ⟨x1, x2, x3⟩
  refine ⟨x1, ?_⟩
  generalize hm : Q.length = m at *
  generalize hn : P.length = n at *
  rcases x3 with x3 | ⟨Rfree, b, hAl, hbl, hrow, hx, hfree, hb⟩
  · have hall : ∀ z : ℕ → K, (∀ i < n, fixed.getD i false = true → z i = P.getD i 0) → ∀ i < n, x.getD i 0 = z i :=
      fun z hz i hi => by rw [x2 i hi (x3 i hi), hz i hi (x3 i hi)]
    have hzero : ∀ w : ℕ → K, (∑ i ∈ range n, if fixed.getD i false then 0 else w i ^ 2) = 0 := fun w =>
      sum_eq_zero fun i hi => by rw [if_pos (x3 i (mem_range.1 hi))]
    refine ⟨x2, fun G z d e _ hz hd he h1 _ => ?_, fun y hy => ?_, fun z hz _ => ?_, fun γ G _ _ _ z hz => ?_⟩
    · rw [resid_congr (hall z hz)]
      nlinarith
    · rw [hzero, mul_zero]
      exact mul_nonneg (sum_nonneg fun _ _ => sq_nonneg _) (sum_nonneg fun _ _ => sq_nonneg _)
    · rw [hzero, hzero]
    · rw [resid_congr (hall z hz)]
  obtain ⟨v, hv, hval⟩ := hls.value _ Rfree b hAl hrow
  have hRl : Rfree.length = m := by omega
  rw [hRl] at hv hval
  set F : ℕ → Bool := fun i => fixed.getD i false with hF
  set k := corank F n with hk
  set A' : ℕ → ℕ → K := fun r t => at2 Rfree r t 0 with hA'
  set b' : ℕ → K := fun r => b.getD r 0 with hb'
  set δ : K := ε * (max m k : ℕ) with hδ
  set sol := cutoffSolution δ A' m k v b' with hsol
  have hxs : ∀ i < n, F i = false → sol (corank F i) = x.getD i 0 := fun i hi hFi => by
    rw [hx i hi hFi, hval _ (corank_lt F hi hFi)]
  -- rows of the reduced system
  have hmv : ∀ w y : ℕ → K, (∀ i < n, F i = false → w (corank F i) = y i) → ∀ r < m, matVec A' k w r
      = ∑ i ∈ range n, if F i then 0 else at2 R r i 0 * y i := by
    intro w y hw r hr
    unfold matVec
    rw [hk, sum_corank]
    refine sum_congr rfl fun i hi => ?_
    cases hFi : F i with
    | true => rfl
    | false =>
      simp only [Bool.false_eq_true, if_false]
      rw [hw i (mem_range.1 hi) hFi, hA']
      dsimp only
      rw [hfree i (mem_range.1 hi) hFi r hr]
  have hsq : ∀ w y : ℕ → K, (∀ i < n, F i = false → w (corank F i) = y i) →
      ∑ t ∈ range k, w t ^ 2 = ∑ i ∈ range n, if F i then 0 else y i ^ 2 := by
    intro w y hw
    rw [hk, sum_corank]
    refine sum_congr rfl fun i hi => ?_
    cases hFi : F i with
    | true => rfl
    | false => simp only [Bool.false_eq_true, if_false]; rw [hw i (mem_range.1 hi) hFi]
  have hen : ∀ w y : ℕ → K, (∀ i < n, F i = false → w (corank F i) = y i) → (∀ i < n, F i = true → y i = 0) →
      energy A' m k w = energy (fun r i => at2 R r i 0) m n y := by
    intro w y hw hy
    unfold energy
    refine sum_congr rfl fun r hr => ?_
    rw [hmv w y hw r (mem_range.1 hr)]
    unfold matVec
    congr 1
    refine sum_congr rfl fun i hi => ?_
    split_ifs with hFi
    · rw [hy i (mem_range.1 hi) hFi, mul_zero]
    · rfl
  have hsq0 : ∀ y : ℕ → K, (∀ i < n, F i = true → y i = 0) →
      (∑ i ∈ range n, if F i then 0 else y i ^ 2) = ∑ i ∈ range n, y i ^ 2 := by
    intro y hy
    refine sum_congr rfl fun i hi => ?_
    split_ifs with hFi
    · rw [hy i (mem_range.1 hi) hFi, zero_pow two_ne_zero]
    · rfl
  have hre : ∀ w y : ℕ → K, (∀ i < n, F i = false → w (corank F i) = y i) → (∀ i < n, F i = true → y i = P.getD i 0) →
      resid A' m k b' w = resid (fun r i => at2 R r i 0) m n (fun r => Q.getD r 0) y := by
    intro w y hw hy
    unfold resid
    refine sum_congr rfl fun r hr => ?_
    rw [hmv w y hw r (mem_range.1 hr), hb']
    dsimp only
    rw [hb r (mem_range.1 hr), fixedSumFl_id]
    have : matVec (fun r i => at2 R r i 0) n y r = (∑ i ∈ range n, if F i then 0 else at2 R r i 0 * y i)
        + ∑ i ∈ range n, if F i then at2 R r i 0 * P.getD i 0 else 0 := by
      unfold matVec
      rw [← sum_add_distrib]
      refine sum_congr rfl fun i hi => ?_
      split_ifs with hFi
      · rw [hy i (mem_range.1 hi) hFi, zero_add]
      · rw [add_zero]
    rw [this]
    simp only [id]
    ring
  -- every vector of the reduced system comes from a free vector
  have hlift : ∀ w : ℕ → K, ∃ y : ℕ → K, (∀ i < n, F i = false → w (corank F i) = y i) ∧ ∀ i < n, F i = true → y i = 0 :=
    fun w => ⟨fun i => if F i then 0 else w (corank F i), fun i _ hFi => by simp [hFi], fun i _ hFi => by simp [hFi]⟩
  have hup : ∀ G, (∀ y, (∀ i < n, F i = true → y i = 0) →
      energy (fun r i => at2 R r i 0) m n y ≤ G * ∑ i ∈ range n, y i ^ 2) →
      ∀ w, energy A' m k w ≤ G * ∑ t ∈ range k, w t ^ 2 := by
    intro G hG w
    obtain ⟨y, h1, h2⟩ := hlift w
    rw [hen w y h1 h2, hsq w y h1, hsq0 y h2]
    exact hG y h2
  have hxr : resid A' m k b' sol = resid (fun r i => at2 R r i 0) m n (fun r => Q.getD r 0) fun i => x.getD i 0 :=
    hre sol _ hxs x2
  refine ⟨x2, fun G z d e hG hz hd he h1 h2 => ?_, fun y hy => ?_, fun z hz hmin => ?_, fun γ G hG hγ hlt z hz => ?_⟩
  · obtain ⟨w, hw⟩ := exists_corank F z n
    rw [← hxr]
    refine le_add_sq_of_young hd he h1 fun θ hθ => ?_
    refine (hv.cutoff_near hθ b' (hup G hG) w).trans ?_
    rw [hre w z hw hz, hsq w z hw]
    have : 0 ≤ 1 + 1 / θ := by positivity
    linarith [mul_le_mul_of_nonneg_left h2 this]
  · obtain ⟨w, hw⟩ := exists_corank F y n
    have := hv.cutoff_bound (δ := δ) b' w
    rw [hen w y hw hy, hsq w y hw, hsq0 y hy, hsq sol (fun i => x.getD i 0) hxs] at this
    refine this.trans (mul_le_mul_of_nonneg_right (le_of_eq ?_) (sum_nonneg fun _ _ => sq_nonneg _))
    rw [← hre (fun _ => 0) (fun i => if F i then P.getD i 0 else 0) (fun i _ hFi => by simp [hFi])
      (fun i _ hFi => by simp [hFi])]
    unfold resid matVec
    simp
  · obtain ⟨w, hw⟩ := exists_corank F z n
    have := hv.cutoff_small (δ := δ) b' w fun z' => by
      rw [hre w z hw hz, hre z' (fun i => if F i then P.getD i 0 else z' (corank F i)) (fun i _ hFi => by simp [hFi])
        (fun i _ hFi => by simp [hFi])]
      exact hmin _ fun i _ hFi => by simp [hFi]
    rwa [hsq w z hw, hsq sol (fun i => x.getD i 0) hxs] at this
  · obtain ⟨w, hw⟩ := exists_corank F z n
    rw [← hxr, ← hre w z hw hz]
    refine hv.cutoff_optimal b' (fun i hi => Or.inr fun j hj => ?_) w
    have e1 : ∀ i < k, ∑ t ∈ range k, v i t ^ 2 = 1 := fun i hi => by
      rw [← hv.unit i hi]; exact sum_congr rfl fun _ _ => sq _
    have u1 := hup G hG (v j)
    rw [e1 j (mem_range.1 hj), mul_one] at u1
    obtain ⟨y, h1, h2⟩ := hlift (v i)
    have l1 := hγ y h2
    rw [← hsq0 y h2, ← hsq (v i) y h1, e1 i hi, mul_one, ← hen (v i) y h1 h2] at l1
    have := mul_le_mul_of_nonneg_left u1 (sq_nonneg δ)
    linarith

/-- A fit with cutoff depends on the matrix, the mask and the control points in range only. -/
theorem CutoffFit.congr {δ : K} {F F' : ℕ → Bool} {R R' : ℕ → ℕ → K} {m n : ℕ} {Q Q' P P' x x' : ℕ → K}
    (h : CutoffFit δ F R m n Q P x) (hF : ∀ i < n, F i = F' i) (hR : ∀ r < m, ∀ i < n, R r i = R' r i)
    (hQ : ∀ r < m, Q r = Q' r) (hP : ∀ i < n, P i = P' i) (hx : ∀ i < n, x i = x' i) :
    CutoffFit δ F' R' m n Q' P' x' := by
  have hmv : ∀ (y : ℕ → K), ∀ r < m, matVec R' n y r = matVec R n y r := fun y r hr =>
    sum_congr rfl fun i hi => by rw [hR r hr i (mem_range.1 hi)]
  have hen : ∀ y : ℕ → K, energy R' m n y = energy R m n y := fun y =>
    sum_congr rfl fun r hr => by rw [hmv y r (mem_range.1 hr)]
  have hre : ∀ y : ℕ → K, resid R' m n Q' y = resid R m n Q y := fun y =>
    sum_congr rfl fun r hr => by rw [hmv y r (mem_range.1 hr), hQ r (mem_range.1 hr)]
  have hs : ∀ y : ℕ → K, (∑ i ∈ range n, if F' i then 0 else y i ^ 2) = ∑ i ∈ range n, if F i then 0 else y i ^ 2 :=
    fun y => sum_congr rfl fun i hi => by rw [hF i (mem_range.1 hi)]
  have hsx : (∑ i ∈ range n, if F' i then 0 else x' i ^ 2) = ∑ i ∈ range n, if F i then 0 else x i ^ 2 :=
    sum_congr rfl fun i hi => by rw [hF i (mem_range.1 hi), hx i (mem_range.1 hi)]
  have hfr : ∀ y : ℕ → K, (∀ i < n, F i = true → y i = 0) ↔ ∀ i < n, F' i = true → y i = 0 := fun y =>
    forall₂_congr fun i hi => by rw [hF i hi]
  have hag : ∀ y : ℕ → K, (∀ i < n, F i = true → y i = P i) ↔ ∀ i < n, F' i = true → y i = P' i := fun y =>
    forall₂_congr fun i hi => by rw [hF i hi, hP i hi]
  have hrx : resid R' m n Q' x' = resid R m n Q x := by rw [hre, resid_congr fun i hi => (hx i hi).symm]
  refine ⟨fun i hi hFi => ?_, fun G z d e hG hz hd he h1 h2 => ?_, fun y hy => ?_, fun z hz hmin => ?_,
    fun γ G hG hγ hlt z hz => ?_⟩
  · rw [← hx i hi, ← hP i hi]
    exact h.fixed i hi (by rw [hF i hi]; exact hFi)
  · rw [hrx]
    rw [hre] at h1
    rw [hs] at h2
    exact h.near G z d e (fun y hy => by rw [← hen]; exact hG y ((hfr y).1 hy)) ((hag z).2 hz) hd he h1 h2
  · rw [hen, hsx, hre, resid_congr (y := fun i => if F i then P i else 0) fun i hi => by rw [hF i hi, hP i hi]]
    exact h.bound y ((hfr y).2 hy)
  · rw [hsx, hs]
    exact h.small z ((hag z).2 hz) fun z' hz' => by rw [← hre, ← hre]; exact hmin z' ((hag z').1 hz')
  · rw [hrx, hre]
    exact h.exact γ G (fun y hy => by rw [← hen]; exact hG y ((hfr y).1 hy))
      (fun y hy => by rw [← hen]; exact hγ y ((hfr y).1 hy)) hlt z ((hag z).2 hz)

/-- Rows of nonnegative weights that sum to one do not enlarge the squares. -/
theorem energy_le_of_weights {R : ℕ → ℕ → K} {m n : ℕ} (h0 : ∀ r < m, ∀ i < n, 0 ≤ R r i)
    (h1 : ∀ r < m, ∑ i ∈ range n, R r i = 1) (y : ℕ → K) : energy R m n y ≤ m * ∑ i ∈ range n, y i ^ 2 := by
  have : ∀ r ∈ range m, matVec R n y r ^ 2 ≤ ∑ i ∈ range n, y i ^ 2 := by
    intro r hr
    have hr := mem_range.1 hr
    have hle : ∀ i < n, R r i ≤ 1 := fun i hi => by
      rw [← h1 r hr]
      exact single_le_sum (f := fun i => R r i) (fun i hi => h0 r hr i (mem_range.1 hi)) (mem_range.2 hi)
    have := sum_sq_le_sum_mul_sum_of_sq_le_mul (range n) (r := fun i => R r i * y i) (f := fun i => R r i)
      (g := fun i => R r i * y i ^ 2) (fun i hi => h0 r hr i (mem_range.1 hi))
      (fun i hi => mul_nonneg (h0 r hr i (mem_range.1 hi)) (sq_nonneg _)) (fun i _ => le_of_eq (by ring))
    rw [h1 r hr, one_mul] at this
    refine this.trans (sum_le_sum fun i hi => ?_)
    have := mul_le_mul_of_nonneg_right (hle i (mem_range.1 hi)) (sq_nonneg (y i))
    linarith
  refine (sum_le_sum this).trans (le_of_eq ?_)
  rw [sum_const, card_range, nsmul_eq_mul]

theorem sum_interior (g : ℕ → K) (n : ℕ) :
    (∑ i ∈ range n, if decide (i = 0 ∨ i + 1 = n) then 0 else g i) = ∑ i ∈ Ico 1 (n - 1), g i := by
  rw [← sum_filter_add_sum_filter_not (range n) (fun i => i = 0 ∨ i + 1 = n)]
  rw [sum_eq_zero fun i hi => by rw [if_pos (by simpa using (mem_filter.1 hi).2)], zero_add]
  have : (range n).filter (fun i => ¬(i = 0 ∨ i + 1 = n)) = Ico 1 (n - 1) := by
    ext i
    simp only [mem_filter, mem_range, mem_Ico]
    omega
  rw [this]
  refine sum_congr rfl fun i hi => if_neg ?_
  have := mem_Ico.1 hi
  simp only [decide_eq_true_eq]
  omega

theorem corank_interior {F : ℕ → Bool} {n : ℕ} (h : ∀ i < n, F i = decide (i = 0 ∨ i + 1 = n)) :
    corank F n = n - 2 := by
  have e : (∑ i ∈ range n, if F i then 0 else (1 : ℚ)) = ∑ i ∈ Ico 1 (n - 1), 1 := by
    rw [← sum_interior]
    exact sum_congr rfl fun i hi => by rw [h i (mem_range.1 hi)]
  have := sum_corank F (fun _ => (1 : ℚ)) n
  rw [e] at this
  simp only [sum_const, card_range, Nat.card_Ico, nsmul_eq_mul, mul_one] at this
  have := Nat.cast_injective (R := ℚ) this
  omega

theorem sum_interior_grid (g : ℕ → K) (nu nv : ℕ) {F : ℕ → Bool} (h : ∀ i < nu, ∀ j < nv, F (i * nv + j)
    = decide (i = 0 ∨ i + 1 = nu ∨ j = 0 ∨ j + 1 = nv)) :
    (∑ t ∈ range (nu * nv), if F t then 0 else g t)
      = ∑ i ∈ Ico 1 (nu - 1), ∑ j ∈ Ico 1 (nv - 1), g (i * nv + j) := by
  rw [sum_grid, ← sum_interior]
  refine sum_congr rfl fun i hi => ?_
  by_cases hb : i = 0 ∨ i + 1 = nu
  · rw [if_pos (decide_eq_true hb)]
    refine sum_eq_zero fun j hj => ?_
    rw [h i (mem_range.1 hi) j (mem_range.1 hj), if_pos (decide_eq_true (by tauto))]
  · rw [if_neg (by simpa using hb), ← sum_interior]
    refine sum_congr rfl fun j hj => ?_
    rw [h i (mem_range.1 hi) j (mem_range.1 hj)]
    have : (i = 0 ∨ i + 1 = nu ∨ j = 0 ∨ j + 1 = nv) ↔ (j = 0 ∨ j + 1 = nv) := by tauto
    simp only [this]

theorem corank_interior_grid {F : ℕ → Bool} {nu nv : ℕ} (h : ∀ i < nu, ∀ j < nv, F (i * nv + j)
    = decide (i = 0 ∨ i + 1 = nu ∨ j = 0 ∨ j + 1 = nv)) : corank F (nu * nv) = (nu - 2) * (nv - 2) := by
  have := sum_corank F (fun _ => (1 : ℚ)) (nu * nv)
  rw [sum_interior_grid _ nu nv h] at this
  simp only [sum_const, card_range, Nat.card_Ico, nsmul_eq_mul, mul_one] at this
  have := Nat.cast_injective (R := ℚ) (this.trans (Nat.cast_mul _ _).symm)
  rw [this, Nat.sub_sub, Nat.sub_sub]

end PySpline
