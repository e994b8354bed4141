import Verif.Lemmas.ConvergenceSurf
import Verif.Lemmas.Repelling

/-!
# Local convergence on surfaces over the real numbers
-/

namespace PySpline

/-- Near `s` the functions `D (a+1) b` and `D a (b+1)` are the partial derivatives of `D a b`, up to order two. -/
def PartialDers (D : ℕ → ℕ → ℝ → ℝ → List ℝ) (s : ℝ × ℝ) (R : ℝ) : Prop :=
  ∀ a b, a + b ≤ 1 → ∀ k < 3, ∀ x, InUnit x → gap x s ≤ R →
    HasDerivWithinAt (fun t => (D a b t x.2).getD k 0) ((D (a + 1) b x.1 x.2).getD k 0) (Set.Icc 0 1) x.1 ∧
    HasDerivWithinAt (fun t => (D a b x.1 t).getD k 0) ((D a (b + 1) x.1 x.2).getD k 0) (Set.Icc 0 1) x.2

theorem abs_sub_le_of_deriv {g g' : ℝ → ℝ} {a b M c : ℝ} (ha : 0 ≤ a ∧ a ≤ 1) (hb : 0 ≤ b ∧ b ≤ 1)
    (hd : ∀ t ∈ Set.uIcc a b, HasDerivWithinAt g (g' t) (Set.Icc 0 1) t) (hM : ∀ t ∈ Set.uIcc a b, |g' t - c| ≤ M) :
    |g b - g a - c * (b - a)| ≤ M * |b - a| := by
  have hsub : Set.uIcc a b ⊆ Set.Icc (0 : ℝ) 1 := Set.uIcc_subset_Icc ha hb
  have h1 : ∀ t ∈ Set.uIcc a b, HasDerivWithinAt (fun t => g t - c * t) (g' t - c) (Set.uIcc a b) t := by
    intro t ht
    have := ((hd t ht).mono hsub).sub ((hasDerivWithinAt_id t (Set.uIcc a b)).const_mul c)
    exact (this.congr_deriv (by rw [mul_one])).congr (fun _ _ => rfl) rfl
  have := (convex_uIcc a b).norm_image_sub_le_of_norm_hasDerivWithin_le h1 hM Set.left_mem_uIcc Set.right_mem_uIcc
  rw [Real.norm_eq_abs, Real.norm_eq_abs] at this
  have e : g b - g a - c * (b - a) = g b - c * b - (g a - c * a) := by ring
  rw [e]
  exact this

/-! ## The parabolic cylinder -/

/-- Points at the distance `d √(1 + 0.198²)` above `(401/1000, 2/5)`. -/
noncomputable def troughPt (d : ℝ) : List ℝ := [401/1000 + 198/1000 * d, 2/5, (99/1000) ^ 2 + d]

theorem trough_partials (s : ℝ × ℝ) (R : ℝ) : PartialDers troughDers s R := by
  intro a b hab k hk x _ _
  have hsq : HasDerivWithinAt (fun t : ℝ => (t - 1/2) ^ 2) (2 * (x.1 - 1/2)) (Set.Icc 0 1) x.1 := by
    have h1 := (hasDerivWithinAt_id x.1 (Set.Icc (0 : ℝ) 1)).sub_const (1/2 : ℝ)
    have := h1.mul h1
    refine (this.congr_deriv ?_).congr (fun t _ => ?_) ?_
    · simp only [id]; ring
    · simp only [id, Pi.mul_apply]; ring
    · simp only [id, Pi.mul_apply]; ring
  have hlin : HasDerivWithinAt (fun t : ℝ => 2 * (t - 1/2)) 2 (Set.Icc 0 1) x.1 := by
    have h1 := ((hasDerivWithinAt_id x.1 (Set.Icc (0 : ℝ) 1)).sub_const (1/2 : ℝ)).const_mul 2
    exact (h1.congr_deriv (by norm_num)).congr (fun _ _ => rfl) rfl
  have hid : HasDerivWithinAt (fun t : ℝ => t) 1 (Set.Icc 0 1) x.1 := hasDerivWithinAt_id _ _
  have hid' : HasDerivWithinAt (fun t : ℝ => t) 1 (Set.Icc 0 1) x.2 := hasDerivWithinAt_id _ _
  have hc : ∀ c y : ℝ, HasDerivWithinAt (fun _ : ℝ => c) 0 (Set.Icc 0 1) y := fun c y => hasDerivWithinAt_const _ _ _
  obtain ⟨rfl, rfl⟩ | ⟨rfl, rfl⟩ | ⟨rfl, rfl⟩ : (a = 0 ∧ b = 0) ∨ (a = 1 ∧ b = 0) ∨ (a = 0 ∧ b = 1) := by omega
  all_goals interval_cases k
  all_goals first
    | exact ⟨hid, hc _ _⟩ | exact ⟨hc _ _, hid'⟩ | exact ⟨hsq, hc _ _⟩ | exact ⟨hlin, hc _ _⟩ | exact ⟨hc _ _, hc _ _⟩

theorem troughPt_guess {nm : Num ℝ} (hE : Euclidean nm) (norm : List ℝ → ℝ) {d : ℝ} (hd : 0 ≤ d ∧ d ≤ 1/1000) :
    initialGuessSurf nm (exTrough.like norm) (troughPt d) = .ok (2/5, 2/5) := by
  have gm : ∀ {a : ℕ}, a < 6 → (0 : ℝ) ≤ (a : ℝ) / 5 ∧ (a : ℝ) / 5 ≤ 1 := by
    intro a ha
    interval_cases a <;> norm_num
  obtain ⟨a, ha, b, hb, h0, h1, -⟩ := initial_guess_surf_nearest nm (exTrough.like norm) (troughPt d)
    (show 0 < 3 by decide) (show 0 < 3 by decide) (fun a b => [(a : ℝ) / 5, (b : ℝ) / 5, ((a : ℝ) / 5 - 1/2) ^ 2]) fun a ha b hb => ⟨by
      have := (exTrough_smooth norm).pt _ _ (gm ha).1 (gm ha).2 (gm hb).1 (gm hb).2
      have e : (((2 * (exTrough.like norm).numU : ℕ) : ℝ) - 1) = 5 := by norm_num [Surface.like, exTrough]
      have e' : (((2 * (exTrough.like norm).numV : ℕ) : ℝ) - 1) = 5 := by norm_num [Surface.like, exTrough]
      rw [e, e', this]
      rfl, rfl⟩
  have hd' : ∀ a b : ℕ, nm.norm (List.zipWith (· - ·) (troughPt d) [(a : ℝ) / 5, (b : ℝ) / 5, ((a : ℝ) / 5 - 1/2) ^ 2]) ^ 2
      = (401/1000 + 198/1000 * d - (a : ℝ) / 5) ^ 2 + (2/5 - (b : ℝ) / 5) ^ 2 +
        ((99/1000) ^ 2 + d - ((a : ℝ) / 5 - 1/2) ^ 2) ^ 2 := by
    intro a b
    simp only [troughPt, List.zipWith_cons_cons, List.zipWith_nil_left]
    rw [hE.sq]
  have hmin := (h1 ⟨2, show 2 < 6 by decide, 2, show 2 < 6 by decide, by
    refine lt_of_pow_lt_pow_left₀ 2 (by norm_num) ?_
    rw [hd']
    norm_num
    nlinarith [hd.1, hd.2]⟩).1 2 (show 2 < 6 by decide) 2 (show 2 < 6 by decide)
  have hsq := pow_le_pow_left₀ (hE.nonneg _ _ _) hmin 2
  rw [h0]
  have hsq' := ((hd' a b).symm.le.trans hsq).trans (hd' 2 2).le
  change a < 6 at ha
  change b < 6 at hb
  have e : (((2 * (exTrough.like norm).numU : ℕ) : ℝ) - 1) = 5 := by norm_num [Surface.like, exTrough]
  have e' : (((2 * (exTrough.like norm).numV : ℕ) : ℝ) - 1) = 5 := by norm_num [Surface.like, exTrough]
  rw [e, e']
  have hb2 : b = 2 := by
    by_contra hb2
    have h3 : (1/5 : ℝ) ^ 2 ≤ (2/5 - (b : ℝ) / 5) ^ 2 := by interval_cases b <;> first | exact absurd rfl hb2 | norm_num
    norm_num at hsq'
    nlinarith [hd.1, hd.2, sq_nonneg (401/1000 + 198/1000 * d - (a : ℝ) / 5),
      sq_nonneg ((99/1000) ^ 2 + d - ((a : ℝ) / 5 - 1/2) ^ 2)]
  have ha2 : a = 2 := by
    by_contra ha2
    have h3 : (3/20 : ℝ) ^ 2 ≤ (401/1000 + 198/1000 * d - (a : ℝ) / 5) ^ 2 := by
      interval_cases a <;> first | exact absurd rfl ha2 | (norm_num; nlinarith [hd.1, hd.2])
    norm_num at hsq'
    nlinarith [hd.1, hd.2, sq_nonneg (2/5 - (b : ℝ) / 5),
      sq_nonneg ((99/1000) ^ 2 + d - ((a : ℝ) / 5 - 1/2) ^ 2)]
  subst ha2 hb2
  norm_num

theorem trough_start : gap ((2/5 : ℝ), (2/5 : ℝ)) (401/1000, 2/5) = 1/1000 := by
  unfold gap
  norm_num [abs_of_nonneg, abs_of_nonpos]

end PySpline
