import Verif.Lemmas.Repelling

/-!
# C135: closest points from which `surface_inversion` moves away
-/

set_option linter.unusedSectionVars false

namespace PySpline

open Spec

/-- **C135.** On the parabolic cylinder `(u, v, (u - 1/2)²)` the point at `(1/2, 1/2)` is the only one closest to
`(1/2, 1/2, 1/4)`; the distance is `1/4`. -/
theorem trough_closest {nm : Num ℝ} (hE : Euclidean nm) {u v : ℝ} (hu : 0 ≤ u ∧ u ≤ 1) (hv : 0 ≤ v ∧ v ≤ 1) :
    ∃ q, exTrough.singlePoint u v = .ok q ∧ 1/4 ≤ nm.norm (sub3 q [1/2, 1/2, 1/4]) ∧
      (nm.norm (sub3 q [1/2, 1/2, 1/4]) = 1/4 ↔ u = 1/2 ∧ v = 1/2) := by
  refine ⟨_, (exTrough_smooth nm.norm).pt u v hu.1 hu.2 hv.1 hv.2, ?_, ?_⟩
  · simp only [troughDers, sub3, List.getD_cons_zero, List.getD_cons_succ]
    refine hE.le_norm ?_
    nlinarith [sq_nonneg (u - 1/2), sq_nonneg (v - 1/2), sq_nonneg ((u - 1/2) ^ 2)]
  · simp only [troughDers, sub3, List.getD_cons_zero, List.getD_cons_succ]
    constructor
    · intro h
      have := hE.sq (u - 1/2) (v - 1/2) ((u - 1/2) ^ 2 - 1/4)
      rw [h] at this
      have h1 : (u - 1/2) ^ 2 = 0 := by
        nlinarith [sq_nonneg (u - 1/2), sq_nonneg (v - 1/2), sq_nonneg ((u - 1/2) ^ 2)]
      have h2 : (v - 1/2) ^ 2 = 0 := by rw [h1] at this; linarith
      exact ⟨by linarith [pow_eq_zero_iff (two_ne_zero) |>.1 h1], by linarith [pow_eq_zero_iff (two_ne_zero) |>.1 h2]⟩
    · rintro ⟨rfl, rfl⟩
      refine le_antisymm (hE.norm_le (by norm_num) (by norm_num)) (hE.le_norm (by norm_num))

/-- The start values: a pair of the grid next to the centre. -/
theorem trough_guess {nm : Num ℝ} (hE : Euclidean nm) (norm : List ℝ → ℝ) :
    ∃ u0 v0 : ℝ, initialGuessSurf nm (exTrough.like norm) [1/2, 1/2, 1/4] = .ok (u0, v0) ∧
      (u0 = 2/5 ∨ u0 = 3/5) ∧ (v0 = 2/5 ∨ v0 = 3/5) := by
  have gm : ∀ {a : ℕ}, a < 6 → (0 : ℝ) ≤ (a : ℝ) / 5 ∧ (a : ℝ) / 5 ≤ 1 := by
    intro a ha
    interval_cases a <;> norm_num
  obtain ⟨a, ha, b, hb, h0, h1, -⟩ := initial_guess_surf_nearest nm (exTrough.like norm) [1/2, 1/2, 1/4]
    (show 0 < 3 by decide) (show 0 < 3 by decide) (fun a b => [(a : ℝ) / 5, (b : ℝ) / 5, ((a : ℝ) / 5 - 1/2) ^ 2]) fun a ha b hb => ⟨by
      have := (exTrough_smooth norm).pt _ _ (gm ha).1 (gm ha).2 (gm hb).1 (gm hb).2
      have e : (((2 * (exTrough.like norm).numU : ℕ) : ℝ) - 1) = 5 := by norm_num [Surface.like, exTrough]
      have e' : (((2 * (exTrough.like norm).numV : ℕ) : ℝ) - 1) = 5 := by norm_num [Surface.like, exTrough]
      rw [e, e', this]
      rfl, rfl⟩
  have hd : ∀ a b : ℕ, nm.norm (List.zipWith (· - ·) [1/2, 1/2, 1/4] [(a : ℝ) / 5, (b : ℝ) / 5, ((a : ℝ) / 5 - 1/2) ^ 2]) ^ 2
      = (1/2 - (a : ℝ) / 5) ^ 2 + (1/2 - (b : ℝ) / 5) ^ 2 + (1/4 - ((a : ℝ) / 5 - 1/2) ^ 2) ^ 2 := by
    intro a b
    simp only [List.zipWith_cons_cons, List.zipWith_nil_left]
    rw [hE.sq]
  have hmin := (h1 ⟨2, show 2 < 6 by decide, 2, show 2 < 6 by decide, by
    refine lt_of_pow_lt_pow_left₀ 2 (by norm_num) ?_
    rw [hd]
    norm_num⟩).1 2 (show 2 < 6 by decide) 2 (show 2 < 6 by decide)
  have hsq := pow_le_pow_left₀ (hE.nonneg _ _ _) hmin 2
  refine ⟨_, _, h0, ?_⟩
  have hsq' := ((hd a b).symm.le.trans hsq).trans (hd 2 2).le
  change a < 6 at ha
  change b < 6 at hb
  have e : (((2 * (exTrough.like norm).numU : ℕ) : ℝ) - 1) = 5 := by norm_num [Surface.like, exTrough]
  have e' : (((2 * (exTrough.like norm).numV : ℕ) : ℝ) - 1) = 5 := by norm_num [Surface.like, exTrough]
  rw [e, e']
  interval_cases a <;> interval_cases b <;> first | (exfalso; norm_num at hsq'; done) | norm_num

/-- **C135.** From there `surface_inversion` does not find it: with tolerances up to `1/20` and every iteration limit
from 5 on, the first parameter returned differs from `1/2` by at least `9/50`, whereas that of the initial guess
differs by `1/10`, and the point returned is farther away than the point of the initial guess. -/
theorem surface_inversion_repelled {nm : Num ℝ} (hE : Euclidean nm) (norm : List ℝ → ℝ) {eps1 eps2 : ℝ}
    (h1 : eps1 ≤ 1/20) (h2 : eps2 ≤ 1/20) {maxIter : ℤ} (hm : 5 ≤ maxIter) {fuel : ℕ} (hf : maxIter + 1 ≤ fuel) :
    ∃ x r : ℝ × ℝ, initialGuessSurf nm (exTrough.like norm) [1/2, 1/2, 1/4] = .ok x ∧ |x.1 - 1/2| = 1/10 ∧
      surfaceInversion fuel nm (exTrough.like norm) [1/2, 1/2, 1/4] eps1 eps2 maxIter = .ok r ∧
      9/50 ≤ |r.1 - 1/2| ∧
      ∃ q q', exTrough.singlePoint x.1 x.2 = .ok q ∧ exTrough.singlePoint r.1 r.2 = .ok q' ∧
        nm.norm (sub3 q [1/2, 1/2, 1/4]) < nm.norm (sub3 q' [1/2, 1/2, 1/4]) := by
  obtain ⟨u0, v0, h0, hu, hv⟩ := trough_guess hE norm
  obtain ⟨σ, hσ, eu⟩ : ∃ σ : ℝ, (σ = 1 ∨ σ = -1) ∧ u0 = 1/2 + -σ * (1/10) := by
    rcases hu with rfl | rfl
    · exact ⟨1, Or.inl rfl, by norm_num⟩
    · exact ⟨-1, Or.inr rfl, by norm_num⟩
  have hv' : |v0 - 1/2| ≤ 1/10 := by rcases hv with rfl | rfl <;> norm_num [abs_le]
  have hv01 := abs_le.1 hv'
  have hu01 : 0 ≤ u0 ∧ u0 ≤ 1 := by rcases hu with rfl | rfl <;> norm_num
  have hvv : (v0 - 1/2) ^ 2 ≤ (1/10) ^ 2 := sq_le_sq' (by linarith) (by linarith)
  have huu : (u0 - 1/2) ^ 2 = 1/100 := by rcases hu with rfl | rfl <;> norm_num
  obtain ⟨r, hr, hr2, hr3, hr4⟩ := trough_outer hE norm h1 h2 hm hf hσ hv'
  refine ⟨(u0, v0), r, h0, ?_, ?_, hr3, _, _, (exTrough_smooth nm.norm).pt u0 v0 hu01.1 hu01.2 (by linarith) (by linarith),
    (exTrough_smooth nm.norm).pt r.1 r.2 (by linarith [(abs_le.1 hr4).1]) (by linarith [(abs_le.1 hr4).2])
      (by rw [hr2]; norm_num) (by rw [hr2]; norm_num), ?_⟩
  · rcases hu with rfl | rfl <;> norm_num [abs_of_nonneg]
  · unfold surfaceInversion
    rw [h0, ok_bind]
    dsimp only
    have hi := (exTrough_smooth norm).info (u := u0) (v := v0) hu01.1 hu01.2 (by linarith) (by linarith)
    rw [hi, ok_bind]
    subst eu
    have ht : |-σ * (1/10)| ≤ 1/5 := by rcases hσ with rfl | rfl <;> norm_num [abs_le]
    rw [troughInfo_eq, trough_cond1 hE norm h1 ht hv', ok_bind, if_neg (by simp),
      trough_cond2 hE norm h2 ht ht hv' (by rcases hσ with rfl | rfl <;> norm_num [lt_abs]), ok_bind, if_neg (by simp)]
    exact hr
  · simp only [troughDers, sub3, List.getD_cons_zero, List.getD_cons_succ]
    refine lt_of_pow_lt_pow_left₀ 2 (hE.nonneg _ _ _) ?_
    rw [hE.sq, hE.sq, huu]
    have h5 : (9/50) ^ 2 ≤ (r.1 - 1/2) ^ 2 := by
      rw [← sq_abs (r.1 - 1/2)]
      exact pow_le_pow_left₀ (by norm_num) hr3 2
    nlinarith [sq_nonneg (r.2 - 1/2)]

/-- With the default arguments. -/
example {nm : Num ℝ} (hE : Euclidean nm) : ∃ r : ℝ × ℝ,
    surfaceInversionD nm (exTrough.like nm.norm) [1/2, 1/2, 1/4] = .ok r ∧ 9/50 ≤ |r.1 - 1/2| := by
  obtain ⟨-, r, -, -, h, h', -⟩ := surface_inversion_repelled hE nm.norm (eps1 := epsDefault) (eps2 := epsDefault)
    (by norm_num [epsDefault]) (by norm_num [epsDefault]) (maxIter := 100) (by norm_num) (fuel := 101) (by norm_num)
  exact ⟨r, h, h'⟩

/-- The foot point equation of the profile `(u, (u - 1/2)²)`: up to date derivatives attract from all of `[0, 1]`, so that
`curve_inversion` converges to `1/2` on this curve (C134). -/
example : Attracts (footEq (fun u : ℝ => [u, (u - 1/2) ^ 2, 0]) (fun u => [1, 2 * (u - 1/2), 0]) [1/2, 1/4, 0])
    (footDer (fun u => [u, (u - 1/2) ^ 2, 0]) (fun u => [1, 2 * (u - 1/2), 0]) (fun _ => [0, 2, 0]) [1/2, 1/4, 0])
    (1/2) (6/5) (1/2) := by
  have e : ∀ u : ℝ, footDer (fun u => [u, (u - 1/2) ^ 2, 0]) (fun u => [1, 2 * (u - 1/2), 0]) (fun _ => [0, 2, 0])
      [1/2, 1/4, 0] u = 1/2 + 6 * (u - 1/2) ^ 2 := fun u => by
    simp only [footDer, ip, sub3, List.getD_cons_zero, List.getD_cons_succ]; ring
  have e' : ∀ u : ℝ, footEq (fun u : ℝ => [u, (u - 1/2) ^ 2, 0]) (fun u => [1, 2 * (u - 1/2), 0]) [1/2, 1/4, 0] u
      = (u - 1/2) / 2 + 2 * (u - 1/2) ^ 3 := fun u => by
    simp only [footEq, ip, sub3, List.getD_cons_zero, List.getD_cons_succ]; ring
  refine ⟨by norm_num, by norm_num, by norm_num, fun u _ _ _ => ?_, fun u _ _ _ => ?_⟩
  · rw [e]; positivity
  · rw [e, e', abs_of_nonneg (a := 1/2 + 6 * (u - 1/2) ^ 2) (by positivity),
      show (u - 1/2) / 2 + 2 * (u - 1/2) ^ 3 + (1/2 + 6 * (u - 1/2) ^ 2) * (1/2 - u)
        = -(4 * (u - 1/2)) * (u - 1/2) ^ 2 by ring,
      show (1/2 - u) ^ 2 = (u - 1/2) ^ 2 by ring, abs_mul, abs_of_nonneg (a := (u - 1/2) ^ 2) (by positivity)]
    refine mul_le_mul_of_nonneg_right ?_ (by positivity)
    rw [abs_neg, abs_le]
    constructor <;> nlinarith [sq_nonneg (u - 1/2 - 3/10), sq_nonneg (u - 1/2 + 3/10)]

end PySpline
