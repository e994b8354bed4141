import Verif.Lemmas.Trace
import Verif.Props.Convergence
import Verif.Props.Repelling

/-!
# Auxiliary lemmas for `Props/Trace.lean`
-/

set_option linter.unusedSectionVars false

namespace PySpline

variable {K : Type} [Field K] [LinearOrder K] [IsStrictOrderedRing K]

/-- If the initial guess is not accepted, the loop runs. -/
theorem curveInversion_enters (fuel : ℕ) {nm : Num K} (hE : Euclidean nm) {C : CurveLike K}
    {c c1 c2 : K → List K} (hC : C.Smooth c c1 c2) {p : List K} (hp : p.length = 3) {eps1 eps2 : K}
    (he1 : 0 ≤ eps1) (he2 : 0 ≤ eps2) (maxIter : ℤ) {u0 : K} (h0 : initialGuessCurve nm C p = .ok u0)
    (hacc : ¬ Accepted c c1 p eps1 eps2 u0) : curveInversion fuel nm C p eps1 eps2 maxIter
      = curveLoop nm C p eps1 eps2 maxIter fuel 0 ⟨u0, c u0, c1 u0, c2 u0⟩ := by
  obtain ⟨k, hk, e⟩ := initialGuessCurve_grid h0
  have hu := grid_mem_unit (K := K) hk
  rw [← e] at hu
  unfold Accepted at hacc
  dsimp only at hacc
  rw [not_or] at hacc
  unfold curveInversion
  rw [h0, ok_bind, hC.info hu.1 hu.2, ok_bind, curveCond1_iff hE hC hp he1 hu.1 hu.2, ok_bind,
    curveCond2_iff hE hC hp he2, ok_bind, if_neg (by simpa using hacc.1),
    if_neg (by rw [decide_eq_true_iff]; exact hacc.2)]

/-- The Newton step on the parabola `(u, u², 0)` for the point `(9/25, 121/400, 0)`. -/
theorem parabola_newton (u : ℝ) : newtonPoint (fun u : ℝ => [u, u ^ 2, 0]) (fun u => [1, 2 * u, 0]) (fun _ => [0, 2, 0])
    [9/25, 121/400, 0] u = max 0 (min 1 (u - (u - 9/25 + 2 * u * (u ^ 2 - 121/400)) / (6 * u ^ 2 + 79/200))) := by
  simp only [newtonPoint, ip, sub3, List.getD_cons_zero, List.getD_cons_succ]
  congr 4
  · ring
  · ring

/-- The initial guess of a surface lies in the unit square. -/
theorem initialGuessSurf_square {nm : Num K} {S : SurfLike K} {p : List K} {x0 : K × K}
    (h0 : initialGuessSurf nm S p = .ok x0) : InSquare x0 := by
  obtain ⟨⟨k, hk, e⟩, l, hl, e'⟩ := initialGuessSurf_grid h0
  unfold InSquare
  rw [e, e']
  exact ⟨grid_mem_unit hk, grid_mem_unit hl⟩

/-- If the initial guess is not accepted, the loop runs. -/
theorem surfaceInversion_enters (fuel : ℕ) {nm : Num K} (hE : Euclidean nm) {S : SurfLike K}
    {D : ℕ → ℕ → K → K → List K} (hS : S.Smooth D) {p : List K} (hp : p.length = 3) {eps1 eps2 : K}
    (he1 : 0 ≤ eps1) (he2 : 0 ≤ eps2) (maxIter : ℤ) {x0 : K × K} (h0 : initialGuessSurf nm S p = .ok x0)
    (hacc : ¬ Accepted2 D p eps1 eps2 x0 x0) : surfaceInversion fuel nm S p eps1 eps2 maxIter
      = surfLoop nm S p eps1 eps2 maxIter fuel 0 x0.1 x0.2 ⟨D 1 0 x0.1 x0.2, D 0 1 x0.1 x0.2, D 2 0 x0.1 x0.2,
        D 0 2 x0.1 x0.2, D 1 1 x0.1 x0.2⟩ := by
  have hu := initialGuessSurf_square h0
  have hi := hS.info hu.1.1 hu.1.2 hu.2.1 hu.2.2
  have k1 := surfCond1_iff hE hS hp he1 hu
  have k2 := surfCond2_iff hE hS hp he2 hu x0 (D 2 0 x0.1 x0.2) (D 0 2 x0.1 x0.2) (D 1 1 x0.1 x0.2)
  obtain ⟨u0, v0⟩ := x0
  unfold Accepted2 at hacc
  dsimp only at hacc
  rw [not_or] at hacc
  unfold surfaceInversion
  rw [h0, ok_bind]
  dsimp only at hi k1 k2 ⊢
  rw [hi, ok_bind, k1, ok_bind, k2, ok_bind, if_neg (by simpa using hacc.1),
    if_neg (by rw [decide_eq_true_iff]; exact hacc.2)]

/-- The grid search for the point `(41/100, 21/50, 1/4)` on the parabolic cylinder `(u, v, (u - 1/2)²)`. -/
theorem trough_guess_off {nm : Num ℝ} (hE : Euclidean nm) (norm : List ℝ → ℝ) :
    initialGuessSurf nm (exTrough.like norm) [41/100, 21/50, 1/4] = .ok (2/5, 2/5) := by
  have gm : ∀ {a : ℕ}, a < 6 → (0 : ℝ) ≤ (a : ℝ) / 5 ∧ (a : ℝ) / 5 ≤ 1 := by
    intro a ha
    interval_cases a <;> norm_num
  have e : (((2 * (exTrough.like norm).numU : ℕ) : ℝ) - 1) = 5 := by norm_num [Surface.like, exTrough]
  have e' : (((2 * (exTrough.like norm).numV : ℕ) : ℝ) - 1) = 5 := by norm_num [Surface.like, exTrough]
  obtain ⟨a, ha, b, hb, h0, h1, -⟩ := initial_guess_surf_nearest nm (exTrough.like norm) [41/100, 21/50, 1/4]
    (show 0 < 3 by decide) (show 0 < 3 by decide)
    (fun a b => [(a : ℝ) / 5, (b : ℝ) / 5, ((a : ℝ) / 5 - 1/2) ^ 2]) fun a ha b hb => ⟨by
      have := (exTrough_smooth norm).pt _ _ (gm ha).1 (gm ha).2 (gm hb).1 (gm hb).2
      rw [e, e', this]
      rfl, rfl⟩
  have hd : ∀ a b : ℕ,
      nm.norm (List.zipWith (· - ·) [41/100, 21/50, 1/4] [(a : ℝ) / 5, (b : ℝ) / 5, ((a : ℝ) / 5 - 1/2) ^ 2]) ^ 2
      = (41/100 - (a : ℝ) / 5) ^ 2 + (21/50 - (b : ℝ) / 5) ^ 2 + (1/4 - ((a : ℝ) / 5 - 1/2) ^ 2) ^ 2 := by
    intro a b
    simp only [List.zipWith_cons_cons, List.zipWith_nil_left]
    rw [hE.sq]
  have hmin := (h1 ⟨2, show 2 < 6 by decide, 2, show 2 < 6 by decide, by
    refine lt_of_pow_lt_pow_left₀ 2 (by norm_num) ?_
    rw [hd]
    norm_num⟩).1 2 (show 2 < 6 by decide) 2 (show 2 < 6 by decide)
  have hsq := pow_le_pow_left₀ (hE.nonneg _ _ _) hmin 2
  have hsq' := ((hd a b).symm.le.trans hsq).trans (hd 2 2).le
  change a < 6 at ha
  change b < 6 at hb
  rw [h0, e, e']
  interval_cases a <;> interval_cases b <;> first | (exfalso; norm_num at hsq'; done) | norm_num

end PySpline
