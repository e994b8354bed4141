import Verif.Lemmas.TraceAux
import Verif.Lemmas.Trace
import Verif.Props.Convergence
import Verif.Props.Repelling

/-!
# C142, C143: the complete runs of `curve_inversion` and `surface_inversion`
-/

set_option linter.unusedSectionVars false

namespace PySpline

variable {K : Type} [Field K] [LinearOrder K] [IsStrictOrderedRing K]

/-! ## Curves -/

/-- **C142.** If the initial guess is accepted, it is returned, whatever the iteration limit. -/
theorem curve_inversion_guess_accepted (fuel : ℕ) {nm : Num K} (hE : Euclidean nm) {C : CurveLike K}
    {c c1 c2 : K → List K} (hC : C.Smooth c c1 c2) {p : List K} (hp : p.length = 3) {eps1 eps2 : K}
    (he1 : 0 ≤ eps1) (he2 : 0 ≤ eps2) (maxIter : ℤ) {u0 : K} (h0 : initialGuessCurve nm C p = .ok u0)
    (hacc : Accepted c c1 p eps1 eps2 u0) : curveInversion fuel nm C p eps1 eps2 maxIter = .ok u0 := by
  obtain ⟨k, hk, e⟩ := initialGuessCurve_grid h0
  have hu := grid_mem_unit (K := K) hk
  rw [← e] at hu
  unfold curveInversion
  rw [h0, ok_bind, hC.info hu.1 hu.2, ok_bind, curveCond1_iff hE hC hp he1 hu.1 hu.2, ok_bind,
    curveCond2_iff hE hC hp he2, ok_bind]
  rcases hacc with h | h
  · rw [if_pos (decide_eq_true h)]
  · split
    · rfl
    · rw [if_pos (decide_eq_true h)]

/-- **C142.** Otherwise let `x 0, x 1, …` be the Newton iterates.  If the step from `x n` is the first one
that is short or leads to an accepted parameter, and `n ≤ max_iter + 1`, then `x n` is returned: the parameter
*before* that step. -/
theorem curve_inversion_stops (fuel : ℕ) {nm : Num K} (hE : Euclidean nm) {C : CurveLike K}
    {c c1 c2 : K → List K} (hC : C.Smooth c c1 c2) {p : List K} (hp : p.length = 3) {eps1 eps2 : K}
    (he1 : 0 ≤ eps1) (he2 : 0 ≤ eps2) {maxIter : ℤ} {x : ℕ → K} (h0 : initialGuessCurve nm C p = .ok (x 0))
    (hacc : ¬ Accepted c c1 p eps1 eps2 (x 0)) (hx : ∀ k, x (k + 1) = newtonPoint c c1 c2 p (x k)) {n : ℕ}
    (hd : ∀ k ≤ n, ip (c2 (x k)) (sub3 (c (x k)) p) + ip (c1 (x k)) (c1 (x k)) ≠ 0)
    (hgo : ∀ k < n, ¬ Ends c c1 p eps1 eps2 (x k) (x (k + 1))) (hend : Ends c c1 p eps1 eps2 (x n) (x (n + 1)))
    (hn : (n : ℤ) ≤ max 0 (maxIter + 1)) (hf : n + 1 ≤ fuel) :
    curveInversion fuel nm C p eps1 eps2 maxIter = .ok (x n) := by
  obtain ⟨f, rfl⟩ : ∃ f, fuel = n + (f + 1) := ⟨fuel - n - 1, by omega⟩
  rw [curveInversion_enters _ hE hC hp he1 he2 maxIter h0 hacc]
  have key := (curveLoop_unfold hE hC hp he1 he2 (maxIter := maxIter) f (n : ℤ) (hd n le_rfl)).1
  rw [← hx n] at key
  rcases Nat.eq_zero_or_pos n with rfl | hpos
  · rw [Nat.zero_add]
    exact key hend
  · rw [curveLoop_reach hE hC hp he1 he2 hx n (fun k hk => hd k hk.le) hgo (by omega) (f + 1)]
    exact key hend

/-- **C142.** If none of the steps from `x 0, …, x (max_iter + 1)` ends the iteration, `x (max_iter + 2)` is
returned (`x 1` if `max_iter` is negative). -/
theorem curve_inversion_limit (fuel : ℕ) {nm : Num K} (hE : Euclidean nm) {C : CurveLike K}
    {c c1 c2 : K → List K} (hC : C.Smooth c c1 c2) {p : List K} (hp : p.length = 3) {eps1 eps2 : K}
    (he1 : 0 ≤ eps1) (he2 : 0 ≤ eps2) {maxIter : ℤ} {x : ℕ → K} (h0 : initialGuessCurve nm C p = .ok (x 0))
    (hacc : ¬ Accepted c c1 p eps1 eps2 (x 0)) (hx : ∀ k, x (k + 1) = newtonPoint c c1 c2 p (x k)) {n : ℕ}
    (hd : ∀ k < n, ip (c2 (x k)) (sub3 (c (x k)) p) + ip (c1 (x k)) (c1 (x k)) ≠ 0)
    (hgo : ∀ k < n, ¬ Ends c c1 p eps1 eps2 (x k) (x (k + 1)))
    (hn : (n : ℤ) = max 1 (maxIter + 2)) (hf : n ≤ fuel) :
    curveInversion fuel nm C p eps1 eps2 maxIter = .ok (x n) := by
  obtain ⟨m, rfl⟩ : ∃ m, n = m + 1 := ⟨n - 1, by omega⟩
  obtain ⟨f, rfl⟩ : ∃ f, fuel = m + (f + 1) := ⟨fuel - m - 1, by omega⟩
  rw [curveInversion_enters _ hE hC hp he1 he2 maxIter h0 hacc]
  have key := (curveLoop_unfold hE hC hp he1 he2 (maxIter := maxIter) f (m : ℤ) (hd m (by omega))).2
  rw [← hx m] at key
  rw [if_pos (by push_cast at hn; omega)] at key
  rcases Nat.eq_zero_or_pos m with rfl | hpos
  · rw [Nat.zero_add]
    exact key (hgo 0 (by omega))
  · rw [curveLoop_reach hE hC hp he1 he2 hx m (fun k hk => hd k (by omega)) (fun k hk => hgo k (by omega))
      (by push_cast at hn; omega) (f + 1)]
    exact key (hgo m (by omega))

/-- **C142.** If an iterate `x n` with `n ≤ max_iter + 1` is reached at which the foot point equation and its
derivative both vanish, the step is `0/0` and `ValueError` is raised. -/
theorem curve_inversion_raises (fuel : ℕ) {nm : Num K} (hE : Euclidean nm) {C : CurveLike K}
    {c c1 c2 : K → List K} (hC : C.Smooth c c1 c2) {p : List K} (hp : p.length = 3) {eps1 eps2 : K}
    (he1 : 0 ≤ eps1) (he2 : 0 ≤ eps2) {maxIter : ℤ} {x : ℕ → K} (h0 : initialGuessCurve nm C p = .ok (x 0))
    (hacc : ¬ Accepted c c1 p eps1 eps2 (x 0)) (hx : ∀ k, x (k + 1) = newtonPoint c c1 c2 p (x k)) {n : ℕ}
    (hd : ∀ k < n, ip (c2 (x k)) (sub3 (c (x k)) p) + ip (c1 (x k)) (c1 (x k)) ≠ 0)
    (hgo : ∀ k < n, ¬ Ends c c1 p eps1 eps2 (x k) (x (k + 1)))
    (hf0 : ip (c1 (x n)) (sub3 (c (x n)) p) = 0)
    (hd0 : ip (c2 (x n)) (sub3 (c (x n)) p) + ip (c1 (x n)) (c1 (x n)) = 0)
    (hn : (n : ℤ) ≤ max 0 (maxIter + 1)) (hf : n + 1 ≤ fuel) :
    curveInversion fuel nm C p eps1 eps2 maxIter = .error .valueError := by
  obtain ⟨f, rfl⟩ : ∃ f, fuel = n + (f + 1) := ⟨fuel - n - 1, by omega⟩
  rw [curveInversion_enters _ hE hC hp he1 he2 maxIter h0 hacc]
  have key : curveLoop nm C p eps1 eps2 maxIter (f + 1) n ⟨x n, c (x n), c1 (x n), c2 (x n)⟩ = .error .valueError := by
    obtain ⟨l0, l1, l2⟩ := hC.len (x n)
    rw [curveLoop]
    dsimp only
    rw [vsub_len3 l0 hp, ok_bind, dot_len3 l1 rfl, ok_bind, dot_len3 l2 rfl, ok_bind, hE.sq_ip l1, hf0, hd0]
    unfold newtonStep
    rw [if_pos rfl, if_pos rfl]
    rfl
  rcases Nat.eq_zero_or_pos n with rfl | hpos
  · rw [Nat.zero_add]
    exact key
  · rw [curveLoop_reach hE hC hp he1 he2 hx n hd hgo (by omega) (f + 1)]
    exact key

/-- On the parabola `(u, u², 0)` with the default arguments, for the point `(9/25, 121/400, 0)`: the third step is the
first one that ends the iteration, and the result is the iterate before it. -/
example {nm : Num ℝ} (hE : Euclidean nm) :
    curveInversionD nm (exParabola ℝ) [9/25, 121/400, 0] = .ok (14644740632/32541310085) := by
  let x : ℕ → ℝ := fun k => (newtonPoint (fun u : ℝ => [u, u ^ 2, 0]) (fun u => [1, 2 * u, 0]) (fun _ => [0, 2, 0])
      [9/25, 121/400, 0])^[k] (2/5)
  have hx : ∀ k, x (k + 1) = newtonPoint (fun u : ℝ => [u, u ^ 2, 0]) (fun u => [1, 2 * u, 0]) (fun _ => [0, 2, 0])
      [9/25, 121/400, 0] (x k) := fun k => Function.iterate_succ_apply' _ _ _
  have x0 : x 0 = 2/5 := rfl
  have x1 : x 1 = 616/1355 := by rw [hx, x0, parabola_newton]; norm_num
  have x2 : x 2 = 14644740632/32541310085 := by rw [hx, x1, parabola_newton]; norm_num
  have x3 : x 3 = 199749179372116650587718312119656/443887063201608278679743167340555 := by rw [hx, x2, parabola_newton]; norm_num
  have := curve_inversion_stops 102 hE exParabola_smooth (p := [9/25, 121/400, 0]) rfl (eps1 := epsDefault)
    (eps2 := epsDefault) (maxIter := 100) (by norm_num [epsDefault]) (by norm_num [epsDefault]) (x := x) (n := 2)
    (exParabola_guess hE) ?_ hx ?_ ?_ ?_ (by norm_num) (by norm_num)
  · rw [x2] at this
    exact this
  · rw [x0]
    norm_num [Accepted, ip, sub3, epsDefault]
  · intro k hk
    interval_cases k
    · rw [x0]; norm_num [ip, sub3]
    · rw [x1]; norm_num [ip, sub3]
    · rw [x2]; norm_num [ip, sub3]
  · intro k hk
    interval_cases k
    · rw [x0, x1]; norm_num [Ends, Accepted, ip, sub3, epsDefault]
    · rw [x1, x2]; norm_num [Ends, Accepted, ip, sub3, epsDefault]
  · rw [x2, x3]; norm_num [Ends, Accepted, ip, sub3, epsDefault]

/-- With `max_iter = -1` only one step is made, and its result is returned. -/
example {nm : Num ℝ} (hE : Euclidean nm) :
    curveInversion 1 nm (exParabola ℝ) [9/25, 121/400, 0] epsDefault epsDefault (-1) = .ok (616/1355) := by
  let x : ℕ → ℝ := fun k => (newtonPoint (fun u : ℝ => [u, u ^ 2, 0]) (fun u => [1, 2 * u, 0]) (fun _ => [0, 2, 0])
      [9/25, 121/400, 0])^[k] (2/5)
  have hx : ∀ k, x (k + 1) = newtonPoint (fun u : ℝ => [u, u ^ 2, 0]) (fun u => [1, 2 * u, 0]) (fun _ => [0, 2, 0])
      [9/25, 121/400, 0] (x k) := fun k => Function.iterate_succ_apply' _ _ _
  have x0 : x 0 = 2/5 := rfl
  have x1 : x 1 = 616/1355 := by rw [hx, x0, parabola_newton]; norm_num
  have := curve_inversion_limit 1 hE exParabola_smooth (p := [9/25, 121/400, 0]) rfl (eps1 := epsDefault)
    (eps2 := epsDefault) (maxIter := -1) (by norm_num [epsDefault]) (by norm_num [epsDefault]) (x := x) (n := 1)
    (exParabola_guess hE) ?_ hx ?_ ?_ (by norm_num) (by norm_num)
  · rw [x1] at this
    exact this
  · rw [x0]
    norm_num [Accepted, ip, sub3, epsDefault]
  · intro k hk
    interval_cases k
    rw [x0]; norm_num [ip, sub3]
  · intro k hk
    interval_cases k
    rw [x0, x1]; norm_num [Ends, Accepted, ip, sub3, epsDefault]

/-! ## Surfaces -/

/-- **C143.** If the initial guess is accepted, it is returned, whatever the iteration limit. -/
theorem surface_inversion_guess_accepted (fuel : ℕ) {nm : Num K} (hE : Euclidean nm) {S : SurfLike K}
    {D : ℕ → ℕ → K → K → List K} (hS : S.Smooth D) {p : List K} (hp : p.length = 3) {eps1 eps2 : K}
    (he1 : 0 ≤ eps1) (he2 : 0 ≤ eps2) (maxIter : ℤ) {x0 : K × K} (h0 : initialGuessSurf nm S p = .ok x0)
    (hacc : Accepted2 D p eps1 eps2 x0 x0) : surfaceInversion fuel nm S p eps1 eps2 maxIter = .ok x0 := by
  have hu := initialGuessSurf_square h0
  have hi := hS.info hu.1.1 hu.1.2 hu.2.1 hu.2.2
  have k1 := surfCond1_iff hE hS hp he1 hu
  have k2 := surfCond2_iff hE hS hp he2 hu x0 (D 2 0 x0.1 x0.2) (D 0 2 x0.1 x0.2) (D 1 1 x0.1 x0.2)
  obtain ⟨u0, v0⟩ := x0
  unfold surfaceInversion
  rw [h0, ok_bind]
  dsimp only at hi k1 k2 ⊢
  rw [hi, ok_bind, k1, ok_bind, k2, ok_bind]
  rcases hacc with h | h
  · rw [if_pos (decide_eq_true h)]
  · split
    · rfl
    · rw [if_pos (decide_eq_true h)]

/-- **C143.** Otherwise let `x 0, x 1, …` be the Newton iterates in which the step from `x k` uses the derivatives
at `x (k - 1)` (at `x 0` for `k = 0`).  If the step from `x n` is the first one that is short (measured with the
derivatives at `x (n - 1)`) or leads to an accepted pair (with the tangents at `x n`), or if `n = max_iter`, then
`x (n + 1)` is returned: the pair *after* that step. -/
theorem surface_inversion_stops (fuel : ℕ) {nm : Num K} (hE : Euclidean nm) {S : SurfLike K}
    {D : ℕ → ℕ → K → K → List K} (hS : S.Smooth D) {p : List K} (hp : p.length = 3) {eps1 eps2 : K}
    (he1 : 0 ≤ eps1) (he2 : 0 ≤ eps2) {maxIter : ℤ} {x : ℕ → K × K} (h0 : initialGuessSurf nm S p = .ok (x 0))
    (hacc : ¬ Accepted2 D p eps1 eps2 (x 0) (x 0)) (hx : ∀ k, x (k + 1) = newtonPair D p (x (k - 1)) (x k)) {n : ℕ}
    (hd : ∀ k ≤ n, (footJac D p (x (k - 1)) (x k)).1 * (footJac D p (x (k - 1)) (x k)).2.2
      - (footJac D p (x (k - 1)) (x k)).2.1 ^ 2 ≠ 0)
    (hgo : ∀ k < n, ¬ Ends2 D p eps1 eps2 (x (k - 1)) (x k) (x (k + 1)))
    (hend : (n : ℤ) = max 0 maxIter ∨ ((n : ℤ) ≤ max 0 maxIter ∧ Ends2 D p eps1 eps2 (x (n - 1)) (x n) (x (n + 1))))
    (hf : n + 1 ≤ fuel) : surfaceInversion fuel nm S p eps1 eps2 maxIter = .ok (x (n + 1)) := by
  obtain ⟨f, rfl⟩ : ∃ f, fuel = n + (f + 1) := ⟨fuel - n - 1, by omega⟩
  have hx0 := initialGuessSurf_square h0
  have hin : InSquare (x n) := by
    cases n with
    | zero => exact hx0
    | succ k => rw [hx k]; exact newtonPair_mem _ _ _ _
  rw [surfaceInversion_enters _ hE hS hp he1 he2 maxIter h0 hacc,
    surfLoop_reach hE hS hp he1 he2 hx0 hx n (fun k hk => hd k hk.le) hgo (by omega) (f + 1),
    surfLoop_unfold hE hS hp he1 he2 f (n : ℤ) hin (hd n le_rfl), ← hx n, if_pos]
  rcases hend with h | ⟨-, h⟩
  · right; omega
  · exact Or.inl h

/-- **C143.** If an iterate `x n` with `n ≤ max_iter` is reached at which the Jacobian is singular, `LinAlgError`
is raised. -/
theorem surface_inversion_raises (fuel : ℕ) {nm : Num K} (hE : Euclidean nm) {S : SurfLike K}
    {D : ℕ → ℕ → K → K → List K} (hS : S.Smooth D) {p : List K} (hp : p.length = 3) {eps1 eps2 : K}
    (he1 : 0 ≤ eps1) (he2 : 0 ≤ eps2) {maxIter : ℤ} {x : ℕ → K × K} (h0 : initialGuessSurf nm S p = .ok (x 0))
    (hacc : ¬ Accepted2 D p eps1 eps2 (x 0) (x 0)) (hx : ∀ k, x (k + 1) = newtonPair D p (x (k - 1)) (x k)) {n : ℕ}
    (hd : ∀ k < n, (footJac D p (x (k - 1)) (x k)).1 * (footJac D p (x (k - 1)) (x k)).2.2
      - (footJac D p (x (k - 1)) (x k)).2.1 ^ 2 ≠ 0)
    (hd0 : (footJac D p (x (n - 1)) (x n)).1 * (footJac D p (x (n - 1)) (x n)).2.2
      - (footJac D p (x (n - 1)) (x n)).2.1 ^ 2 = 0)
    (hgo : ∀ k < n, ¬ Ends2 D p eps1 eps2 (x (k - 1)) (x k) (x (k + 1)))
    (hn : (n : ℤ) ≤ max 0 maxIter) (hf : n + 1 ≤ fuel) :
    surfaceInversion fuel nm S p eps1 eps2 maxIter = .error .linAlgError := by
  obtain ⟨f, rfl⟩ : ∃ f, fuel = n + (f + 1) := ⟨fuel - n - 1, by omega⟩
  have hx0 := initialGuessSurf_square h0
  have hin : InSquare (x n) := by
    cases n with
    | zero => exact hx0
    | succ k => rw [hx k]; exact newtonPair_mem _ _ _ _
  rw [surfaceInversion_enters _ hE hS hp he1 he2 maxIter h0 hacc,
    surfLoop_reach hE hS hp he1 he2 hx0 hx n hd hgo hn (f + 1), surfLoop,
    surfStep_singular hE hS hp hin hd0]
  rfl

/-- With `max_iter = 1` two steps are made from there, both with the derivatives at the initial guess. -/
example {nm : Num ℝ} (hE : Euclidean nm) :
    surfaceInversion 2 nm (exTrough.like nm.norm) [41/100, 21/50, 1/4] epsDefault epsDefault 1
      = .ok (2541673/6545560, 21/50) := by
  let x : ℕ → ℝ × ℝ := fun k => ((fun s : (ℝ × ℝ) × ℝ × ℝ => (s.2, newtonPair troughDers [41/100, 21/50, 1/4] s.1 s.2))^[k]
    ((2/5, 2/5), (2/5, 2/5))).2
  have hx : ∀ k, x (k + 1) = newtonPair troughDers [41/100, 21/50, 1/4] (x (k - 1)) (x k) := by
    intro k
    cases k with
    | zero => rfl
    | succ k =>
      simp only [x, Nat.add_sub_cancel]
      rw [Function.iterate_succ_apply', Function.iterate_succ_apply' _ k]
  have x0 : x 0 = (2/5, 2/5) := rfl
  have x1 : x 1 = (93/280, 21/50) := by
    rw [hx, x0]
    norm_num [newtonPair, footJac, ip, sub3, troughDers]
  have x2 : x 2 = (2541673/6545560, 21/50) := by
    rw [hx, x0, x1]
    norm_num [newtonPair, footJac, ip, sub3, troughDers]
  have := surface_inversion_stops 2 hE (exTrough_smooth nm.norm) (p := [41/100, 21/50, 1/4]) rfl (eps1 := epsDefault)
    (eps2 := epsDefault) (maxIter := 1) (by norm_num [epsDefault]) (by norm_num [epsDefault]) (x := x) (n := 1)
    (trough_guess_off hE nm.norm) ?_ hx ?_ ?_ (Or.inl rfl) (by norm_num)
  · rw [x2] at this
    exact this
  · rw [x0]
    norm_num [Accepted2, ip, sub3, epsDefault, troughDers]
  · intro k hk
    interval_cases k
    · rw [x0]; norm_num [footJac, ip, sub3, troughDers]
    · rw [x0, x1]; norm_num [footJac, ip, sub3, troughDers]
  · intro k hk
    interval_cases k
    rw [x0, x1]
    norm_num [Ends2, Accepted2, ip, sub3, epsDefault, troughDers]

end PySpline
