import Verif.Lemmas.SingularAux
import Verif.Lemmas.Convergence

/-!
# C139: the only failure of `curve_inversion`
-/

set_option linter.unusedSectionVars false

namespace PySpline

section
variable {K : Type} [Field K] [LinearOrder K] [IsStrictOrderedRing K]

/-- A parameter at which the Newton step is `0/0`: the first derivative of the curve vanishes, and the second one is orthogonal to
the difference to the point. -/
def Stuck (c c1 c2 : K → List K) (p : List K) (u : K) : Prop :=
  (0 ≤ u ∧ u ≤ 1) ∧ c1 u = [0, 0, 0] ∧ ip (c2 u) (sub3 (c u) p) = 0

theorem curveLoop_total {nm : Num K} (hE : Euclidean nm) {C : CurveLike K} {c c1 c2 : K → List K}
    (hC : C.Smooth c c1 c2) {p : List K} (hp : p.length = 3) {eps1 eps2 : K} (he1 : 0 ≤ eps1) (he2 : 0 ≤ eps2)
    {maxIter : ℤ} (fuel : ℕ) : ∀ (j : ℤ) (u : K), 0 ≤ u → u ≤ 1 → 1 ≤ fuel → maxIter + 2 - j ≤ fuel →
    (ip (c1 u) (sub3 (c u) p) = 0 → c1 u = [0, 0, 0]) →
    (∃ r, curveLoop nm C p eps1 eps2 maxIter fuel j ⟨u, c u, c1 u, c2 u⟩ = .ok r ∧ 0 ≤ r ∧ r ≤ 1) ∨
      curveLoop nm C p eps1 eps2 maxIter fuel j ⟨u, c u, c1 u, c2 u⟩ = .error .valueError ∧
        ∃ w, Stuck c c1 c2 p w := by
  induction fuel with
  | zero => intro j u _ _ h; omega
  | succ fuel ih =>
    intro j u h0 h1 _ hf hst
    obtain ⟨l0, l1, l2⟩ := hC.len u
    unfold curveLoop
    dsimp only
    rw [vsub_len3 l0 hp, ok_bind, dot_len3 l1 rfl, ok_bind, dot_len3 l2 rfl, ok_bind, hE.sq_ip l1]
    have step : (∃ u', newtonStep nm u (ip (c1 u) (sub3 (c u) p)) (ip (c2 u) (sub3 (c u) p) + ip (c1 u) (c1 u)) = .ok u' ∧
        0 ≤ u' ∧ u' ≤ 1) ∨
        newtonStep nm u (ip (c1 u) (sub3 (c u) p)) (ip (c2 u) (sub3 (c u) p) + ip (c1 u) (c1 u)) = .error .valueError ∧
          Stuck c c1 c2 p u := by
      unfold newtonStep
      split
      · rename_i hd
        split
        · rename_i hn
          refine Or.inr ⟨rfl, ⟨h0, h1⟩, hst hn, ?_⟩
          rw [hst hn] at hd
          simpa [ip] using hd
        · refine Or.inl ?_
          split
          · exact ⟨0, rfl, le_rfl, zero_le_one⟩
          · exact ⟨1, rfl, zero_le_one, le_rfl⟩
      · exact Or.inl ⟨_, rfl, by rw [clamp01_eq]; exact le_max_left _ _,
          by rw [clamp01_eq]; exact max_le zero_le_one (min_le_left _ _)⟩
    rcases step with ⟨u', e, hm⟩ | ⟨e, hs⟩
    swap
    · rw [e]
      exact Or.inr ⟨rfl, u, hs⟩
    rw [e, ok_bind]
    split
    · exact Or.inl ⟨u, rfl, h0, h1⟩
    rw [hC.info hm.1 hm.2, ok_bind]
    obtain ⟨l0', l1', l2'⟩ := hC.len u'
    unfold curveCond1
    rw [hC.pt u' hm.1 hm.2, ok_bind, vsub_len3 l0' hp, ok_bind, ok_bind]
    split
    · exact Or.inl ⟨u, rfl, h0, h1⟩
    rename_i t1
    unfold curveCond2
    dsimp only
    rw [vsub_len3 l0' hp, ok_bind, dot_len3 l1' rfl, ok_bind, ok_bind]
    split
    · exact Or.inl ⟨u, rfl, h0, h1⟩
    rename_i t2
    split
    · exact Or.inl ⟨u', rfl, hm⟩
    · exact ih (j + 1) u' hm.1 hm.2 (by omega) (by omega) fun h => stationary_of_tests hE l1' he1 he2 t1 t2 h

/-- **C139.** On a curve with exact derivatives `curve_inversion` either returns a parameter of `[0, 1]`, or it raises a
`ValueError` and the curve has a parameter at which its first derivative vanishes and its second one is orthogonal to the
difference to the point. -/
theorem curve_inversion_total {nm : Num K} (hE : Euclidean nm) {C : CurveLike K} {c c1 c2 : K → List K}
    (hC : C.Smooth c c1 c2) (hn : 0 < C.numCtrl) {p : List K} (hp : p.length = 3) {eps1 eps2 : K} (he1 : 0 ≤ eps1)
    (he2 : 0 ≤ eps2) {maxIter : ℤ} {fuel : ℕ} (hf1 : 1 ≤ fuel) (hf : maxIter + 2 ≤ fuel) :
    (∃ r, curveInversion fuel nm C p eps1 eps2 maxIter = .ok r ∧ 0 ≤ r ∧ r ≤ 1) ∨
      curveInversion fuel nm C p eps1 eps2 maxIter = .error .valueError ∧ ∃ w, Stuck c c1 c2 p w := by
  obtain ⟨k, hk, h0, -⟩ := initial_guess_curve_nearest nm C p hn
    (fun k => c ((k : K) / (((2 * C.numCtrl : ℕ) : K) - 1)))
    fun k hk => ⟨hC.pt _ (grid_mem_unit hk).1 (grid_mem_unit hk).2, by rw [hp, (hC.len _).1]⟩
  have hu := grid_mem_unit (K := K) hk
  set u0 := (k : K) / (((2 * C.numCtrl : ℕ) : K) - 1)
  obtain ⟨l0, l1, l2⟩ := hC.len u0
  unfold curveInversion
  rw [h0, ok_bind, hC.info hu.1 hu.2, ok_bind]
  unfold curveCond1 curveCond2
  rw [hC.pt u0 hu.1 hu.2, ok_bind, vsub_len3 l0 hp, ok_bind, ok_bind]
  split
  · exact Or.inl ⟨u0, rfl, hu⟩
  rename_i t1
  dsimp only
  rw [ok_bind, dot_len3 l1 rfl, ok_bind, ok_bind]
  split
  · exact Or.inl ⟨u0, rfl, hu⟩
  rename_i t2
  exact curveLoop_total hE hC hp he1 he2 fuel 0 u0 hu.1 hu.2 hf1 (by omega)
    fun h => stationary_of_tests hE l1 he1 he2 t1 t2 h

/-- **C139.** On a curve whose derivative never vanishes it returns a parameter. -/
theorem curve_inversion_regular {nm : Num K} (hE : Euclidean nm) {C : CurveLike K} {c c1 c2 : K → List K}
    (hC : C.Smooth c c1 c2) (hn : 0 < C.numCtrl) (hreg : ∀ u, 0 ≤ u → u ≤ 1 → c1 u ≠ [0, 0, 0]) {p : List K}
    (hp : p.length = 3) {eps1 eps2 : K} (he1 : 0 ≤ eps1) (he2 : 0 ≤ eps2) {maxIter : ℤ} {fuel : ℕ} (hf1 : 1 ≤ fuel)
    (hf : maxIter + 2 ≤ fuel) : ∃ r, curveInversion fuel nm C p eps1 eps2 maxIter = .ok r ∧ 0 ≤ r ∧ r ≤ 1 := by
  rcases curve_inversion_total hE hC hn hp he1 he2 hf1 hf with h | ⟨-, w, hw, h, -⟩
  · exact h
  · exact absurd h (hreg w hw.1 hw.2)

/-- **C139.** If the initial guess is such a parameter and not within the first tolerance, the `ValueError` is raised. -/
theorem curve_inversion_stuck {nm : Num K} (hE : Euclidean nm) {C : CurveLike K} {c c1 c2 : K → List K}
    (hC : C.Smooth c c1 c2) {p : List K} (hp : p.length = 3) {eps1 eps2 : K} {maxIter : ℤ} {fuel : ℕ} (hf1 : 1 ≤ fuel)
    {u0 : K} (h0 : initialGuessCurve nm C p = .ok u0) (hs : Stuck c c1 c2 p u0)
    (hfar : eps1 < nm.norm (sub3 (c u0) p)) :
    curveInversion fuel nm C p eps1 eps2 maxIter = .error .valueError := by
  obtain ⟨fuel, rfl⟩ : ∃ f, fuel = f + 1 := ⟨fuel - 1, by omega⟩
  obtain ⟨hu, hc1, hc2⟩ := hs
  obtain ⟨l0, l1, l2⟩ := hC.len u0
  have z1 : ip (c1 u0) (sub3 (c u0) p) = 0 := by rw [hc1]; simp [ip]
  have z2 : ip (c1 u0) (c1 u0) = 0 := by rw [hc1]; simp [ip]
  unfold curveInversion
  rw [h0, ok_bind, hC.info hu.1 hu.2, ok_bind]
  unfold curveCond1 curveCond2
  rw [hC.pt u0 hu.1 hu.2, ok_bind, vsub_len3 l0 hp, ok_bind, ok_bind, if_neg (by simpa using hfar)]
  dsimp only
  rw [ok_bind, dot_len3 l1 rfl, ok_bind, ok_bind, if_neg]
  · unfold curveLoop
    dsimp only
    rw [vsub_len3 l0 hp, ok_bind, dot_len3 l1 rfl, ok_bind, dot_len3 l2 rfl, ok_bind, hE.sq_ip l1]
    unfold newtonStep
    rw [hc2, z1, z2, if_pos (by simp), if_pos rfl]
    rfl
  · unfold ratioLe
    rw [hc1, hE.zero, zero_mul, if_pos rfl]
    simp

end

/-- A curve that is a single point cannot be inverted elsewhere. -/
example {nm : Num ℝ} (hE : Euclidean nm) : curveInversionD nm
    (⟨3, fun _ => .ok [1, 2, 3], fun _ => .ok [[1, 2, 3], [0, 0, 0], [0, 0, 0]]⟩ : CurveLike ℝ) [1, 2, 4]
    = .error .valueError := by
  have hC : CurveLike.Smooth (⟨3, fun _ => .ok [1, 2, 3], fun _ => .ok [[1, 2, 3], [0, 0, 0], [0, 0, 0]]⟩ : CurveLike ℝ)
      (fun _ => [1, 2, 3]) (fun _ => [0, 0, 0]) (fun _ => [0, 0, 0]) :=
    ⟨fun _ _ _ => rfl, fun _ _ _ => ⟨[], rfl⟩, fun _ => ⟨rfl, rfl, rfl⟩⟩
  obtain ⟨k, hk, h0, -⟩ := initial_guess_curve_nearest nm
    (⟨3, fun _ => .ok [1, 2, 3], fun _ => .ok [[1, 2, 3], [0, 0, 0], [0, 0, 0]]⟩ : CurveLike ℝ) [1, 2, 4]
    (by norm_num) (fun _ => [1, 2, 3]) fun k hk => ⟨rfl, rfl⟩
  refine curve_inversion_stuck hE hC rfl (by norm_num) h0 ⟨grid_mem_unit hk, rfl, by simp [ip]⟩ ?_
  have h1 := hE.sq 0 0 (-1)
  have h2 := hE.nonneg 0 0 (-1)
  have : sub3 [1, 2, 3] [1, 2, 4] = ([0, 0, -1] : List ℝ) := by norm_num [sub3]
  rw [this]
  unfold epsDefault
  nlinarith

/-- The parabola `(u, u², 0)` is regular: every point has a result. -/
example {nm : Num ℝ} (hE : Euclidean nm) (x y z : ℝ) : ∃ r, curveInversionD nm
    (⟨3, fun u => .ok [u, u ^ 2, 0], fun u => .ok [[u, u ^ 2, 0], [1, 2 * u, 0], [0, 2, 0]]⟩ : CurveLike ℝ) [x, y, z] = .ok r ∧
      0 ≤ r ∧ r ≤ 1 :=
  curve_inversion_regular hE (c := fun u => [u, u ^ 2, 0]) (c1 := fun u => [1, 2 * u, 0]) (c2 := fun _ => [0, 2, 0])
    ⟨fun _ _ _ => rfl, fun _ _ _ => ⟨[], rfl⟩, fun _ => ⟨rfl, rfl, rfl⟩⟩ (by norm_num) (by simp) rfl
    (by norm_num [epsDefault]) (by norm_num [epsDefault]) (by norm_num) (by norm_num)

end PySpline
