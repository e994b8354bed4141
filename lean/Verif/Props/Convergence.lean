import Verif.Lemmas.Convergence

/-!
# C134: local convergence of `curve_inversion`
-/

set_option linter.unusedSectionVars false

namespace PySpline

section
variable {K : Type} [Field K] [LinearOrder K] [IsStrictOrderedRing K]

/-- **C134.** If the initial guess is within `R` of a foot point that attracts, `curve_inversion` does not raise and
returns a parameter `r` with `q |r - s| ≤ (q |u0 - s|)^(2^k)`, where `k` is the number of Newton steps: all
`max_iter + 2`, or fewer if one of the tests stops the iteration. -/
theorem curve_inversion_converges {nm : Num K} (hE : Euclidean nm) {C : CurveLike K} {c c1 c2 : K → List K}
    (hC : C.Smooth c c1 c2) {p : List K} (hp : p.length = 3) (eps1 eps2 : K) {maxIter : ℤ} {s q R : K}
    (hA : Attracts (footEq c c1 p) (footDer c c1 c2 p) s q R) {fuel : ℕ} (hf1 : 1 ≤ fuel) (hf : maxIter + 2 ≤ fuel)
    {u0 : K} (h0 : initialGuessCurve nm C p = .ok u0) (hR : |u0 - s| ≤ R) :
    ∃ (k : ℕ) (r : K), curveInversion fuel nm C p eps1 eps2 maxIter = .ok r ∧
      (0 ≤ r ∧ r ≤ 1) ∧ q * |r - s| ≤ (q * |u0 - s|) ^ 2 ^ k ∧
      ((k : ℤ) = max 1 (maxIter + 2) ∨ Stops nm c c1 p eps1 eps2 s q R r ∨
        (r = u0 ∧ (nm.norm (sub3 (c r) p) ≤ eps1 ∨
          |footEq c c1 p r| ≤ eps2 * (nm.norm (c1 r) * nm.norm (sub3 (c r) p))))) := by
  obtain ⟨k, hk, e⟩ := initialGuessCurve_grid h0
  have hu := grid_mem_unit (K := K) hk
  rw [← e] at hu
  obtain ⟨l0, l1, l2⟩ := hC.len u0
  unfold curveInversion
  rw [h0, ok_bind, hC.info hu.1 hu.2, ok_bind]
  unfold curveCond1
  rw [hC.pt u0 hu.1 hu.2, ok_bind, vsub_len3 l0 hp, ok_bind, ok_bind]
  have here : q * |u0 - s| ≤ (q * |u0 - s|) ^ 2 ^ 0 := by rw [pow_zero, pow_one]
  split
  · rename_i hs
    exact ⟨0, u0, rfl, hu, here, Or.inr (Or.inr ⟨rfl, Or.inl (of_decide_eq_true hs)⟩)⟩
  unfold curveCond2
  dsimp only
  rw [vsub_len3 l0 hp, ok_bind, dot_len3 l1 rfl, ok_bind, ok_bind]
  split
  · rename_i hs
    exact ⟨0, u0, rfl, hu, here, Or.inr (Or.inr ⟨rfl, Or.inr
      (ratioLe_mul (mul_nonneg (hE.nonneg' l1) (hE.nonneg' rfl)) hs)⟩)⟩
  obtain ⟨k, r, e, hr, hq, hk⟩ := curveLoop_converges hE hC hp (eps1 := eps1) (eps2 := eps2) (maxIter := maxIter) hA fuel 0
    u0 hu.1 hu.2 hR hf1 (by omega)
  rw [sub_zero] at hk
  exact ⟨k, r, e, hr, hq, hk.imp_right Or.inl⟩

end

/-- **C134.** A foot point attracts if near it the derivative of `c' · (c - p)` is at least `m` in absolute value and
has the Lipschitz constant `M`. -/
theorem attracts_of_lipschitz {c c1 c2 : ℝ → List ℝ} (h1 : Derives c c1) (h2 : Derives c1 c2) {p : List ℝ} {s m M R : ℝ}
    (hs : 0 ≤ s ∧ s ≤ 1) (hfoot : footEq c c1 p s = 0) (hm : 0 < m) (hM : 0 ≤ M) (hsmall : M * R < m)
    (hder : ∀ u, 0 ≤ u → u ≤ 1 → |u - s| ≤ R → m ≤ |footDer c c1 c2 p u|)
    (hlip : ∀ u v, (0 ≤ u ∧ u ≤ 1) → (0 ≤ v ∧ v ≤ 1) → |u - s| ≤ R → |v - s| ≤ R →
      |footDer c c1 c2 p u - footDer c c1 c2 p v| ≤ M * |u - v|) :
    Attracts (footEq c c1 p) (footDer c c1 c2 p) s (M / m) R where
  mem := hs
  pos := div_nonneg hM hm.le
  small := by rw [div_mul_eq_mul_div, div_lt_one hm]; exact hsmall
  ne u h0 h1 hR := abs_pos.1 (lt_of_lt_of_le hm (hder u h0 h1 hR))
  taylor u hu0 hu1 hR := by
    set f := footEq c c1 p with hf
    set f' := footDer c c1 c2 p with hf'
    have hsub : Set.uIcc u s ⊆ Set.Icc (0 : ℝ) 1 := Set.uIcc_subset_Icc ⟨hu0, hu1⟩ ⟨hs.1, hs.2⟩
    have hd : ∀ t ∈ Set.uIcc u s, HasDerivWithinAt (fun t => f t - f' u * t) (f' t - f' u) (Set.uIcc u s) t := by
      intro t ht
      have := ((footEq_hasDeriv h1 h2 p (hsub ht)).mono hsub).sub
        ((hasDerivWithinAt_id t (Set.uIcc u s)).const_mul (f' u))
      exact (this.congr_deriv (by rw [mul_one])).congr (fun _ _ => rfl) rfl
    have hb : ∀ t ∈ Set.uIcc u s, ‖f' t - f' u‖ ≤ M * |s - u| := by
      intro t ht
      have htu : |t - u| ≤ |s - u| := Set.abs_sub_left_of_mem_uIcc ht
      have hts : |t - s| ≤ |u - s| := by
        rw [abs_sub_comm t s, abs_sub_comm u s]
        exact Set.abs_sub_right_of_mem_uIcc ht
      exact (hlip t u (hsub ht) ⟨hu0, hu1⟩ (hts.trans hR) hR).trans (mul_le_mul_of_nonneg_left htu hM)
    have := (convex_uIcc u s).norm_image_sub_le_of_norm_hasDerivWithin_le hd hb Set.left_mem_uIcc Set.right_mem_uIcc
    rw [Real.norm_eq_abs, Real.norm_eq_abs, hfoot, zero_sub, mul_assoc, ← pow_two, sq_abs] at this
    have e : f u + f' u * (s - u) = -(-(f' u * s) - (f u - f' u * u)) := by ring
    rw [e, abs_neg]
    refine this.trans ?_
    have : M ≤ M / m * |f' u| := by
      rw [div_mul_eq_mul_div, le_div_iff₀ hm]
      exact mul_le_mul_of_nonneg_left (hder u hu0 hu1 hR) hM
    exact mul_le_mul_of_nonneg_right this (sq_nonneg _)

/-! ## Witness: the parabola `(u, u², 0)` -/

theorem exParabola_derives : Derives (fun u => [u, u ^ 2, 0]) (fun u => [1, 2 * u, 0]) ∧
    Derives (fun u => [1, 2 * u, 0]) (fun _ => [0, 2, 0]) := by
  constructor <;> intro k hk u _ <;> interval_cases k
  · exact hasDerivWithinAt_id u _
  · have h := (hasDerivWithinAt_id u (Set.Icc (0 : ℝ) 1)).mul (hasDerivWithinAt_id u _)
    exact (h.congr_deriv (by simp [two_mul])).congr (fun t _ => by simp [sq]) (by simp [sq])
  · simpa using hasDerivWithinAt_const u _ (0 : ℝ)
  · simpa using hasDerivWithinAt_const u _ (1 : ℝ)
  · simpa using ((hasDerivAt_id u).const_mul 2).hasDerivWithinAt
  · simpa using hasDerivWithinAt_const u _ (0 : ℝ)

/-- The point `(9/25, 121/400, 0)` has the foot point at `9/20`, which attracts from `1/10` around. -/
theorem exParabola_attracts : Attracts
    (footEq (fun u : ℝ => [u, u ^ 2, 0]) (fun u => [1, 2 * u, 0]) [9/25, 121/400, 0])
    (footDer (fun u => [u, u ^ 2, 0]) (fun u => [1, 2 * u, 0]) (fun _ => [0, 2, 0]) [9/25, 121/400, 0])
    (9/20) (7 / (11/10)) (1/10) := by
  refine attracts_of_lipschitz exParabola_derives.1 exParabola_derives.2 (by norm_num)
    (by norm_num [footEq, ip, sub3]) (by norm_num) (by norm_num) (by norm_num) ?_ ?_
  · intro u h0 h1 hR
    have e : footDer (fun u : ℝ => [u, u ^ 2, 0]) (fun u => [1, 2 * u, 0]) (fun _ => [0, 2, 0]) [9/25, 121/400, 0] u
        = 6 * u ^ 2 + 79/200 := by simp [footDer, ip, sub3]; ring
    rw [e, abs_of_nonneg (by positivity)]
    have := (abs_le.1 hR).1
    nlinarith
  · intro u v hu hv hu' hv'
    have e : ∀ u, footDer (fun u : ℝ => [u, u ^ 2, 0]) (fun u => [1, 2 * u, 0]) (fun _ => [0, 2, 0])
        [9/25, 121/400, 0] u = 6 * u ^ 2 + 79/200 := fun u => by simp [footDer, ip, sub3]; ring
    rw [e, e, show 6 * u ^ 2 + 79/200 - (6 * v ^ 2 + 79/200) = 6 * (u + v) * (u - v) by ring, abs_mul]
    refine mul_le_mul_of_nonneg_right ?_ (abs_nonneg _)
    rw [abs_of_nonneg (by linarith [hu.1, hv.1])]
    linarith [(abs_le.1 hu').2, (abs_le.1 hv').2]

/-- The search on the grid finds `2/5`. -/
theorem exParabola_guess {nm : Num ℝ} (hE : Euclidean nm) :
    initialGuessCurve nm (exParabola ℝ) [9/25, 121/400, 0] = .ok (2/5) := by
  obtain ⟨k, hk, h, h2, -⟩ := initial_guess_curve_nearest nm (exParabola ℝ) [9/25, 121/400, 0] (by decide)
    (fun k => [(k : ℝ) / 5, ((k : ℝ) / 5) ^ 2, 0]) (fun k _ => ⟨by norm_num [exParabola], rfl⟩)
  have hd : ∀ k : ℕ, nm.norm (List.zipWith (· - ·) [9/25, 121/400, 0] [(k : ℝ) / 5, ((k : ℝ) / 5) ^ 2, 0]) ^ 2
      = (9/25 - (k : ℝ) / 5) ^ 2 + (121/400 - ((k : ℝ) / 5) ^ 2) ^ 2 := by
    intro k
    simp only [List.zipWith_cons_cons, List.zipWith_nil_left]
    rw [hE.sq]
    ring
  have hmin := (h2 ⟨2, by decide, by
    refine lt_of_pow_lt_pow_left₀ 2 (by norm_num) ?_
    rw [hd]
    norm_num⟩).1 2 (by decide)
  have hsq : nm.norm (List.zipWith (· - ·) [9/25, 121/400, 0] [(k : ℝ) / 5, ((k : ℝ) / 5) ^ 2, 0]) ^ 2
      ≤ nm.norm (List.zipWith (· - ·) [9/25, 121/400, 0] [((2 : ℕ) : ℝ) / 5, (((2 : ℕ) : ℝ) / 5) ^ 2, 0]) ^ 2 :=
    pow_le_pow_left₀ (hE.nonneg _ _ _) hmin 2
  rw [hd, hd] at hsq
  change k < 6 at hk
  have : k = 2 := by
    interval_cases k <;> first | rfl | (exfalso; norm_num at hsq)
  subst this
  rw [h]
  norm_num [exParabola]

example {nm : Num ℝ} (hE : Euclidean nm) : ∃ (k : ℕ) (r : ℝ),
    curveInversionD nm (exParabola ℝ) [9/25, 121/400, 0] = .ok r ∧ |r - 9/20| ≤ 1/6 * (1/3) ^ 2 ^ k := by
  obtain ⟨k, r, h1, -, h2, -⟩ := curve_inversion_converges hE exParabola_smooth rfl epsDefault epsDefault (maxIter := 100)
    exParabola_attracts (fuel := 102) (by norm_num) (by norm_num) (exParabola_guess hE) (by norm_num)
  refine ⟨k, r, h1, ?_⟩
  have h3 : (7 / (11/10) * |(2/5 : ℝ) - 9/20|) ^ 2 ^ k ≤ (1/3) ^ 2 ^ k :=
    pow_le_pow_left₀ (by positivity) (by norm_num) _
  have h4 : |r - 9/20| = 11/70 * (7 / (11/10) * |r - 9/20|) := by ring
  rw [h4]
  have h5 : (0 : ℝ) ≤ (1/3) ^ 2 ^ k := by positivity
  linarith [h2.trans h3]

end PySpline
