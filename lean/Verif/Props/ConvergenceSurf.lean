import Verif.Lemmas.ConvergenceTrough

/-!
# C136: local convergence of `surface_inversion`
-/

set_option linter.unusedSectionVars false

namespace PySpline

section
variable {K : Type} [Field K] [LinearOrder K] [IsStrictOrderedRing K]

/-- **C136.** If the initial guess is within `R` of a foot point that is close enough to the given point,
`surface_inversion` does not raise and the distance to the foot point is multiplied by `θ` at least every second step. -/
theorem surface_inversion_converges {nm : Num K} (hE : Euclidean nm) {S : SurfLike K} {D : ℕ → ℕ → K → K → List K}
    (hS : S.Smooth D) {p : List K} (hp : p.length = 3) (eps1 eps2 : K) {maxIter : ℤ} {s : K × K} {L M1 M2 δ m R θ : K}
    (h : NearFoot D p s L M1 M2 δ m R) (h1 : footQ L M1 M2 δ m R * R + footKappa L M1 M2 δ m R ≤ θ) (h2 : θ ≤ 1)
    {fuel : ℕ} (hf1 : 1 ≤ fuel) (hf : maxIter + 1 ≤ fuel) {x0 : K × K} (h0 : initialGuessSurf nm S p = .ok x0)
    (hR : gap x0 s ≤ R) : ∃ (k : ℕ) (r w : K × K),
    surfaceInversion fuel nm S p eps1 eps2 maxIter = .ok r ∧ InUnit r ∧ gap r s ≤ θ ^ ((k + 1) / 2) * gap x0 s ∧
      ((k : ℤ) = max 1 (maxIter + 1) ∨ SurfPasses nm D p eps1 eps2 w r ∨ ∃ z, SurfShort nm D eps1 z w r) := by
  have hg := gap_nonneg x0 s
  have hQ0 := h.footQ_nonneg (hg.trans hR)
  have hθ : 0 ≤ θ := le_trans (add_nonneg (mul_nonneg hQ0 (hg.trans hR)) (h.footKappa_nonneg (hg.trans hR))) h1
  obtain ⟨k, r, w, e, hr, ⟨i1, -⟩, hend⟩ := surfaceInversion_run hE hS hp eps1 eps2 (maxIter := maxIter)
    (Inv := fun n x z => gap x s ≤ θ ^ ((n + 1) / 2) * gap x0 s ∧ gap z s ≤ θ ^ (n / 2) * gap x0 s)
    (fun n x z hx hz ⟨i1, i2⟩ => by
      have le1 : ∀ n : ℕ, θ ^ n * gap x0 s ≤ gap x0 s := fun n => mul_le_of_le_one_left hg (pow_le_one₀ hθ h2)
      have hxR := (i1.trans (le1 _)).trans hR
      have hzR := (i2.trans (le1 _)).trans hR
      refine ⟨(h.pos.trans_le (h.det x z hx hz hxR hzR)).ne', fun y hy => ⟨?_, i1⟩⟩
      have hst := h.step hx hz hxR hzR hy
      have hQ : footQ L M1 M2 δ m R * gap x s + footKappa L M1 M2 δ m R ≤ θ :=
        le_trans (add_le_add_left (mul_le_mul_of_nonneg_left hxR hQ0) _) h1
      have hmax : max (gap x s) (gap z s) ≤ θ ^ (n / 2) * gap x0 s := by
        refine max_le (i1.trans (mul_le_mul_of_nonneg_right (pow_le_pow_of_le_one hθ h2 (by omega)) hg)) i2
      have : (n + 1 + 1) / 2 = n / 2 + 1 := by omega
      rw [this, pow_succ']
      refine hst.trans ?_
      rw [mul_assoc]
      exact mul_le_mul hQ hmax (le_max_of_le_left (gap_nonneg _ _)) hθ)
    hf1 hf h0 ⟨by simp, by simp⟩
  exact ⟨k, r, w, e, hr, i1, hend⟩

/-- **C136.** For a point on the surface the convergence is of the order of the golden ratio: after `k` steps
`Q |r - s| ≤ (Q |x0 - s|)^F(k+2)` with the Fibonacci numbers `F`. -/
theorem surface_inversion_on_surface {nm : Num K} (hE : Euclidean nm) {S : SurfLike K} {D : ℕ → ℕ → K → K → List K}
    (hS : S.Smooth D) {p : List K} (hp : p.length = 3) (eps1 eps2 : K) {maxIter : ℤ} {s : K × K} {L M1 M2 m R : K}
    (h : NearFoot D p s L M1 M2 0 m R) (h1 : footQ L M1 M2 0 m R * R ≤ 1)
    {fuel : ℕ} (hf1 : 1 ≤ fuel) (hf : maxIter + 1 ≤ fuel) {x0 : K × K} (h0 : initialGuessSurf nm S p = .ok x0)
    (hR : gap x0 s ≤ R) : ∃ (k : ℕ) (r w : K × K),
    surfaceInversion fuel nm S p eps1 eps2 maxIter = .ok r ∧ InUnit r ∧
      footQ L M1 M2 0 m R * gap r s ≤ (footQ L M1 M2 0 m R * gap x0 s) ^ Nat.fib (k + 2) ∧
      ((k : ℤ) = max 1 (maxIter + 1) ∨ SurfPasses nm D p eps1 eps2 w r ∨ ∃ z, SurfShort nm D eps1 z w r) := by
  have hg := gap_nonneg x0 s
  have hQ := h.footQ_nonneg (hg.trans hR)
  have hκ : footKappa L M1 M2 0 m R = 0 := by unfold footKappa; simp
  set Q := footQ L M1 M2 0 m R with hQdef
  have hq0 : 0 ≤ Q * gap x0 s := mul_nonneg hQ hg
  have hq1 : Q * gap x0 s ≤ 1 := (mul_le_mul_of_nonneg_left hR hQ).trans h1
  obtain ⟨k, r, w, e, hr, ⟨i1, -⟩, hend⟩ := surfaceInversion_run hE hS hp eps1 eps2 (maxIter := maxIter)
    (Inv := fun n x z => Q * gap x s ≤ (Q * gap x0 s) ^ Nat.fib (n + 2) ∧ Q * gap z s ≤ (Q * gap x0 s) ^ Nat.fib (n + 1) ∧
      gap x s ≤ gap x0 s ∧ gap z s ≤ gap x0 s)
    (fun n x z hx hz ⟨i1, i2, i3, i4⟩ => by
      have hxR := i3.trans hR
      have hzR := i4.trans hR
      refine ⟨(h.pos.trans_le (h.det x z hx hz hxR hzR)).ne', fun y hy => ?_⟩
      have hst := h.step hx hz hxR hzR hy
      rw [hκ, add_zero] at hst
      have hm0 : 0 ≤ max (gap x s) (gap z s) := le_max_of_le_left (gap_nonneg _ _)
      refine ⟨?_, i1, ?_, i3⟩
      · have hmax : Q * max (gap x s) (gap z s) ≤ (Q * gap x0 s) ^ Nat.fib (n + 1) := by
          rcases max_choice (gap x s) (gap z s) with hc | hc
          · rw [hc]; exact i1.trans (pow_le_pow_of_le_one hq0 hq1 (Nat.fib_mono (by omega)))
          · rw [hc]; exact i2
        have e : Nat.fib (n + 1 + 2) = Nat.fib (n + 2) + Nat.fib (n + 1) := by
          rw [show n + 1 + 2 = n + 1 + 1 + 1 by omega, Nat.fib_add_two, add_comm]
        rw [e, pow_add]
        have := mul_le_mul_of_nonneg_left hst hQ
        refine this.trans ?_
        rw [mul_left_comm]
        exact mul_le_mul i1 hmax (mul_nonneg hQ hm0) (pow_nonneg hq0 _)
      · refine hst.trans ?_
        have t1 : Q * gap x s ≤ 1 := (mul_le_mul_of_nonneg_left i3 hQ).trans hq1
        exact (mul_le_of_le_one_left hm0 t1).trans (max_le i3 i4))
    hf1 hf h0 ⟨by simp, by simp, le_rfl, le_rfl⟩
  exact ⟨k, r, w, e, hr, i1, hend⟩

end

/-! ## Over the real numbers -/

/-- **C136.** The bounds needed follow from bounds of the partial derivatives: with `M2` for the second derivatives the error
of the linear approximation has the constant `8 M2`. -/
theorem NearFoot.of_ders {D : ℕ → ℕ → ℝ → ℝ → List ℝ} {p : List ℝ} {s : ℝ × ℝ} {M1 M2 δ m R : ℝ} (hs : InUnit s)
    (hR : 0 ≤ R) (hD : PartialDers D s R)
    (foot_u : ip (sub3 (D 0 0 s.1 s.2) p) (D 1 0 s.1 s.2) = 0)
    (foot_v : ip (sub3 (D 0 0 s.1 s.2) p) (D 0 1 s.1 s.2) = 0)
    (dist : ∀ k < 3, |(D 0 0 s.1 s.2).getD k 0 - p.getD k 0| ≤ δ)
    (first : ∀ x, InUnit x → gap x s ≤ R → ∀ k < 3, |(D 1 0 x.1 x.2).getD k 0| ≤ M1 ∧ |(D 0 1 x.1 x.2).getD k 0| ≤ M1)
    (second : ∀ x, InUnit x → gap x s ≤ R → ∀ k < 3, |(D 2 0 x.1 x.2).getD k 0| ≤ M2 ∧
      |(D 1 1 x.1 x.2).getD k 0| ≤ M2 ∧ |(D 0 2 x.1 x.2).getD k 0| ≤ M2)
    (pos : 0 < m)
    (det : ∀ x z, InUnit x → InUnit z → gap x s ≤ R → gap z s ≤ R → m ≤ footDet D p x z) :
    NearFoot D p s (8 * M2) M1 M2 δ m R := by
  have ss : gap s s ≤ R := by unfold gap; simpa using hR
  have hM2 : 0 ≤ M2 := (abs_nonneg _).trans (second s hs ss 0 (by norm_num)).1
  -- the corner `(x.1, s.2)` and the two legs
  have leg1 : ∀ x, InUnit x → gap x s ≤ R → ∀ t ∈ Set.uIcc s.1 x.1, InUnit (t, s.2) ∧ gap (t, s.2) s ≤ gap x s ∧
      |t - s.1| ≤ gap x s := by
    intro x hx hxR t ht
    have h1 := Set.abs_sub_left_of_mem_uIcc ht
    have h2 : |t - s.1| ≤ gap x s := h1.trans (le_max_left _ _)
    refine ⟨⟨Set.uIcc_subset_Icc hs.1 hx.1 ht, hs.2⟩, ?_, h2⟩
    unfold gap
    dsimp only
    rw [sub_self, abs_zero, max_eq_left (abs_nonneg _)]
    exact h2
  have leg2 : ∀ x, InUnit x → gap x s ≤ R → ∀ t ∈ Set.uIcc s.2 x.2, InUnit (x.1, t) ∧ gap (x.1, t) s ≤ gap x s := by
    intro x hx hxR t ht
    have h1 := Set.abs_sub_left_of_mem_uIcc ht
    exact ⟨⟨hx.1, Set.uIcc_subset_Icc hs.2 hx.2 ht⟩, max_le (le_max_left _ _) (h1.trans (le_max_right _ _))⟩
  have lip : ∀ x, InUnit x → gap x s ≤ R → ∀ k < 3,
      |(D 1 0 x.1 x.2).getD k 0 - (D 1 0 s.1 s.2).getD k 0| ≤ 2 * M2 * gap x s ∧
      |(D 0 1 x.1 x.2).getD k 0 - (D 0 1 s.1 s.2).getD k 0| ≤ 2 * M2 * gap x s := by
    intro x hx hxR k hk
    have hA : |x.1 - s.1| ≤ gap x s := le_max_left _ _
    have hB : |x.2 - s.2| ≤ gap x s := le_max_right _ _
    have mA := mul_le_mul_of_nonneg_left hA hM2
    have mB := mul_le_mul_of_nonneg_left hB hM2
    constructor
    · have t1 := abs_sub_le_of_deriv (c := 0) (M := M2) (g := fun t => (D 1 0 t s.2).getD k 0)
        (g' := fun t => (D 2 0 t s.2).getD k 0) hs.1 hx.1
        (fun t ht => (hD 1 0 (by norm_num) k hk (t, s.2) (leg1 x hx hxR t ht).1 ((leg1 x hx hxR t ht).2.1.trans hxR)).1)
        (fun t ht => by
          rw [sub_zero]
          exact (second (t, s.2) (leg1 x hx hxR t ht).1 ((leg1 x hx hxR t ht).2.1.trans hxR) k hk).1)
      have t2 := abs_sub_le_of_deriv (c := 0) (M := M2) (g := fun t => (D 1 0 x.1 t).getD k 0)
        (g' := fun t => (D 1 1 x.1 t).getD k 0) hs.2 hx.2
        (fun t ht => (hD 1 0 (by norm_num) k hk (x.1, t) (leg2 x hx hxR t ht).1 ((leg2 x hx hxR t ht).2.trans hxR)).2)
        (fun t ht => by
          rw [sub_zero]
          exact (second (x.1, t) (leg2 x hx hxR t ht).1 ((leg2 x hx hxR t ht).2.trans hxR) k hk).2.1)
      rw [zero_mul, sub_zero] at t1 t2
      have t3 := abs_sub_le ((D 1 0 x.1 x.2).getD k 0) ((D 1 0 x.1 s.2).getD k 0) ((D 1 0 s.1 s.2).getD k 0)
      linarith
    · have t1 := abs_sub_le_of_deriv (c := 0) (M := M2) (g := fun t => (D 0 1 t s.2).getD k 0)
        (g' := fun t => (D 1 1 t s.2).getD k 0) hs.1 hx.1
        (fun t ht => (hD 0 1 (by norm_num) k hk (t, s.2) (leg1 x hx hxR t ht).1 ((leg1 x hx hxR t ht).2.1.trans hxR)).1)
        (fun t ht => by
          rw [sub_zero]
          exact (second (t, s.2) (leg1 x hx hxR t ht).1 ((leg1 x hx hxR t ht).2.1.trans hxR) k hk).2.1)
      have t2 := abs_sub_le_of_deriv (c := 0) (M := M2) (g := fun t => (D 0 1 x.1 t).getD k 0)
        (g' := fun t => (D 0 2 x.1 t).getD k 0) hs.2 hx.2
        (fun t ht => (hD 0 1 (by norm_num) k hk (x.1, t) (leg2 x hx hxR t ht).1 ((leg2 x hx hxR t ht).2.trans hxR)).2)
        (fun t ht => by
          rw [sub_zero]
          exact (second (x.1, t) (leg2 x hx hxR t ht).1 ((leg2 x hx hxR t ht).2.trans hxR) k hk).2.2)
      rw [zero_mul, sub_zero] at t1 t2
      have t3 := abs_sub_le ((D 0 1 x.1 x.2).getD k 0) ((D 0 1 x.1 s.2).getD k 0) ((D 0 1 s.1 s.2).getD k 0)
      linarith
  refine ⟨hs, foot_u, foot_v, dist, first, second, lip, ?_, by linarith, pos, det⟩
  intro x z hx hz hxR hzR k hk
  have hA : |x.1 - s.1| ≤ gap x s := le_max_left _ _
  have hB : |x.2 - s.2| ≤ gap x s := le_max_right _ _
  have g1 : gap x s ≤ max (gap x s) (gap z s) := le_max_left _ _
  have g2 : gap z s ≤ max (gap x s) (gap z s) := le_max_right _ _
  have hz' := lip z hz hzR k hk
  have m1 := mul_le_mul_of_nonneg_left g1 hM2
  have m2 := mul_le_mul_of_nonneg_left g2 hM2
  have t1 := abs_sub_le_of_deriv (c := (D 1 0 z.1 z.2).getD k 0) (M := 4 * M2 * max (gap x s) (gap z s))
    (g := fun t => (D 0 0 t s.2).getD k 0) (g' := fun t => (D 1 0 t s.2).getD k 0) hs.1 hx.1
    (fun t ht => (hD 0 0 (by norm_num) k hk (t, s.2) (leg1 x hx hxR t ht).1 ((leg1 x hx hxR t ht).2.1.trans hxR)).1)
    (fun t ht => by
      obtain ⟨u1, u2, u3⟩ := leg1 x hx hxR t ht
      have l1 := (lip (t, s.2) u1 (u2.trans hxR) k hk).1
      have l2 := mul_le_mul_of_nonneg_left u2 hM2
      have l3 := abs_sub_le ((D 1 0 t s.2).getD k 0) ((D 1 0 s.1 s.2).getD k 0) ((D 1 0 z.1 z.2).getD k 0)
      rw [abs_sub_comm ((D 1 0 s.1 s.2).getD k 0)] at l3
      linarith [hz'.1])
  have t2 := abs_sub_le_of_deriv (c := (D 0 1 z.1 z.2).getD k 0) (M := 4 * M2 * max (gap x s) (gap z s))
    (g := fun t => (D 0 0 x.1 t).getD k 0) (g' := fun t => (D 0 1 x.1 t).getD k 0) hs.2 hx.2
    (fun t ht => (hD 0 0 (by norm_num) k hk (x.1, t) (leg2 x hx hxR t ht).1 ((leg2 x hx hxR t ht).2.trans hxR)).2)
    (fun t ht => by
      obtain ⟨u1, u2⟩ := leg2 x hx hxR t ht
      have l1 := (lip (x.1, t) u1 (u2.trans hxR) k hk).2
      have l2 := mul_le_mul_of_nonneg_left u2 hM2
      have l3 := abs_sub_le ((D 0 1 x.1 t).getD k 0) ((D 0 1 s.1 s.2).getD k 0) ((D 0 1 z.1 z.2).getD k 0)
      rw [abs_sub_comm ((D 0 1 s.1 s.2).getD k 0)] at l3
      linarith [hz'.2])
  have hG := gap_nonneg x s
  have hM := hG.trans g1
  have n1 := mul_le_mul_of_nonneg_left hA (mul_nonneg (mul_nonneg (by norm_num : (0 : ℝ) ≤ 4) hM2) hM)
  have n2 := mul_le_mul_of_nonneg_left hB (mul_nonneg (mul_nonneg (by norm_num : (0 : ℝ) ≤ 4) hM2) hM)
  have e : (D 0 0 x.1 x.2).getD k 0 - (D 0 0 s.1 s.2).getD k 0 - ((D 1 0 z.1 z.2).getD k 0 * (x.1 - s.1) +
      (D 0 1 z.1 z.2).getD k 0 * (x.2 - s.2))
      = ((D 0 0 x.1 s.2).getD k 0 - (D 0 0 s.1 s.2).getD k 0 - (D 1 0 z.1 z.2).getD k 0 * (x.1 - s.1)) +
        ((D 0 0 x.1 x.2).getD k 0 - (D 0 0 x.1 s.2).getD k 0 - (D 0 1 z.1 z.2).getD k 0 * (x.2 - s.2)) := by ring
  rw [e]
  refine (abs_add_le _ _).trans ((add_le_add (t1.trans n1) (t2.trans n2)).trans (le_of_eq (by ring)))

/-! ## The parabolic cylinder -/

theorem trough_near {d : ℝ} (hd : 0 ≤ d ∧ d ≤ 1/1000) :
    NearFoot troughDers (troughPt d) (401/1000, 2/5) (8 * 2) 1 2 d 1 (1/1000) := by
  refine NearFoot.of_ders ⟨by norm_num, by norm_num⟩ (by norm_num) (trough_partials _ _) ?_ ?_ ?_ ?_ ?_ (by norm_num) ?_
  · simp only [troughDers, troughPt, sub3, ip, List.getD_cons_zero, List.getD_cons_succ]
    ring
  · simp only [troughDers, troughPt, sub3, ip, List.getD_cons_zero, List.getD_cons_succ]
    ring
  · intro k hk
    interval_cases k <;> simp only [troughDers, troughPt, List.getD_cons_zero, List.getD_cons_succ] <;> rw [abs_le] <;>
      constructor <;> linarith
  · rintro ⟨u, v⟩ ⟨hu, hv⟩ hg k hk
    dsimp only at hu hv
    interval_cases k <;> simp only [troughDers, List.getD_cons_zero, List.getD_cons_succ] <;> refine ⟨?_, ?_⟩ <;>
      rw [abs_le] <;> constructor <;> linarith
  · rintro ⟨u, v⟩ - hg k hk
    interval_cases k <;> norm_num [troughDers]
  · rintro ⟨u, v⟩ ⟨u', v'⟩ - - hg hg'
    have h1 := abs_le.1 ((le_max_left _ _).trans hg)
    have h2 := abs_le.1 ((le_max_left _ _).trans hg')
    dsimp only at h1 h2
    simp only [footDet, troughDers, troughPt, sub3, ip, List.getD_cons_zero, List.getD_cons_succ]
    nlinarith [h1.1, h1.2, h2.1, h2.2]

/-- A point of the surface. -/
example {nm : Num ℝ} (hE : Euclidean nm) (maxIter : ℕ) : ∃ (k : ℕ) (r w : ℝ × ℝ),
    surfaceInversion (maxIter + 1) nm (exTrough.like nm.norm) (troughPt 0) (1/1000000) (1/1000000) maxIter = .ok r ∧
      InUnit r ∧ gap r (401/1000, 2/5) ≤ (9/20) ^ Nat.fib (k + 2) / 400 ∧
      (k = maxIter + 1 ∨ SurfPasses nm troughDers (troughPt 0) (1/1000000) (1/1000000) w r ∨
        ∃ z, SurfShort nm troughDers (1/1000000) z w r) := by
  obtain ⟨k, r, w, e, hr, hk, hend⟩ := surface_inversion_on_surface hE (exTrough_smooth nm.norm) rfl (1/1000000) (1/1000000)
    (maxIter := maxIter) (trough_near (d := 0) (by norm_num)) (by norm_num [footQ, footG]) (fuel := maxIter + 1) (by omega)
    (by push_cast; omega) (troughPt_guess hE nm.norm (by norm_num)) trough_start.le
  refine ⟨k, r, w, e, hr, ?_, ?_⟩
  · rw [trough_start] at hk
    have h1 := hk.trans (pow_le_pow_left₀ (by norm_num [footQ, footG]) (show _ ≤ (9/20 : ℝ) by norm_num [footQ, footG]) _)
    have h2 : (400 : ℝ) ≤ footQ (8 * 2) 1 2 0 1 (1/1000) := by norm_num [footQ, footG]
    rw [le_div_iff₀' (by norm_num)]
    exact (mul_le_mul_of_nonneg_right h2 (gap_nonneg _ _)).trans h1
  · rcases hend with h | h
    · exact Or.inl (by omega)
    · exact Or.inr h

/-- A point at the distance of about `1/1000` from the surface. -/
example {nm : Num ℝ} (hE : Euclidean nm) (maxIter : ℕ) : ∃ (k : ℕ) (r w : ℝ × ℝ),
    surfaceInversion (maxIter + 1) nm (exTrough.like nm.norm) (troughPt (1/1000)) (1/1000000) (1/1000000) maxIter = .ok r ∧
      InUnit r ∧ gap r (401/1000, 2/5) ≤ (3/5) ^ ((k + 1) / 2) / 1000 ∧
      (k = maxIter + 1 ∨ SurfPasses nm troughDers (troughPt (1/1000)) (1/1000000) (1/1000000) w r ∨
        ∃ z, SurfShort nm troughDers (1/1000000) z w r) := by
  obtain ⟨k, r, w, e, hr, hk, hend⟩ := surface_inversion_converges hE (exTrough_smooth nm.norm) rfl (1/1000000) (1/1000000)
    (maxIter := maxIter) (θ := 3/5) (trough_near (d := 1/1000) (by norm_num)) (by norm_num [footQ, footKappa, footG])
    (by norm_num) (fuel := maxIter + 1) (by omega)
    (by push_cast; omega) (troughPt_guess hE nm.norm (by norm_num)) trough_start.le
  refine ⟨k, r, w, e, hr, ?_, ?_⟩
  · rw [trough_start] at hk
    exact hk.trans (le_of_eq (by rw [mul_one_div]))
  · rcases hend with h | h
    · exact Or.inl (by omega)
    · exact Or.inr h

end PySpline
