import Verif.Props.Newton
import Mathlib.Analysis.Calculus.MeanValue
import Mathlib.Analysis.Calculus.Deriv.Mul

/-!
# The Newton iteration of `curve_inversion` near a foot point
-/

set_option linter.unusedSectionVars false

namespace PySpline

section
variable {K : Type} [Field K] [LinearOrder K] [IsStrictOrderedRing K]

/-- `c'(u) · (c(u) - p)`, half the derivative of the squared distance to `p`. -/
def footEq (c c1 : K → List K) (p : List K) (u : K) : K := ip (c1 u) (sub3 (c u) p)

/-- Its derivative, `c''(u) · (c(u) - p) + |c'(u)|²`. -/
def footDer (c c1 c2 : K → List K) (p : List K) (u : K) : K := ip (c2 u) (sub3 (c u) p) + ip (c1 u) (c1 u)

/-- The foot point `s` in `[0, 1]` attracts: within the radius `R` the derivative does not vanish and the tangent at
`u` misses the zero at `s` by at most `q |f'(u)| (s - u)²`. -/
structure Attracts (f f' : K → K) (s q R : K) : Prop where
  mem : 0 ≤ s ∧ s ≤ 1
  pos : 0 ≤ q
  small : q * R < 1
  ne : ∀ u, 0 ≤ u → u ≤ 1 → |u - s| ≤ R → f' u ≠ 0
  taylor : ∀ u, 0 ≤ u → u ≤ 1 → |u - s| ≤ R → |f u + f' u * (s - u)| ≤ q * |f' u| * (s - u) ^ 2

theorem abs_clamp_sub_le {s x : K} (h : 0 ≤ s ∧ s ≤ 1) : |max 0 (min 1 x) - s| ≤ |x - s| := by
  rcases le_total x 0 with h0 | h0
  · rw [min_eq_right (h0.trans zero_le_one), max_eq_left h0, abs_of_nonpos (by linarith), abs_of_nonpos (by linarith)]
    linarith
  rcases le_total x 1 with h1 | h1
  · rw [min_eq_right h1, max_eq_right h0]
  · rw [min_eq_left h1, max_eq_right zero_le_one, abs_of_nonneg (by linarith), abs_of_nonneg (by linarith)]
    linarith

theorem Attracts.step {f f' : K → K} {s q R : K} (h : Attracts f f' s q R) {u : K} (h0 : 0 ≤ u) (h1 : u ≤ 1)
    (hR : |u - s| ≤ R) : |max 0 (min 1 (u - f u / f' u)) - s| ≤ q * (u - s) ^ 2 := by
  refine (abs_clamp_sub_le h.mem).trans ?_
  have hne := h.ne u h0 h1 hR
  have e : u - f u / f' u - s = -((f u + f' u * (s - u)) / f' u) := by field_simp; ring
  rw [e, abs_neg, abs_div, div_le_iff₀ (abs_pos.2 hne)]
  refine (h.taylor u h0 h1 hR).trans (le_of_eq ?_)
  ring

theorem Attracts.near {f f' : K → K} {s q R : K} (h : Attracts f f' s q R) {u u' : K} (hR : |u - s| ≤ R)
    (hu : |u' - s| ≤ q * (u - s) ^ 2) : |u' - s| ≤ R ∧ (1 - q * R) * |u - s| ≤ |u' - u| := by
  have h2 : q * (u - s) ^ 2 ≤ q * R * |u - s| := by
    rw [← sq_abs (u - s), pow_two, ← mul_assoc]
    exact mul_le_mul_of_nonneg_right (mul_le_mul_of_nonneg_left hR h.pos) (abs_nonneg _)
  have h3 : q * R * |u - s| ≤ |u - s| := mul_le_of_le_one_left (abs_nonneg _) h.small.le
  refine ⟨(hu.trans (h2.trans h3)).trans hR, ?_⟩
  have h4 := abs_sub_le u u' s
  rw [abs_sub_comm u u'] at h4
  linarith

theorem Euclidean.norm_smul {nm : Num K} (hE : Euclidean nm) {l : List K} (hl : l.length = 3) (t : K) :
    nm.norm (l.map fun i => i * t) = nm.norm l * |t| := by
  have h1 := hE.nonneg' hl
  have h2 : 0 ≤ nm.norm (l.map fun i => i * t) := hE.nonneg' (by simpa using hl)
  rw [← abs_of_nonneg h2, ← abs_of_nonneg (mul_nonneg h1 (abs_nonneg t)), ← sq_eq_sq_iff_abs_eq_abs, mul_pow, sq_abs,
    hE.sq_ip (by simpa using hl), hE.sq_ip hl]
  obtain ⟨x, y, z, rfl⟩ := List.length_eq_three.1 hl
  simp only [ip, List.map_cons, List.map_nil, List.getD_cons_zero, List.getD_cons_succ]
  ring

/-- Why `curve_inversion` stops at `r` before the iteration limit: the next step is short, or the next iterate, which is
closer to the foot point, passes the distance test or the cosine test. -/
def Stops (nm : Num K) (c c1 : K → List K) (p : List K) (eps1 eps2 s q R r : K) : Prop :=
  nm.norm (c1 r) * ((1 - q * R) * |r - s|) ≤ eps1 ∨
  ∃ r', (0 ≤ r' ∧ r' ≤ 1) ∧ |r' - s| ≤ q * (r - s) ^ 2 ∧ (nm.norm (sub3 (c r') p) ≤ eps1 ∨
    |footEq c c1 p r'| ≤ eps2 * (nm.norm (c1 r') * nm.norm (sub3 (c r') p)))

theorem curveLoop_converges {nm : Num K} (hE : Euclidean nm) {C : CurveLike K} {c c1 c2 : K → List K}
    (hC : C.Smooth c c1 c2) {p : List K} (hp : p.length = 3) {eps1 eps2 : K} {maxIter : ℤ} {s q R : K}
    (hA : Attracts (footEq c c1 p) (footDer c c1 c2 p) s q R) (fuel : ℕ) :
    ∀ (j : ℤ) (u : K), 0 ≤ u → u ≤ 1 → |u - s| ≤ R → 1 ≤ fuel → maxIter + 2 - j ≤ fuel →
    ∃ (k : ℕ) (r : K), curveLoop nm C p eps1 eps2 maxIter fuel j ⟨u, c u, c1 u, c2 u⟩ = .ok r ∧
      (0 ≤ r ∧ r ≤ 1) ∧ q * |r - s| ≤ (q * |u - s|) ^ 2 ^ k ∧
      ((k : ℤ) = max 1 (maxIter + 2 - j) ∨ Stops nm c c1 p eps1 eps2 s q R r) := by
  induction fuel with
  | zero => intro j u _ _ _ h; omega
  | succ fuel ih =>
    intro j u h0 h1 hR _ hf
    obtain ⟨l0, l1, l2⟩ := hC.len u
    unfold curveLoop
    dsimp only
    rw [vsub_len3 l0 hp, ok_bind, dot_len3 l1 rfl, ok_bind, dot_len3 l2 rfl, ok_bind, hE.sq_ip l1]
    have hne := hA.ne u h0 h1 hR
    have hst := hA.step h0 h1 hR
    unfold footDer at hne hst
    unfold footEq at hst
    unfold newtonStep
    rw [if_neg hne, ok_bind, clamp01_eq]
    set u' := max 0 (min 1 (u - ip (c1 u) (sub3 (c u) p) / (ip (c2 u) (sub3 (c u) p) + ip (c1 u) (c1 u)))) with hu'
    have hm : 0 ≤ u' ∧ u' ≤ 1 := ⟨le_max_left _ _, max_le zero_le_one (min_le_left _ _)⟩
    obtain ⟨n1, n2⟩ := hA.near hR hst
    have here : q * |u - s| ≤ (q * |u - s|) ^ 2 ^ 0 := by rw [pow_zero, pow_one]
    have next : q * |u' - s| ≤ (q * |u - s|) ^ 2 := by
      have := mul_le_mul_of_nonneg_left hst hA.pos
      rw [mul_pow, sq_abs]
      linarith [this]
    rw [hE.norm_smul l1]
    split
    · rename_i hs
      refine ⟨0, u, rfl, ⟨h0, h1⟩, here, Or.inr (Or.inl ?_)⟩
      exact (mul_le_mul_of_nonneg_left n2 (hE.nonneg' l1)).trans hs
    rw [hC.info hm.1 hm.2, ok_bind]
    obtain ⟨l0', l1', l2'⟩ := hC.len u'
    unfold curveCond1
    rw [hC.pt u' hm.1 hm.2, ok_bind, vsub_len3 l0' hp, ok_bind, ok_bind]
    split
    · rename_i hs
      exact ⟨0, u, rfl, ⟨h0, h1⟩, here, Or.inr (Or.inr ⟨u', hm, hst, Or.inl (of_decide_eq_true hs)⟩)⟩
    unfold curveCond2
    dsimp only
    rw [vsub_len3 l0' hp, ok_bind, dot_len3 l1' rfl, ok_bind, ok_bind]
    split
    · rename_i hs
      exact ⟨0, u, rfl, ⟨h0, h1⟩, here, Or.inr (Or.inr ⟨u', hm, hst, Or.inr
        (ratioLe_mul (mul_nonneg (hE.nonneg' l1') (hE.nonneg' rfl)) hs)⟩)⟩
    split
    · rename_i hj
      exact ⟨1, u', rfl, hm, by simpa using next, Or.inl (by rw [max_eq_left (by omega)]; rfl)⟩
    · rename_i hj
      obtain ⟨k, r, e, hr, hq, hk⟩ := ih (j + 1) u' hm.1 hm.2 n1 (by omega) (by omega)
      refine ⟨k + 1, r, e, hr, ?_, hk.imp_left fun hk => ?_⟩
      · refine hq.trans ?_
        rw [pow_succ', pow_mul]
        exact pow_le_pow_left₀ (mul_nonneg hA.pos (abs_nonneg _)) next _
      · rw [max_eq_right (by omega)] at hk ⊢
        push_cast
        omega

end

/-- The functions `c1`, `c2` are the derivatives of `c`, `c1` on `[0, 1]`. -/
def Derives (c c1 : ℝ → List ℝ) : Prop :=
  ∀ k < 3, ∀ u ∈ Set.Icc (0 : ℝ) 1,
    HasDerivWithinAt (fun t => (c t).getD k 0) ((c1 u).getD k 0) (Set.Icc 0 1) u

theorem footEq_hasDeriv {c c1 c2 : ℝ → List ℝ} (h1 : Derives c c1) (h2 : Derives c1 c2) (p : List ℝ) {u : ℝ}
    (hu : u ∈ Set.Icc (0 : ℝ) 1) :
    HasDerivWithinAt (footEq c c1 p) (footDer c c1 c2 p u) (Set.Icc 0 1) u := by
  have key := fun k (hk : k < 3) => (h2 k hk u hu).mul ((h1 k hk u hu).sub_const (p.getD k 0))
  have := ((key 0 (by norm_num)).add (key 1 (by norm_num))).add (key 2 (by norm_num))
  refine (this.congr_deriv ?_).congr (fun t _ => ?_) ?_
  · simp only [footDer, ip, sub3, List.getD_cons_zero, List.getD_cons_succ]; ring
  · simp [footEq, ip, sub3]
  · simp [footEq, ip, sub3]

end PySpline
