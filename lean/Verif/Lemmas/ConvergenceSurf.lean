import Verif.Props.SurfaceInversion
import Verif.Lemmas.Convergence
import Mathlib.Data.Nat.Fib.Basic

/-!
# The iteration of `surface_inversion` near a foot point
-/

set_option linter.unusedSectionVars false

namespace PySpline

section
variable {K : Type} [Field K] [LinearOrder K] [IsStrictOrderedRing K]

/-- The pair lies in the unit square. -/
def InUnit (x : K × K) : Prop := (0 ≤ x.1 ∧ x.1 ≤ 1) ∧ 0 ≤ x.2 ∧ x.2 ≤ 1

/-- The larger of the differences of the two parameters. -/
def gap (x s : K × K) : K := max |x.1 - s.1| |x.2 - s.2|

/-- The determinant of the Jacobian with the point at `x` and the derivatives at `z`. -/
def footDet (D : ℕ → ℕ → K → K → List K) (p : List K) (x z : K × K) : K :=
  let r := sub3 (D 0 0 x.1 x.2) p
  let d := fun a b => D a b z.1 z.2
  (ip (d 1 0) (d 1 0) + ip r (d 2 0)) * (ip (d 0 1) (d 0 1) + ip r (d 0 2)) -
    (ip (d 1 0) (d 0 1) + ip r (d 1 1)) * (ip (d 1 0) (d 0 1) + ip r (d 1 1))

theorem surfStep_ok {nm : Num K} (hE : Euclidean nm) {S : SurfLike K} {D : ℕ → ℕ → K → K → List K}
    (hS : S.Smooth D) {p : List K} (hp : p.length = 3) {x z : K × K} (hx : InUnit x) (hd : footDet D p x z ≠ 0) :
    ∃ y, surfStep nm S p x.1 x.2 ⟨D 1 0 z.1 z.2, D 0 1 z.1 z.2, D 2 0 z.1 z.2, D 0 2 z.1 z.2, D 1 1 z.1 z.2⟩ = .ok y := by
  have L := fun a b => hS.len a b z.1 z.2
  unfold footDet at hd
  dsimp only at hd
  unfold surfStep
  dsimp only
  rw [hS.pt _ _ hx.1.1 hx.1.2 hx.2.1 hx.2.2, ok_bind, vsub_len3 (hS.len _ _ _ _) hp, ok_bind, dot_len3 rfl (L 1 0),
    ok_bind, dot_len3 rfl (L 0 1), ok_bind, dot_len3 rfl (L 2 0), ok_bind, dot_len3 (L 1 0) (L 0 1),
    ok_bind, dot_len3 rfl (L 1 1), ok_bind, dot_len3 rfl (L 0 2), ok_bind, hE.sq_ip (L 1 0), hE.sq_ip (L 0 1), if_neg hd]
  exact ⟨_, rfl⟩

/-- A run along an invariant: `Inv n x z` holds after `n` steps at the pair `x` with the pair `z` before it. -/
theorem surfLoop_run {nm : Num K} (hE : Euclidean nm) {S : SurfLike K} {D : ℕ → ℕ → K → K → List K}
    (hS : S.Smooth D) {p : List K} (hp : p.length = 3) {eps1 eps2 : K} {maxIter : ℤ}
    {Inv : ℕ → K × K → K × K → Prop} (hInv : ∀ n x z, InUnit x → InUnit z → Inv n x z → footDet D p x z ≠ 0 ∧
      ∀ y, NewtonRel2 D p z x y → Inv (n + 1) y x) (fuel : ℕ) : ∀ (n : ℕ) (j : ℤ) (x z : K × K), InUnit x → InUnit z →
    Inv n x z → 1 ≤ fuel → maxIter + 1 - j ≤ fuel → ∃ (k : ℕ) (r w : K × K),
    surfLoop nm S p eps1 eps2 maxIter fuel j x.1 x.2 ⟨D 1 0 z.1 z.2, D 0 1 z.1 z.2, D 2 0 z.1 z.2,
      D 0 2 z.1 z.2, D 1 1 z.1 z.2⟩ = .ok r ∧ InUnit r ∧ n < k ∧ Inv k r w ∧
      ((k : ℤ) = n + max 1 (maxIter + 1 - j) ∨ SurfPasses nm D p eps1 eps2 w r ∨ ∃ z', SurfShort nm D eps1 z' w r) := by
  induction fuel with
  | zero => intro n j x z _ _ _ h; omega
  | succ fuel ih =>
    intro n j x z hx hz hI _ hf
    obtain ⟨hd, hnext⟩ := hInv n x z hx hz hI
    obtain ⟨y, hs⟩ := surfStep_ok hE hS hp hx hd
    have hy := surfStep_mem hs
    have hI' := hnext y (surfStep_rel hE hS hp hx.1.1 hx.1.2 hx.2.1 hx.2.2 hs)
    unfold surfLoop
    rw [hs, ok_bind]
    dsimp only
    rw [vadd_len3 (hS.len _ _ _ _) (hS.len _ _ _ _), ok_bind]
    split
    · rename_i hw
      exact ⟨n + 1, y, x, rfl, hy, by omega, hI', Or.inr (Or.inr ⟨z, hw⟩)⟩
    rw [hS.info hx.1.1 hx.1.2 hx.2.1 hx.2.2, ok_bind, hS.cond1 hp hy.1.1 hy.1.2 hy.2.1 hy.2.2, ok_bind]
    split
    · rename_i hw
      exact ⟨n + 1, y, x, rfl, hy, by omega, hI', Or.inr (Or.inl (Or.inl (by simpa using hw)))⟩
    rw [hS.cond2 hp x hy.1.1 hy.1.2 hy.2.1 hy.2.2, ok_bind]
    split
    · rename_i hw
      exact ⟨n + 1, y, x, rfl, hy, by omega, hI', Or.inr (Or.inl (passes_of_cond2 hE hS hw))⟩
    split
    · rename_i hj
      refine ⟨n + 1, y, x, rfl, hy, by omega, hI', Or.inl ?_⟩
      rw [max_eq_left (by omega)]
      push_cast
      rfl
    · rename_i hj
      obtain ⟨k, r, w, e, hr, hk, hIk, hend⟩ := ih (n + 1) (j + 1) y x hy hx hI' (by push_cast at hf; omega)
        (by push_cast at hf; omega)
      refine ⟨k, r, w, e, hr, by omega, hIk, hend.imp_left fun hend => ?_⟩
      rw [max_eq_right (by omega)] at hend ⊢
      push_cast at hend
      omega

/-- The same for the whole function: the initial guess passes a test, or the loop runs. -/
theorem surfaceInversion_run {nm : Num K} (hE : Euclidean nm) {S : SurfLike K} {D : ℕ → ℕ → K → K → List K}
    (hS : S.Smooth D) {p : List K} (hp : p.length = 3) (eps1 eps2 : K) {maxIter : ℤ}
    {Inv : ℕ → K × K → K × K → Prop} (hInv : ∀ n x z, InUnit x → InUnit z → Inv n x z → footDet D p x z ≠ 0 ∧
      ∀ y, NewtonRel2 D p z x y → Inv (n + 1) y x) {fuel : ℕ} (hf1 : 1 ≤ fuel) (hf : maxIter + 1 ≤ fuel) {x0 : K × K}
    (h0 : initialGuessSurf nm S p = .ok x0) (hI : Inv 0 x0 x0) : ∃ (k : ℕ) (r w : K × K),
    surfaceInversion fuel nm S p eps1 eps2 maxIter = .ok r ∧ InUnit r ∧ Inv k r w ∧
      ((k : ℤ) = max 1 (maxIter + 1) ∨ SurfPasses nm D p eps1 eps2 w r ∨ ∃ z', SurfShort nm D eps1 z' w r) := by
  have hx : InUnit x0 := by
    obtain ⟨⟨k, hk, e⟩, l, hl, e'⟩ := initialGuessSurf_grid h0
    unfold InUnit
    rw [e, e']
    exact ⟨grid_mem_unit hk, grid_mem_unit hl⟩
  unfold surfaceInversion
  rw [h0, ok_bind]
  dsimp only
  rw [hS.info hx.1.1 hx.1.2 hx.2.1 hx.2.2, ok_bind, hS.cond1 hp hx.1.1 hx.1.2 hx.2.1 hx.2.2, ok_bind]
  split
  · rename_i hw
    exact ⟨0, x0, x0, rfl, hx, hI, Or.inr (Or.inl (Or.inl (by simpa using hw)))⟩
  rw [hS.cond2 hp x0 hx.1.1 hx.1.2 hx.2.1 hx.2.2, ok_bind]
  split
  · rename_i hw
    exact ⟨0, x0, x0, rfl, hx, hI, Or.inr (Or.inl (passes_of_cond2 hE hS hw))⟩
  obtain ⟨k, r, w, e, hr, -, hIk, hend⟩ := surfLoop_run hE hS hp (eps1 := eps1) (eps2 := eps2) (maxIter := maxIter) hInv fuel
    0 0 x0 x0 hx hx hI hf1 (by omega)
  rw [sub_zero] at hend
  exact ⟨k, r, w, e, hr, hIk, hend.imp_left fun h => by push_cast at h; rw [h, zero_add]⟩

/-! ## The error of one step -/

/-- The vector with the given coordinates. -/
def vec (f : ℕ → K) : List K := [f 0, f 1, f 2]

theorem abs_ip_le {a b : List K} {α β : K} (ha : ∀ k < 3, |a.getD k 0| ≤ α) (hb : ∀ k < 3, |b.getD k 0| ≤ β) :
    |ip a b| ≤ 3 * (α * β) := by
  have h : ∀ k < 3, |a.getD k 0 * b.getD k 0| ≤ α * β := fun k hk => by
    rw [abs_mul]
    exact mul_le_mul (ha k hk) (hb k hk) (abs_nonneg _) ((abs_nonneg _).trans (ha k hk))
  unfold ip
  have h0 := h 0 (by norm_num)
  have h1 := h 1 (by norm_num)
  have h2 := h 2 (by norm_num)
  have t1 := abs_add_le (a.getD 0 0 * b.getD 0 0) (a.getD 1 0 * b.getD 1 0)
  have t2 := abs_add_le (a.getD 0 0 * b.getD 0 0 + a.getD 1 0 * b.getD 1 0) (a.getD 2 0 * b.getD 2 0)
  linarith

theorem vec_getD {f : ℕ → K} {k : ℕ} (hk : k < 3) : (vec f).getD k 0 = f k := by
  interval_cases k <;> rfl

/-- `s` is a foot point of `p` at distance at most `δ` (in each coordinate) with bounds on the derivatives of the surface
in the square of radius `R` around it: `M1` for the first and `M2` for the second derivatives, `L` for the error of the
linear approximation, and `m` as a lower bound of the determinant of the Jacobian. -/
structure NearFoot (D : ℕ → ℕ → K → K → List K) (p : List K) (s : K × K) (L M1 M2 δ m R : K) : Prop where
  mem : InUnit s
  foot_u : ip (sub3 (D 0 0 s.1 s.2) p) (D 1 0 s.1 s.2) = 0
  foot_v : ip (sub3 (D 0 0 s.1 s.2) p) (D 0 1 s.1 s.2) = 0
  dist : ∀ k < 3, |(D 0 0 s.1 s.2).getD k 0 - p.getD k 0| ≤ δ
  first : ∀ x, InUnit x → gap x s ≤ R → ∀ k < 3, |(D 1 0 x.1 x.2).getD k 0| ≤ M1 ∧ |(D 0 1 x.1 x.2).getD k 0| ≤ M1
  second : ∀ x, InUnit x → gap x s ≤ R → ∀ k < 3, |(D 2 0 x.1 x.2).getD k 0| ≤ M2 ∧
    |(D 1 1 x.1 x.2).getD k 0| ≤ M2 ∧ |(D 0 2 x.1 x.2).getD k 0| ≤ M2
  lip : ∀ x, InUnit x → gap x s ≤ R → ∀ k < 3,
    |(D 1 0 x.1 x.2).getD k 0 - (D 1 0 s.1 s.2).getD k 0| ≤ 2 * M2 * gap x s ∧
    |(D 0 1 x.1 x.2).getD k 0 - (D 0 1 s.1 s.2).getD k 0| ≤ 2 * M2 * gap x s
  taylor : ∀ x z, InUnit x → InUnit z → gap x s ≤ R → gap z s ≤ R → ∀ k < 3,
    |(D 0 0 x.1 x.2).getD k 0 - (D 0 0 s.1 s.2).getD k 0 - ((D 1 0 z.1 z.2).getD k 0 * (x.1 - s.1) +
      (D 0 1 z.1 z.2).getD k 0 * (x.2 - s.2))| ≤ L * (gap x s * max (gap x s) (gap z s))
  nonneg : 0 ≤ L
  pos : 0 < m
  det : ∀ x z, InUnit x → InUnit z → gap x s ≤ R → gap z s ≤ R → m ≤ footDet D p x z

theorem gap_nonneg (x s : K × K) : 0 ≤ gap x s := le_max_of_le_left (abs_nonneg _)

theorem gap_clamp_le {s : K × K} (hs : InUnit s) (a b : K) :
    gap (max 0 (min 1 a), max 0 (min 1 b)) s ≤ gap (a, b) s :=
  max_le_max (abs_clamp_sub_le hs.1) (abs_clamp_sub_le hs.2)

/-- Half of the residual of the linearised equations: the component for one of the two equations. -/
theorem residual_le {X S p U V U0 UU UV : List K} {A B e g M1 M2 δ ρ W : K}
    (hfoot : ip (sub3 S p) U0 = 0) (hA : |A| ≤ e) (hB : |B| ≤ e) (hd : ∀ k < 3, |S.getD k 0 - p.getD k 0| ≤ δ)
    (hU : ∀ k < 3, |U.getD k 0| ≤ M1) (hUU : ∀ k < 3, |UU.getD k 0| ≤ M2) (hUV : ∀ k < 3, |UV.getD k 0| ≤ M2)
    (hl : ∀ k < 3, |U.getD k 0 - U0.getD k 0| ≤ 2 * M2 * g)
    (hX : ∀ k < 3, |X.getD k 0 - S.getD k 0| ≤ ρ * e)
    (hW : ∀ k < 3, |X.getD k 0 - S.getD k 0 - (U.getD k 0 * A + V.getD k 0 * B)| ≤ W) :
    |(ip U U + ip (sub3 X p) UU) * A + (ip U V + ip (sub3 X p) UV) * B - ip (sub3 X p) U|
      ≤ 3 * (M1 * W) + 3 * (ρ * e * (2 * (M2 * e))) + 3 * (δ * (2 * (M2 * e) + 2 * M2 * g)) := by
  have hM2 : 0 ≤ M2 := (abs_nonneg _).trans (hUU 0 (by norm_num))
  have h2 : ∀ k < 3, |UU.getD k 0 * A + UV.getD k 0 * B| ≤ 2 * (M2 * e) := by
    intro k hk
    have t := abs_add_le (UU.getD k 0 * A) (UV.getD k 0 * B)
    rw [abs_mul, abs_mul] at t
    have u1 := mul_le_mul (hUU k hk) hA (abs_nonneg _) hM2
    have u2 := mul_le_mul (hUV k hk) hB (abs_nonneg _) hM2
    linarith
  have e1 : (ip U U + ip (sub3 X p) UU) * A + (ip U V + ip (sub3 X p) UV) * B - ip (sub3 X p) U
      = ip U (vec fun k => U.getD k 0 * A + V.getD k 0 * B - (X.getD k 0 - S.getD k 0))
        + ip (vec fun k => X.getD k 0 - S.getD k 0) (vec fun k => UU.getD k 0 * A + UV.getD k 0 * B)
        + ip (vec fun k => S.getD k 0 - p.getD k 0)
          (vec fun k => UU.getD k 0 * A + UV.getD k 0 * B - (U.getD k 0 - U0.getD k 0)) := by
    simp only [ip, sub3, vec, List.getD_cons_zero, List.getD_cons_succ] at hfoot ⊢
    linear_combination -hfoot
  have b1 := abs_ip_le hU (b := vec fun k => U.getD k 0 * A + V.getD k 0 * B - (X.getD k 0 - S.getD k 0)) (β := W)
    fun k hk => by rw [vec_getD hk, abs_sub_comm]; exact hW k hk
  have b2 := abs_ip_le (a := vec fun k => X.getD k 0 - S.getD k 0) (b := vec fun k => UU.getD k 0 * A + UV.getD k 0 * B)
    (fun k hk => by rw [vec_getD hk]; exact hX k hk) (fun k hk => by rw [vec_getD hk]; exact h2 k hk)
  have b3 := abs_ip_le (a := vec fun k => S.getD k 0 - p.getD k 0)
    (b := vec fun k => UU.getD k 0 * A + UV.getD k 0 * B - (U.getD k 0 - U0.getD k 0)) (β := 2 * (M2 * e) + 2 * M2 * g)
    (fun k hk => by rw [vec_getD hk]; exact hd k hk) (fun k hk => by
      rw [vec_getD hk]
      exact (abs_sub _ _).trans (add_le_add (h2 k hk) (hl k hk)))
  rw [e1]
  have t1 := abs_add_le (ip U (vec fun k => U.getD k 0 * A + V.getD k 0 * B - (X.getD k 0 - S.getD k 0))
        + ip (vec fun k => X.getD k 0 - S.getD k 0) (vec fun k => UU.getD k 0 * A + UV.getD k 0 * B))
    (ip (vec fun k => S.getD k 0 - p.getD k 0)
          (vec fun k => UU.getD k 0 * A + UV.getD k 0 * B - (U.getD k 0 - U0.getD k 0)))
  have t2 := abs_add_le (ip U (vec fun k => U.getD k 0 * A + V.getD k 0 * B - (X.getD k 0 - S.getD k 0)))
    (ip (vec fun k => X.getD k 0 - S.getD k 0) (vec fun k => UU.getD k 0 * A + UV.getD k 0 * B))
  linarith

/-- A bound for the entries of the Jacobian. -/
def footG (L M1 M2 δ R : K) : K := 3 * (M1 * M1) + 3 * ((δ + (2 * M1 + L * R) * R) * M2)

/-- The constant of the quadratic part of the error. -/
def footQ (L M1 M2 δ m R : K) : K := 2 * footG L M1 M2 δ R * (3 * (M1 * L) + 6 * ((2 * M1 + L * R) * M2)) / m

/-- The constant of the linear part of the error, which vanishes for points on the surface. -/
def footKappa (L M1 M2 δ m R : K) : K := 24 * footG L M1 M2 δ R * (δ * M2) / m

theorem NearFoot.footQ_nonneg {D : ℕ → ℕ → K → K → List K} {p : List K} {s : K × K} {L M1 M2 δ m R : K}
    (h : NearFoot D p s L M1 M2 δ m R) (hR : 0 ≤ R) : 0 ≤ footQ L M1 M2 δ m R := by
  have hs : gap s s ≤ R := by unfold gap; simpa using hR
  have hM1 := (abs_nonneg _).trans (h.first s h.mem hs 0 (by norm_num)).1
  have hM2 := (abs_nonneg _).trans (h.second s h.mem hs 0 (by norm_num)).1
  have hδ := (abs_nonneg _).trans (h.dist 0 (by norm_num))
  have hL := h.nonneg
  have hm := h.pos
  unfold footQ footG
  positivity

theorem NearFoot.footKappa_nonneg {D : ℕ → ℕ → K → K → List K} {p : List K} {s : K × K} {L M1 M2 δ m R : K}
    (h : NearFoot D p s L M1 M2 δ m R) (hR : 0 ≤ R) : 0 ≤ footKappa L M1 M2 δ m R := by
  have hs : gap s s ≤ R := by unfold gap; simpa using hR
  have hM1 := (abs_nonneg _).trans (h.first s h.mem hs 0 (by norm_num)).1
  have hM2 := (abs_nonneg _).trans (h.second s h.mem hs 0 (by norm_num)).1
  have hδ := (abs_nonneg _).trans (h.dist 0 (by norm_num))
  have hL := h.nonneg
  have hm := h.pos
  unfold footKappa footG
  positivity

theorem NearFoot.step {D : ℕ → ℕ → K → K → List K} {p : List K} {s : K × K} {L M1 M2 δ m R : K}
    (h : NearFoot D p s L M1 M2 δ m R) {x y z : K × K} (hx : InUnit x) (hz : InUnit z) (hxR : gap x s ≤ R)
    (hzR : gap z s ≤ R) (hrel : NewtonRel2 D p z x y) :
    gap y s ≤ (footQ L M1 M2 δ m R * gap x s + footKappa L M1 M2 δ m R) * max (gap x s) (gap z s) := by
  obtain ⟨-, σ, τ, e1, e2, rfl⟩ := hrel
  refine (gap_clamp_le h.mem _ _).trans ?_
  have hdet := h.det x z hx hz hxR hzR
  unfold footDet at hdet
  dsimp only at e1 e2 hdet
  have he0 := gap_nonneg x s
  have hz0 := gap_nonneg z s
  have hA : |x.1 - s.1| ≤ gap x s := le_max_left _ _
  have hB : |x.2 - s.2| ≤ gap x s := le_max_right _ _
  have hg1 : gap x s ≤ max (gap x s) (gap z s) := le_max_left _ _
  have hg2 : gap z s ≤ max (gap x s) (gap z s) := le_max_right _ _
  have hgR : max (gap x s) (gap z s) ≤ R := max_le hxR hzR
  have hT := h.taylor x z hx hz hxR hzR
  have hF := h.first z hz hzR
  have hM := h.second z hz hzR
  have hl := h.lip z hz hzR
  have hd := h.dist
  have hM1 : 0 ≤ M1 := (abs_nonneg _).trans (hF 0 (by norm_num)).1
  have hM2 : 0 ≤ M2 := (abs_nonneg _).trans (hM 0 (by norm_num)).1
  have hδ : 0 ≤ δ := (abs_nonneg _).trans (hd 0 (by norm_num))
  have hρ : 0 ≤ 2 * M1 + L * R := by have := mul_nonneg h.nonneg (he0.trans hxR); linarith
  have hX : ∀ k < 3, |(D 0 0 x.1 x.2).getD k 0 - (D 0 0 s.1 s.2).getD k 0| ≤ (2 * M1 + L * R) * gap x s := by
    intro k hk
    have t0 := hT k hk
    have hL : L * (gap x s * max (gap x s) (gap z s)) ≤ L * R * gap x s := by
      have := mul_le_mul_of_nonneg_left (mul_le_mul_of_nonneg_left hgR he0) h.nonneg
      linarith
    have t1 := abs_add_le ((D 1 0 z.1 z.2).getD k 0 * (x.1 - s.1)) ((D 0 1 z.1 z.2).getD k 0 * (x.2 - s.2))
    rw [abs_mul, abs_mul] at t1
    have t2 := mul_le_mul (hF k hk).1 hA (abs_nonneg _) hM1
    have t3 := mul_le_mul (hF k hk).2 hB (abs_nonneg _) hM1
    have t4 := abs_add_le ((D 0 0 x.1 x.2).getD k 0 - (D 0 0 s.1 s.2).getD k 0 - ((D 1 0 z.1 z.2).getD k 0 * (x.1 - s.1) +
      (D 0 1 z.1 z.2).getD k 0 * (x.2 - s.2))) ((D 1 0 z.1 z.2).getD k 0 * (x.1 - s.1) +
      (D 0 1 z.1 z.2).getD k 0 * (x.2 - s.2))
    rw [sub_add_cancel] at t4
    linarith
  have hr : ∀ k < 3, |(sub3 (D 0 0 x.1 x.2) p).getD k 0| ≤ δ + (2 * M1 + L * R) * R := by
    intro k hk
    have e : (sub3 (D 0 0 x.1 x.2) p).getD k 0 = ((D 0 0 x.1 x.2).getD k 0 - (D 0 0 s.1 s.2).getD k 0) +
        ((D 0 0 s.1 s.2).getD k 0 - p.getD k 0) := by
      interval_cases k <;> simp [sub3]
    rw [e]
    have t := abs_add_le ((D 0 0 x.1 x.2).getD k 0 - (D 0 0 s.1 s.2).getD k 0) ((D 0 0 s.1 s.2).getD k 0 - p.getD k 0)
    have t1 := hX k hk
    have t2 : (2 * M1 + L * R) * gap x s ≤ (2 * M1 + L * R) * R :=
      mul_le_mul_of_nonneg_left hxR hρ
    have t3 := hd k hk
    linarith
  -- the residuals of the two linearised equations
  have v1 := residual_le (V := D 0 1 z.1 z.2) h.foot_u hA hB hd (fun k hk => (hF k hk).1) (fun k hk => (hM k hk).1)
    (fun k hk => (hM k hk).2.1) (fun k hk => (hl k hk).1) hX hT
  have v2 := residual_le (V := D 1 0 z.1 z.2) h.foot_v hB hA hd (fun k hk => (hF k hk).2) (fun k hk => (hM k hk).2.2)
    (fun k hk => (hM k hk).2.1) (fun k hk => (hl k hk).2) hX (fun k hk => by rw [add_comm (_ * (x.2 - s.2))]; exact hT k hk)
  -- the entries of the Jacobian
  have g1 := abs_ip_le (a := D 1 0 z.1 z.2) (b := D 1 0 z.1 z.2) (fun k hk => (hF k hk).1) (fun k hk => (hF k hk).1)
  have g2 := abs_ip_le (a := D 1 0 z.1 z.2) (b := D 0 1 z.1 z.2) (fun k hk => (hF k hk).1) (fun k hk => (hF k hk).2)
  have g3 := abs_ip_le (a := D 0 1 z.1 z.2) (b := D 0 1 z.1 z.2) (fun k hk => (hF k hk).2) (fun k hk => (hF k hk).2)
  have g4 := abs_ip_le (b := D 2 0 z.1 z.2) hr (fun k hk => (hM k hk).1)
  have g5 := abs_ip_le (b := D 1 1 z.1 z.2) hr (fun k hk => (hM k hk).2.1)
  have g6 := abs_ip_le (b := D 0 2 z.1 z.2) hr (fun k hk => (hM k hk).2.2)
  rw [ip_comm (D 0 1 z.1 z.2) (D 1 0 z.1 z.2)] at v2
  generalize hr' : sub3 (D 0 0 x.1 x.2) p = r at *
  have f1 : |ip (D 1 0 z.1 z.2) (D 1 0 z.1 z.2) + ip r (D 2 0 z.1 z.2)| ≤ footG L M1 M2 δ R :=
    (abs_add_le _ _).trans (add_le_add g1 g4)
  have f2 : |ip (D 1 0 z.1 z.2) (D 0 1 z.1 z.2) + ip r (D 1 1 z.1 z.2)| ≤ footG L M1 M2 δ R :=
    (abs_add_le _ _).trans (add_le_add g2 g5)
  have f3 : |ip (D 0 1 z.1 z.2) (D 0 1 z.1 z.2) + ip r (D 0 2 z.1 z.2)| ≤ footG L M1 M2 δ R :=
    (abs_add_le _ _).trans (add_le_add g3 g6)
  generalize ip (D 1 0 z.1 z.2) (D 1 0 z.1 z.2) + ip r (D 2 0 z.1 z.2) = fu at *
  generalize ip (D 1 0 z.1 z.2) (D 0 1 z.1 z.2) + ip r (D 1 1 z.1 z.2) = fv at *
  generalize ip (D 0 1 z.1 z.2) (D 0 1 z.1 z.2) + ip r (D 0 2 z.1 z.2) = gv at *
  generalize ip r (D 1 0 z.1 z.2) = f at *
  generalize ip r (D 0 1 z.1 z.2) = f' at *
  generalize hG : footG L M1 M2 δ R = G at *
  have hG0 : 0 ≤ G := (abs_nonneg _).trans f1
  set V := (3 * (M1 * L) + 6 * ((2 * M1 + L * R) * M2)) * gap x s * max (gap x s) (gap z s) +
    12 * (δ * M2) * max (gap x s) (gap z s) with hV
  have w1 : |fu * (x.1 - s.1) + fv * (x.2 - s.2) - f| ≤ V := v1.trans (by
    have q1 := mul_le_mul_of_nonneg_left (mul_le_mul_of_nonneg_left hg1 he0) (mul_nonneg hρ hM2)
    have q2 := mul_le_mul_of_nonneg_left hg1 (mul_nonneg hδ hM2)
    have q3 := mul_le_mul_of_nonneg_left hg2 (mul_nonneg hδ hM2)
    rw [hV]
    linarith)
  have w2 : |gv * (x.2 - s.2) + fv * (x.1 - s.1) - f'| ≤ V := v2.trans (by
    have q1 := mul_le_mul_of_nonneg_left (mul_le_mul_of_nonneg_left hg1 he0) (mul_nonneg hρ hM2)
    have q2 := mul_le_mul_of_nonneg_left hg1 (mul_nonneg hδ hM2)
    have q3 := mul_le_mul_of_nonneg_left hg2 (mul_nonneg hδ hM2)
    rw [hV]
    linarith)
  have hgoal : (footQ L M1 M2 δ m R * gap x s + footKappa L M1 M2 δ m R) * max (gap x s) (gap z s) = 2 * G * V / m := by
    unfold footQ footKappa
    rw [hG, hV]
    ring
  rw [hgoal, le_div_iff₀ h.pos]
  have bound : ∀ {c a b P Q' : K}, |a| ≤ G → |b| ≤ G → |P| ≤ V → |Q'| ≤ V → (fu * gv - fv * fv) * c = a * P - b * Q' →
      |c| * m ≤ 2 * G * V := by
    intro c a b P Q' ha hb hP hQ hc
    have t1 : |c| * m ≤ |c| * (fu * gv - fv * fv) := mul_le_mul_of_nonneg_left hdet (abs_nonneg _)
    have t2 : |c| * (fu * gv - fv * fv) = |a * P - b * Q'| := by
      rw [← hc, abs_mul, abs_of_nonneg (h.pos.le.trans hdet), mul_comm]
    have t3 := abs_sub (a * P) (b * Q')
    rw [abs_mul, abs_mul] at t3
    have t4 := mul_le_mul ha hP (abs_nonneg _) hG0
    have t5 := mul_le_mul hb hQ (abs_nonneg _) hG0
    linarith
  have b1 : |x.1 + σ - s.1| * m ≤ 2 * G * V := bound f3 f2 w1 w2 (by
    linear_combination gv * e1 - fv * e2)
  have b2 : |x.2 + τ - s.2| * m ≤ 2 * G * V := bound f1 f2 w2 w1 (by
    linear_combination fu * e2 - fv * e1)
  unfold gap
  dsimp only
  rcases max_choice |x.1 + σ - s.1| |x.2 + τ - s.2| with hc | hc
  · rw [hc]; exact b1
  · rw [hc]; exact b2

end

end PySpline
