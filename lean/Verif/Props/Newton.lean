import Verif.Lemmas.NewtonAux
import Verif.Props.Parameterize
import Mathlib.Logic.Relation
import Mathlib.Analysis.Real.Sqrt

/-!
# C89, C90: the Newton steps of the inversion functions
-/

set_option linter.unusedSectionVars false

namespace PySpline

open Spec

section
variable {K : Type} [Field K] [LinearOrder K] [IsStrictOrderedRing K]

/-- The inner product of two 3-D vectors. -/
def ip (a b : List K) : K :=
  a.getD 0 0 * b.getD 0 0 + a.getD 1 0 * b.getD 1 0 + a.getD 2 0 * b.getD 2 0

/-- The difference of two 3-D vectors. -/
def sub3 (a b : List K) : List K :=
  [a.getD 0 0 - b.getD 0 0, a.getD 1 0 - b.getD 1 0, a.getD 2 0 - b.getD 2 0]

/-- The black box evaluates a space curve `c` with derivatives `c1`, `c2` on `[0, 1]`. -/
structure CurveLike.Smooth (C : CurveLike K) (c c1 c2 : K → List K) : Prop where
  pt : ∀ u, 0 ≤ u → u ≤ 1 → C.singlePoint u = .ok (c u)
  ders : ∀ u, 0 ≤ u → u ≤ 1 → ∃ rest, C.ders u = .ok (c u :: c1 u :: c2 u :: rest)
  len : ∀ u, (c u).length = 3 ∧ (c1 u).length = 3 ∧ (c2 u).length = 3

/-- One clamped Newton step for the equation `c'(u) · (c(u) - p) = 0` (the derivative of half the
squared distance to `p`), from `u` to `u'`.  If the second derivative of that distance vanishes but
the first does not, the step goes to an end of the interval. -/
def NewtonRel (c c1 c2 : K → List K) (p : List K) (u u' : K) : Prop :=
  let f := ip (c1 u) (sub3 (c u) p)
  let f' := ip (c2 u) (sub3 (c u) p) + ip (c1 u) (c1 u)
  (f' ≠ 0 ∧ u' = max 0 (min 1 (u - f / f'))) ∨ (f' = 0 ∧ f ≠ 0 ∧ (u' = 0 ∨ u' = 1))

theorem Euclidean.sq_ip {nm : Num K} (h : Euclidean nm) {l : List K} (hl : l.length = 3) :
    nm.norm l ^ 2 = ip l l := by
  obtain ⟨x, y, z, rfl⟩ := List.length_eq_three.1 hl
  rw [h.sq]
  simp [ip]
  ring

theorem vsub_len3 {a b : List K} (ha : a.length = 3) (hb : b.length = 3) :
    vsub a b = .ok (sub3 a b) := by
  obtain ⟨x, y, z, rfl⟩ := List.length_eq_three.1 ha
  obtain ⟨x', y', z', rfl⟩ := List.length_eq_three.1 hb
  rfl

theorem dot_len3 {a b : List K} (ha : a.length = 3) (hb : b.length = 3) :
    dot a b = .ok (ip a b) := by
  obtain ⟨x, y, z, rfl⟩ := List.length_eq_three.1 ha
  obtain ⟨x', y', z', rfl⟩ := List.length_eq_three.1 hb
  simp [dot, ip, add_assoc]

theorem ip_comm (a b : List K) : ip a b = ip b a := by
  unfold ip
  ring

theorem CurveLike.Smooth.info {C : CurveLike K} {c c1 c2 : K → List K} (h : C.Smooth c c1 c2) {u : K}
    (h0 : 0 ≤ u) (h1 : u ≤ 1) : curveInfo C u = .ok ⟨u, c u, c1 u, c2 u⟩ := by
  unfold curveInfo
  obtain ⟨rest, hr⟩ := h.ders u h0 h1
  rw [hr, ok_bind, pyGet_getElem _ 0 0 rfl (by simp), ok_bind, pyGet_getElem _ 1 1 rfl (by simp),
    ok_bind, pyGet_getElem _ 2 2 rfl (by simp), ok_bind]
  rfl

theorem newtonStep_rel {nm : Num K} (hE : Euclidean nm) {C : CurveLike K} {c c1 c2 : K → List K}
    (h : C.Smooth c c1 c2) {p : List K} {u u' : K}
    (hs : newtonStep nm u (ip (c1 u) (sub3 (c u) p))
      (ip (c2 u) (sub3 (c u) p) + nm.norm (c1 u) ^ 2) = .ok u') : NewtonRel c c1 c2 p u u' := by
  rw [hE.sq_ip (h.len u).2.1] at hs
  unfold NewtonRel
  dsimp only
  unfold newtonStep at hs
  split at hs
  · rename_i hd
    split at hs
    · cases hs
    · rename_i hn
      right
      split at hs
      · cases hs; exact ⟨hd, hn, Or.inl rfl⟩
      · cases hs; exact ⟨hd, hn, Or.inr rfl⟩
  · rename_i hd
    left
    cases hs
    exact ⟨hd, clamp01_eq _⟩

theorem curveLoop_chain {nm : Num K} (hE : Euclidean nm) {C : CurveLike K} {c c1 c2 : K → List K}
    (hC : C.Smooth c c1 c2) {p : List K} (hp : p.length = 3) {eps1 eps2 : K} {maxIter : ℤ}
    (fuel : ℕ) : ∀ (j : ℤ) (u r : K), 0 ≤ u → u ≤ 1 →
    curveLoop nm C p eps1 eps2 maxIter fuel j ⟨u, c u, c1 u, c2 u⟩ = .ok r →
    Relation.ReflTransGen (NewtonRel c c1 c2 p) u r := by
  induction fuel with
  | zero => intro j u r _ _ h; cases h
  | succ fuel ih =>
    intro j u r h0 h1 h
    obtain ⟨l0, l1, l2⟩ := hC.len u
    unfold curveLoop at h
    dsimp only at h
    rw [vsub_len3 l0 hp, ok_bind, dot_len3 l1 rfl, ok_bind, dot_len3 l2 rfl, ok_bind] at h
    obtain ⟨u', hs, h⟩ := bind_eq_ok h
    have hm := newtonStep_mem hs
    have hrel := newtonStep_rel hE hC hs
    split at h
    · cases h; exact .refl
    rw [hC.info hm.1 hm.2, ok_bind] at h
    obtain ⟨b1, -, h⟩ := bind_eq_ok h
    split at h
    · cases h; exact .refl
    obtain ⟨b2, -, h⟩ := bind_eq_ok h
    split at h
    · cases h; exact .refl
    split at h
    · cases h; exact .single hrel
    · exact (Relation.ReflTransGen.single hrel).trans (ih _ _ _ hm.1 hm.2 h)

/-- **C89.** Every parameter returned by `curve_inversion` is reached from the initial guess by clamped
Newton steps for the foot point equation. -/
theorem curve_inversion_newton_chain (fuel : ℕ) {nm : Num K} (hE : Euclidean nm) {C : CurveLike K}
    {c c1 c2 : K → List K} (hC : C.Smooth c c1 c2) {p : List K} (hp : p.length = 3) {eps1 eps2 : K}
    {maxIter : ℤ} {r : K} (h : curveInversion fuel nm C p eps1 eps2 maxIter = .ok r) :
    ∃ u0, initialGuessCurve nm C p = .ok u0 ∧
      Relation.ReflTransGen (NewtonRel c c1 c2 p) u0 r := by
  unfold curveInversion at h
  obtain ⟨u0, h0, h⟩ := bind_eq_ok h
  refine ⟨u0, h0, ?_⟩
  obtain ⟨k, hk, e⟩ := initialGuessCurve_grid h0
  have hu := grid_mem_unit (K := K) hk
  rw [← e] at hu
  rw [hC.info hu.1 hu.2, ok_bind] at h
  obtain ⟨b1, -, h⟩ := bind_eq_ok h
  split at h
  · cases h; exact .refl
  obtain ⟨b2, -, h⟩ := bind_eq_ok h
  split at h
  · cases h; exact .refl
  exact curveLoop_chain hE hC hp fuel 0 u0 r hu.1 hu.2 h

/-- **C89.** With `max_iter < 0` exactly one step is made when no test stops it: the result is the
Newton iterate of the initial guess. -/
theorem curve_inversion_one_step (fuel : ℕ) {nm : Num K} (hE : Euclidean nm) {C : CurveLike K}
    {c c1 c2 : K → List K} (hC : C.Smooth c c1 c2) {p : List K} (hp : p.length = 3) {eps1 eps2 : K}
    {maxIter : ℤ} (hm : maxIter < 0) {u0 r : K} (h0 : initialGuessCurve nm C p = .ok u0)
    (h : curveInversion fuel nm C p eps1 eps2 maxIter = .ok r) (hr : r ≠ u0) :
    NewtonRel c c1 c2 p u0 r := by
  unfold curveInversion at h
  rw [h0, ok_bind] at h
  obtain ⟨k, hk, e⟩ := initialGuessCurve_grid h0
  have hu := grid_mem_unit (K := K) hk
  rw [← e] at hu
  rw [hC.info hu.1 hu.2, ok_bind] at h
  obtain ⟨b1, -, h⟩ := bind_eq_ok h
  split at h
  · cases h; exact absurd rfl hr
  obtain ⟨b2, -, h⟩ := bind_eq_ok h
  split at h
  · cases h; exact absurd rfl hr
  cases fuel with
  | zero => cases h
  | succ fuel =>
    obtain ⟨l0, l1, l2⟩ := hC.len u0
    unfold curveLoop at h
    dsimp only at h
    rw [vsub_len3 l0 hp, ok_bind, dot_len3 l1 rfl, ok_bind, dot_len3 l2 rfl, ok_bind] at h
    obtain ⟨u', hs, h⟩ := bind_eq_ok h
    have hm' := newtonStep_mem hs
    have hrel := newtonStep_rel hE hC hs
    split at h
    · cases h; exact absurd rfl hr
    rw [hC.info hm'.1 hm'.2, ok_bind] at h
    obtain ⟨b1, -, h⟩ := bind_eq_ok h
    split at h
    · cases h; exact absurd rfl hr
    obtain ⟨b2, -, h⟩ := bind_eq_ok h
    split at h
    · cases h; exact absurd rfl hr
    cases h
    exact hrel

/-- **C90.** An exact foot point is a fixed point: if the initial guess `u0` satisfies
`c'(u0) · (c(u0) - p) = 0` and the second derivative of the squared distance does not vanish there,
`curve_inversion` returns `u0`. -/
theorem curve_inversion_foot_point (fuel : ℕ) (hf : 1 ≤ fuel) {nm : Num K} (hE : Euclidean nm)
    {C : CurveLike K} {c c1 c2 : K → List K} (hC : C.Smooth c c1 c2) {p : List K} (hp : p.length = 3)
    {eps1 eps2 : K} (he : 0 ≤ eps1) {maxIter : ℤ} {u0 : K} (h0 : initialGuessCurve nm C p = .ok u0)
    (hfoot : ip (c1 u0) (sub3 (c u0) p) = 0)
    (hsecond : ip (c2 u0) (sub3 (c u0) p) + ip (c1 u0) (c1 u0) ≠ 0) :
    curveInversion fuel nm C p eps1 eps2 maxIter = .ok u0 := by
  obtain ⟨fuel, rfl⟩ : ∃ f, fuel = f + 1 := ⟨fuel - 1, by omega⟩
  obtain ⟨k, hk, e⟩ := initialGuessCurve_grid h0
  have hu := grid_mem_unit (K := K) hk
  rw [← e] at hu
  obtain ⟨l0, l1, l2⟩ := hC.len u0
  unfold curveInversion
  rw [h0, ok_bind, hC.info hu.1 hu.2, ok_bind]
  unfold curveCond1 curveCond2
  rw [hC.pt u0 hu.1 hu.2, ok_bind, vsub_len3 l0 hp, ok_bind, ok_bind]
  split
  · rfl
  dsimp only
  rw [ok_bind, dot_len3 l1 rfl, ok_bind, ok_bind]
  split
  · rfl
  unfold curveLoop
  dsimp only
  rw [vsub_len3 l0 hp, ok_bind, dot_len3 l1 rfl, ok_bind, dot_len3 l2 rfl, ok_bind]
  unfold newtonStep
  rw [hE.sq_ip l1, if_neg hsecond, hfoot, zero_div, sub_zero, ok_bind, clamp01_eq,
    min_eq_right hu.2, max_eq_right hu.1, if_pos]
  obtain ⟨x, y, z, hl⟩ := List.length_eq_three.1 l1
  rw [hl]
  simpa [hE.zero] using he

/-! ## Surfaces -/

/-- The black box evaluates a surface on the unit square; `D a b` is the partial derivative of order
`(a, b)`, found in row `3 a + b` of `derivatives(u, v, 2, 2)`. -/
structure SurfLike.Smooth (S : SurfLike K) (D : ℕ → ℕ → K → K → List K) : Prop where
  pt : ∀ u v, 0 ≤ u → u ≤ 1 → 0 ≤ v → v ≤ 1 → S.singlePoint u v = .ok (D 0 0 u v)
  ders : ∀ u v, 0 ≤ u → u ≤ 1 → 0 ≤ v → v ≤ 1 → ∃ rows, S.ders u v = .ok rows ∧
    ∀ a ≤ 2, ∀ b ≤ 2, rows[3 * a + b]? = some (D a b u v)
  len : ∀ a b u v, (D a b u v).length = 3

/-- One clamped Newton step for the two foot point equations `S_u · (S - p) = 0`, `S_v · (S - p) = 0`,
from `x` to `y`, with the point taken at `x` and the derivatives at `z`: the increment solves the
linearised equations. -/
def NewtonRel2 (D : ℕ → ℕ → K → K → List K) (p : List K) (z x y : K × K) : Prop :=
  let r := sub3 (D 0 0 x.1 x.2) p
  let d := fun a b => D a b z.1 z.2
  let fu := ip (d 1 0) (d 1 0) + ip r (d 2 0)
  let fv := ip (d 1 0) (d 0 1) + ip r (d 1 1)
  let gv := ip (d 0 1) (d 0 1) + ip r (d 0 2)
  fu * gv - fv * fv ≠ 0 ∧ ∃ s t : K, fu * s + fv * t = - ip r (d 1 0) ∧
    fv * s + gv * t = - ip r (d 0 1) ∧
    y = (max 0 (min 1 (x.1 + s)), max 0 (min 1 (x.2 + t)))

theorem SurfLike.Smooth.info {S : SurfLike K} {D : ℕ → ℕ → K → K → List K} (h : S.Smooth D) {u v : K}
    (h1 : 0 ≤ u) (h2 : u ≤ 1) (h3 : 0 ≤ v) (h4 : v ≤ 1) :
    surfInfo S u v = .ok ⟨D 1 0 u v, D 0 1 u v, D 2 0 u v, D 0 2 u v, D 1 1 u v⟩ := by
  obtain ⟨rows, hr, hd⟩ := h.ders u v h1 h2 h3 h4
  unfold surfInfo
  rw [hr, ok_bind, show (3 : ℤ) = ((3 * 1 + 0 : ℕ) : ℤ) from rfl,
    pyGet_of_getElem? (hd 1 (by omega) 0 (by omega)), ok_bind,
    show (1 : ℤ) = ((3 * 0 + 1 : ℕ) : ℤ) from rfl,
    pyGet_of_getElem? (hd 0 (by omega) 1 (by omega)), ok_bind,
    show (6 : ℤ) = ((3 * 2 + 0 : ℕ) : ℤ) from rfl,
    pyGet_of_getElem? (hd 2 (by omega) 0 (by omega)), ok_bind,
    show (2 : ℤ) = ((3 * 0 + 2 : ℕ) : ℤ) from rfl,
    pyGet_of_getElem? (hd 0 (by omega) 2 (by omega)), ok_bind,
    show (4 : ℤ) = ((3 * 1 + 1 : ℕ) : ℤ) from rfl,
    pyGet_of_getElem? (hd 1 (by omega) 1 (by omega)), ok_bind]

theorem surfStep_rel {nm : Num K} (hE : Euclidean nm) {S : SurfLike K} {D : ℕ → ℕ → K → K → List K}
    (hS : S.Smooth D) {p : List K} (hp : p.length = 3) {x y z : K × K}
    (h1 : 0 ≤ x.1) (h2 : x.1 ≤ 1) (h3 : 0 ≤ x.2) (h4 : x.2 ≤ 1)
    (h : surfStep nm S p x.1 x.2 ⟨D 1 0 z.1 z.2, D 0 1 z.1 z.2, D 2 0 z.1 z.2, D 0 2 z.1 z.2,
      D 1 1 z.1 z.2⟩ = .ok y) : NewtonRel2 D p z x y := by
  have L := fun a b => hS.len a b z.1 z.2
  unfold surfStep at h
  dsimp only at h
  rw [hS.pt _ _ h1 h2 h3 h4, ok_bind, vsub_len3 (hS.len _ _ _ _) hp, ok_bind, dot_len3 rfl (L 1 0),
    ok_bind, dot_len3 rfl (L 0 1), ok_bind, dot_len3 rfl (L 2 0), ok_bind, dot_len3 (L 1 0) (L 0 1),
    ok_bind, dot_len3 rfl (L 1 1), ok_bind, dot_len3 rfl (L 0 2), ok_bind, hE.sq_ip (L 1 0),
    hE.sq_ip (L 0 1)] at h
  unfold NewtonRel2
  dsimp only
  set r := sub3 (D 0 0 x.1 x.2) p
  set fu := ip (D 1 0 z.1 z.2) (D 1 0 z.1 z.2) + ip r (D 2 0 z.1 z.2)
  set fv := ip (D 1 0 z.1 z.2) (D 0 1 z.1 z.2) + ip r (D 1 1 z.1 z.2)
  set gv := ip (D 0 1 z.1 z.2) (D 0 1 z.1 z.2) + ip r (D 0 2 z.1 z.2)
  split at h
  · cases h
  rename_i hdet
  refine ⟨hdet,
    gv / (fu * gv - fv * fv) * (-1 * ip r (D 1 0 z.1 z.2)) +
      -fv / (fu * gv - fv * fv) * (-1 * ip r (D 0 1 z.1 z.2)),
    -fv / (fu * gv - fv * fv) * (-1 * ip r (D 1 0 z.1 z.2)) +
      fu / (fu * gv - fv * fv) * (-1 * ip r (D 0 1 z.1 z.2)), ?_, ?_, ?_⟩
  rotate_left 2
  · have := (Except.ok.inj h).symm
    rw [clamp01_eq, clamp01_eq, add_comm _ x.1, add_comm _ x.2] at this
    exact this
  · have e := div_self hdet
    linear_combination (-ip r (D 1 0 z.1 z.2)) * e
  · have e := div_self hdet
    linear_combination (-ip r (D 0 1 z.1 z.2)) * e

/-- One iteration of `surface_inversion` on the pair of parameters and the pair at which the
derivatives were taken. -/
def SurfIter (D : ℕ → ℕ → K → K → List K) (p : List K) (a b : (K × K) × (K × K)) : Prop :=
  NewtonRel2 D p a.2 a.1 b.1 ∧ b.2 = a.1

theorem surfLoop_chain {nm : Num K} (hE : Euclidean nm) {S : SurfLike K}
    {D : ℕ → ℕ → K → K → List K} (hS : S.Smooth D) {p : List K} (hp : p.length = 3) {eps1 eps2 : K}
    {maxIter : ℤ} (fuel : ℕ) : ∀ (j : ℤ) (x z r : K × K), 0 ≤ x.1 → x.1 ≤ 1 → 0 ≤ x.2 → x.2 ≤ 1 →
    surfLoop nm S p eps1 eps2 maxIter fuel j x.1 x.2 ⟨D 1 0 z.1 z.2, D 0 1 z.1 z.2, D 2 0 z.1 z.2,
      D 0 2 z.1 z.2, D 1 1 z.1 z.2⟩ = .ok r →
    ∃ w, Relation.TransGen (SurfIter D p) (x, z) (r, w) := by
  induction fuel with
  | zero => intro j x z r _ _ _ _ h; cases h
  | succ fuel ih =>
    intro j x z r h1 h2 h3 h4 h
    unfold surfLoop at h
    obtain ⟨y, hs, h⟩ := bind_eq_ok h
    have hm := surfStep_mem hs
    have hrel := surfStep_rel hE hS hp h1 h2 h3 h4 hs
    have one : Relation.TransGen (SurfIter D p) (x, z) (y, x) := .single ⟨hrel, rfl⟩
    obtain ⟨y1, y2⟩ := y
    dsimp only at h
    obtain ⟨w, -, h⟩ := bind_eq_ok h
    split at h
    · cases h; exact ⟨_, one⟩
    rw [hS.info h1 h2 h3 h4, ok_bind] at h
    obtain ⟨b1, -, h⟩ := bind_eq_ok h
    split at h
    · cases h; exact ⟨_, one⟩
    obtain ⟨b2, -, h⟩ := bind_eq_ok h
    split at h
    · cases h; exact ⟨_, one⟩
    split at h
    · cases h; exact ⟨_, one⟩
    · obtain ⟨w, hw⟩ := ih _ (y1, y2) x r hm.1.1 hm.1.2 hm.2.1 hm.2.2 h
      exact ⟨w, one.trans hw⟩

/-- **C89.** Every pair returned by `surface_inversion` is the initial guess or is reached from it by
clamped Newton steps for the foot point equations, in which the derivatives are those of the
previous pair (of the initial guess itself in the first step). -/
theorem surface_inversion_newton_chain (fuel : ℕ) {nm : Num K} (hE : Euclidean nm) {S : SurfLike K}
    {D : ℕ → ℕ → K → K → List K} (hS : S.Smooth D) {p : List K} (hp : p.length = 3) {eps1 eps2 : K}
    {maxIter : ℤ} {r : K × K} (h : surfaceInversion fuel nm S p eps1 eps2 maxIter = .ok r) :
    ∃ x0, initialGuessSurf nm S p = .ok x0 ∧
      (r = x0 ∨ ∃ w, Relation.TransGen (SurfIter D p) (x0, x0) (r, w)) := by
  unfold surfaceInversion at h
  obtain ⟨x0, h0, h⟩ := bind_eq_ok h
  refine ⟨x0, h0, ?_⟩
  have hu : (0 ≤ x0.1 ∧ x0.1 ≤ 1) ∧ 0 ≤ x0.2 ∧ x0.2 ≤ 1 := by
    obtain ⟨⟨k, hk, e⟩, l, hl, e'⟩ := initialGuessSurf_grid h0
    rw [e, e']
    exact ⟨grid_mem_unit hk, grid_mem_unit hl⟩
  obtain ⟨⟨h1, h2⟩, h3, h4⟩ := hu
  obtain ⟨u0, v0⟩ := x0
  dsimp only at h h1 h2 h3 h4
  rw [hS.info h1 h2 h3 h4, ok_bind] at h
  obtain ⟨b1, -, h⟩ := bind_eq_ok h
  split at h
  · cases h; exact Or.inl rfl
  obtain ⟨b2, -, h⟩ := bind_eq_ok h
  split at h
  · cases h; exact Or.inl rfl
  exact Or.inr (surfLoop_chain hE hS hp fuel 0 (u0, v0) (u0, v0) r h1 h2 h3 h4 h)

/-- The plane `O + u A + v B`. -/
def planePt (O A B : List K) (u v : K) : List K :=
  [O.getD 0 0 + u * A.getD 0 0 + v * B.getD 0 0, O.getD 1 0 + u * A.getD 1 0 + v * B.getD 1 0,
   O.getD 2 0 + u * A.getD 2 0 + v * B.getD 2 0]

/-- The partial derivatives of the plane `O + u A + v B`. -/
def planeDers (O A B : List K) : ℕ → ℕ → K → K → List K
  | 0, 0, u, v => planePt O A B u v
  | 1, 0, _, _ => A
  | 0, 1, _, _ => B
  | _, _, _, _ => [0, 0, 0]

/-- On a plane the Newton step from anywhere ends at the foot point. -/
theorem plane_step {O A B p : List K} {x y z foot : K × K}
    (hfu : ip (sub3 (planePt O A B foot.1 foot.2) p) A = 0)
    (hfv : ip (sub3 (planePt O A B foot.1 foot.2) p) B = 0)
    (h : NewtonRel2 (planeDers O A B) p z x y) :
    y = (max 0 (min 1 foot.1), max 0 (min 1 foot.2)) := by
  obtain ⟨hdet, s, t, e1, e2, rfl⟩ := h
  have i0 : ∀ l : List K, ip l [0, 0, 0] = 0 := fun l => by simp [ip]
  have p00 : ∀ a b, planeDers O A B 0 0 a b = planePt O A B a b := fun _ _ => rfl
  have p10 : ∀ a b, planeDers O A B 1 0 a b = A := fun _ _ => rfl
  have p01 : ∀ a b, planeDers O A B 0 1 a b = B := fun _ _ => rfl
  have p20 : ∀ a b, planeDers O A B 2 0 a b = [0, 0, 0] := fun _ _ => rfl
  have p02 : ∀ a b, planeDers O A B 0 2 a b = [0, 0, 0] := fun _ _ => rfl
  have p11 : ∀ a b, planeDers O A B 1 1 a b = [0, 0, 0] := fun _ _ => rfl
  dsimp only at hdet e1 e2
  simp only [p00, p10, p01, p20, p02, p11, i0, add_zero] at hdet e1 e2
  have ex : ∀ q : List K, ip (sub3 (planePt O A B x.1 x.2) p) q
      = ip (sub3 (planePt O A B foot.1 foot.2) p) q + (x.1 - foot.1) * ip A q
        + (x.2 - foot.2) * ip B q := by
    intro q
    simp only [ip, sub3, planePt, List.getD_cons_zero, List.getD_cons_succ]
    ring
  rw [ex, hfu] at e1
  rw [ex, hfv] at e2
  have c1 : ip B A = ip A B := ip_comm _ _
  rw [c1] at e1
  have k1 : ip A A * (x.1 + s - foot.1) + ip A B * (x.2 + t - foot.2) = 0 := by
    linear_combination e1
  have k2 : ip A B * (x.1 + s - foot.1) + ip B B * (x.2 + t - foot.2) = 0 := by
    linear_combination e2
  have z1 : (ip A A * ip B B - ip A B * ip A B) * (x.1 + s - foot.1) = 0 := by
    linear_combination ip B B * k1 - ip A B * k2
  have z2 : (ip A A * ip B B - ip A B * ip A B) * (x.2 + t - foot.2) = 0 := by
    linear_combination ip A A * k2 - ip A B * k1
  have e1 : x.1 + s = foot.1 := by
    have := (mul_eq_zero.1 z1).resolve_left hdet
    linarith
  have e2 : x.2 + t = foot.2 := by
    have := (mul_eq_zero.1 z2).resolve_left hdet
    linarith
  rw [e1, e2]

/-- **C90.** On a plane (with exact derivatives) `surface_inversion` returns the initial guess, if that
passes a convergence test, or the exact foot point, clamped to the unit square. -/
theorem surface_inversion_plane (fuel : ℕ) {nm : Num K} (hE : Euclidean nm) {S : SurfLike K}
    {O A B : List K} (hS : S.Smooth (planeDers O A B)) {p : List K} (hp : p.length = 3)
    {eps1 eps2 : K} {maxIter : ℤ} {foot : K × K}
    (hfu : ip (sub3 (planePt O A B foot.1 foot.2) p) A = 0)
    (hfv : ip (sub3 (planePt O A B foot.1 foot.2) p) B = 0) {r : K × K}
    (h : surfaceInversion fuel nm S p eps1 eps2 maxIter = .ok r) :
    initialGuessSurf nm S p = .ok r ∨ r = (max 0 (min 1 foot.1), max 0 (min 1 foot.2)) := by
  obtain ⟨x0, h0, rfl | ⟨w, hw⟩⟩ := surface_inversion_newton_chain fuel hE hS hp h
  · exact Or.inl h0
  · right
    cases hw with
    | single h => exact plane_step hfu hfv h.1
    | tail _ h => exact plane_step hfu hfv h.1

/-- The pair `x` passes one of the two convergence tests of `surface_inversion`, with the derivatives
taken at `z`: the distance is at most `eps1`, or both cosines of the angles between the residual and
the tangents are at most `eps2`. -/
def SurfPasses (nm : Num K) (D : ℕ → ℕ → K → K → List K) (p : List K) (eps1 eps2 : K)
    (z x : K × K) : Prop :=
  let r := sub3 (D 0 0 x.1 x.2) p
  nm.norm r ≤ eps1 ∨
    (|ip (D 1 0 z.1 z.2) r| ≤ eps2 * (nm.norm (D 1 0 z.1 z.2) * nm.norm r) ∧
     |ip (D 0 1 z.1 z.2) r| ≤ eps2 * (nm.norm (D 0 1 z.1 z.2) * nm.norm r))

/-- The step from `x` to `y` is short: `‖(Δu) S_u + (Δv) S_v‖ ≤ eps1`, with the derivatives at `z`. -/
def SurfShort (nm : Num K) (D : ℕ → ℕ → K → K → List K) (eps1 : K) (z x y : K × K) : Prop :=
  nm.norm [(y.1 - x.1) * (D 1 0 z.1 z.2).getD 0 0 + (y.2 - x.2) * (D 0 1 z.1 z.2).getD 0 0,
    (y.1 - x.1) * (D 1 0 z.1 z.2).getD 1 0 + (y.2 - x.2) * (D 0 1 z.1 z.2).getD 1 0,
    (y.1 - x.1) * (D 1 0 z.1 z.2).getD 2 0 + (y.2 - x.2) * (D 0 1 z.1 z.2).getD 2 0] ≤ eps1

theorem SurfLike.Smooth.cond1 {nm : Num K} {S : SurfLike K} {D : ℕ → ℕ → K → K → List K}
    (hS : S.Smooth D) {p : List K} (hp : p.length = 3) {x : K × K} (h1 : 0 ≤ x.1) (h2 : x.1 ≤ 1)
    (h3 : 0 ≤ x.2) (h4 : x.2 ≤ 1) {eps1 : K} :
    surfCond1 nm S p eps1 x.1 x.2 = .ok (decide (nm.norm (sub3 (D 0 0 x.1 x.2) p) ≤ eps1)) := by
  unfold surfCond1
  rw [hS.pt _ _ h1 h2 h3 h4, ok_bind, vsub_len3 (hS.len _ _ _ _) hp, ok_bind]

theorem SurfLike.Smooth.cond2 {nm : Num K} {S : SurfLike K} {D : ℕ → ℕ → K → K → List K}
    (hS : S.Smooth D) {p : List K} (hp : p.length = 3) {x : K × K} (z : K × K) (h1 : 0 ≤ x.1)
    (h2 : x.1 ≤ 1) (h3 : 0 ≤ x.2) (h4 : x.2 ≤ 1) {eps2 : K} :
    surfCond2 nm S p eps2 x.1 x.2 ⟨D 1 0 z.1 z.2, D 0 1 z.1 z.2, D 2 0 z.1 z.2, D 0 2 z.1 z.2,
      D 1 1 z.1 z.2⟩ =
    .ok (ratioLe |ip (D 1 0 z.1 z.2) (sub3 (D 0 0 x.1 x.2) p)|
        (nm.norm (D 1 0 z.1 z.2) * nm.norm (sub3 (D 0 0 x.1 x.2) p)) eps2 &&
      ratioLe |ip (D 0 1 z.1 z.2) (sub3 (D 0 0 x.1 x.2) p)|
        (nm.norm (D 0 1 z.1 z.2) * nm.norm (sub3 (D 0 0 x.1 x.2) p)) eps2) := by
  unfold surfCond2
  dsimp only
  rw [hS.pt _ _ h1 h2 h3 h4, ok_bind, vsub_len3 (hS.len _ _ _ _) hp, ok_bind,
    dot_len3 (hS.len _ _ _ _) rfl, ok_bind, dot_len3 (hS.len _ _ _ _) rfl, ok_bind]

theorem passes_of_cond2 {nm : Num K} (hE : Euclidean nm) {S : SurfLike K}
    {D : ℕ → ℕ → K → K → List K} (hS : S.Smooth D) {p : List K} {eps1 eps2 : K} {x z : K × K}
    (h : (ratioLe |ip (D 1 0 z.1 z.2) (sub3 (D 0 0 x.1 x.2) p)|
        (nm.norm (D 1 0 z.1 z.2) * nm.norm (sub3 (D 0 0 x.1 x.2) p)) eps2 &&
      ratioLe |ip (D 0 1 z.1 z.2) (sub3 (D 0 0 x.1 x.2) p)|
        (nm.norm (D 0 1 z.1 z.2) * nm.norm (sub3 (D 0 0 x.1 x.2) p)) eps2) = true) :
    SurfPasses nm D p eps1 eps2 z x := by
  obtain ⟨h1, h2⟩ := Bool.and_eq_true_iff.1 h
  have hr : 0 ≤ nm.norm (sub3 (D 0 0 x.1 x.2) p) := hE.nonneg' rfl
  exact Or.inr ⟨ratioLe_mul (mul_nonneg (hE.nonneg' (hS.len _ _ _ _)) hr) h1,
    ratioLe_mul (mul_nonneg (hE.nonneg' (hS.len _ _ _ _)) hr) h2⟩

theorem surfLoop_certificate {nm : Num K} (hE : Euclidean nm) {S : SurfLike K}
    {D : ℕ → ℕ → K → K → List K} (hS : S.Smooth D) {p : List K} (hp : p.length = 3) {eps1 eps2 : K}
    {maxIter : ℤ} (fuel : ℕ) : ∀ (j : ℤ) (x z r : K × K), j + fuel ≤ maxIter →
    0 ≤ x.1 → x.1 ≤ 1 → 0 ≤ x.2 → x.2 ≤ 1 →
    surfLoop nm S p eps1 eps2 maxIter fuel j x.1 x.2 ⟨D 1 0 z.1 z.2, D 0 1 z.1 z.2, D 2 0 z.1 z.2,
      D 0 2 z.1 z.2, D 1 1 z.1 z.2⟩ = .ok r →
    ∃ a b, Relation.ReflTransGen (SurfIter D p) (x, z) (a, b) ∧ NewtonRel2 D p b a r ∧
      (SurfPasses nm D p eps1 eps2 a r ∨ SurfShort nm D eps1 b a r) := by
  induction fuel with
  | zero => intro j x z r _ _ _ _ _ h; cases h
  | succ fuel ih =>
    intro j x z r hj h1 h2 h3 h4 h
    unfold surfLoop at h
    obtain ⟨y, hs, h⟩ := bind_eq_ok h
    obtain ⟨⟨m1, m2⟩, m3, m4⟩ := surfStep_mem hs
    have hrel := surfStep_rel hE hS hp h1 h2 h3 h4 hs
    dsimp only at h
    rw [vadd_len3 (hS.len _ _ _ _) (hS.len _ _ _ _), ok_bind] at h
    split at h
    · rename_i hw
      cases h
      exact ⟨x, z, .refl, hrel, Or.inr hw⟩
    rw [hS.info h1 h2 h3 h4, ok_bind, hS.cond1 hp m1 m2 m3 m4, ok_bind] at h
    split at h
    · rename_i hw
      cases h
      exact ⟨x, z, .refl, hrel, Or.inl (Or.inl (by simpa using hw))⟩
    rw [hS.cond2 hp x m1 m2 m3 m4, ok_bind] at h
    split at h
    · rename_i hw
      cases h
      exact ⟨x, z, .refl, hrel, Or.inl (passes_of_cond2 hE hS hw)⟩
    rw [if_neg (by push_cast at hj; omega)] at h
    obtain ⟨a, b, hc, hn, ht⟩ := ih _ y x r (by push_cast at hj; omega) m1 m2 m3 m4 h
    exact ⟨a, b, (Relation.ReflTransGen.single ⟨hrel, rfl⟩).trans hc, hn, ht⟩

/-- **C90.** If `surface_inversion` stops before the iteration limit, it returns the initial guess,
which passes a convergence test, or the last iterate, which passes a test with the derivatives of the
iterate before it, or was reached by a short step. -/
theorem surface_inversion_certificate (fuel : ℕ) {nm : Num K} (hE : Euclidean nm) {S : SurfLike K}
    {D : ℕ → ℕ → K → K → List K} (hS : S.Smooth D) {p : List K} (hp : p.length = 3) {eps1 eps2 : K}
    {maxIter : ℤ} (hf : (fuel : ℤ) ≤ maxIter) {r : K × K}
    (h : surfaceInversion fuel nm S p eps1 eps2 maxIter = .ok r) :
    ∃ x0, initialGuessSurf nm S p = .ok x0 ∧
      ((r = x0 ∧ SurfPasses nm D p eps1 eps2 x0 x0) ∨
       ∃ a b, Relation.ReflTransGen (SurfIter D p) (x0, x0) (a, b) ∧ NewtonRel2 D p b a r ∧
        (SurfPasses nm D p eps1 eps2 a r ∨ SurfShort nm D eps1 b a r)) := by
  unfold surfaceInversion at h
  obtain ⟨x0, h0, h⟩ := bind_eq_ok h
  refine ⟨x0, h0, ?_⟩
  have hu : (0 ≤ x0.1 ∧ x0.1 ≤ 1) ∧ 0 ≤ x0.2 ∧ x0.2 ≤ 1 := by
    obtain ⟨⟨k, hk, e⟩, l, hl, e'⟩ := initialGuessSurf_grid h0
    rw [e, e']
    exact ⟨grid_mem_unit hk, grid_mem_unit hl⟩
  obtain ⟨⟨h1, h2⟩, h3, h4⟩ := hu
  dsimp only at h
  rw [hS.info h1 h2 h3 h4, ok_bind, hS.cond1 hp h1 h2 h3 h4, ok_bind] at h
  split at h
  · rename_i hw
    cases h
    exact Or.inl ⟨rfl, Or.inl (by simpa using hw)⟩
  rw [hS.cond2 hp x0 h1 h2 h3 h4, ok_bind] at h
  split at h
  · rename_i hw
    cases h
    exact Or.inl ⟨rfl, passes_of_cond2 hE hS hw⟩
  exact Or.inr <| surfLoop_certificate hE hS hp fuel 0 x0 x0 r (by omega) h1 h2 h3 h4 h

end

/-! ## Concrete cases -/

/-- The Euclidean norm exists: over the real numbers it is the square root of the sum of squares. -/
theorem euclidean_exists : ∃ nm : Num ℝ, Euclidean nm :=
  ⟨⟨fun l => Real.sqrt ((l.map fun x => x ^ 2).sum), fun _ _ => true⟩,
    fun _ _ _ => Real.sqrt_nonneg _, fun x y z => by
      rw [Real.sq_sqrt (by simp; positivity)]
      simp
      ring⟩

/-- The parabola `(u, u², 0)`. -/
def exParabola (K : Type) [Field K] : CurveLike K where
  numCtrl := 3
  singlePoint u := .ok [u, u ^ 2, 0]
  ders u := .ok [[u, u ^ 2, 0], [1, 2 * u, 0], [0, 2, 0]]

theorem exParabola_smooth : (exParabola ℝ).Smooth (fun u => [u, u ^ 2, 0])
    (fun u => [1, 2 * u, 0]) (fun _ => [0, 2, 0]) :=
  ⟨fun _ _ _ => rfl, fun _ _ _ => ⟨[], rfl⟩, fun _ => ⟨rfl, rfl, rfl⟩⟩

/-- One Newton step from `2/5` towards `(1/2, 0, 0)`. -/
example : NewtonRel (fun u : ℚ => [u, u ^ 2, 0]) (fun u => [1, 2 * u, 0]) (fun _ => [0, 2, 0])
    [1/2, 0, 0] (2/5) (27/70) := by
  left
  constructor <;> norm_num [ip, sub3]

example : SurfLike.Smooth exFlat (planeDers [0, 0, 0] [1, 0, 0] [0, 1, 0]) := by
  refine ⟨fun u v _ _ _ _ => by simp [exFlat, planeDers, planePt], fun u v _ _ _ _ => ⟨_, rfl, ?_⟩, ?_⟩
  · intro a ha b hb
    interval_cases a <;> interval_cases b <;> simp [planeDers, planePt]
  · intro a b u v
    unfold planeDers
    split <;> simp [planePt]

end PySpline
