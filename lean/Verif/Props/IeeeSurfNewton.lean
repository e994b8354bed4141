import Verif.Props.IeeeNewton

/-!
# C198: how `surface_inversion` can fail in IEEE arithmetic
-/

set_option linter.unusedSectionVars false
set_option exponentiation.threshold 1100

namespace PySpline

open Spec Ext

/-- Double precision with overflow and underflow, a given norm and a given solver of two equations. -/
def solverArith (norm : List (Ext ℚ) → Ext ℚ) (slv : Ext ℚ → Ext ℚ → Ext ℚ → Ext ℚ → Ext ℚ → Ext ℚ → Py (Ext ℚ × Ext ℚ)) :
    Arith ℚ := { ieeeArith bin64 norm with solve := slv }

section
variable {norm : List (Ext ℚ) → Ext ℚ} {slv : Ext ℚ → Ext ℚ → Ext ℚ → Ext ℚ → Ext ℚ → Ext ℚ → Py (Ext ℚ × Ext ℚ)}
  {point : List ℚ} {S : SurfLike (Ext ℚ)}

/-- A solver that raises `LinAlgError` or returns, without NaN unless `bad`. -/
private def SolveOr (bad : Prop) (slv : Ext ℚ → Ext ℚ → Ext ℚ → Ext ℚ → Ext ℚ → Ext ℚ → Py (Ext ℚ × Ext ℚ)) : Prop :=
  ∀ a b c d x y : ℚ, slv (fin a) (fin b) (fin c) (fin d) (fin x) (fin y) = .error .linAlgError ∨
    ∃ s t, slv (fin a) (fin b) (fin c) (fin d) (fin x) (fin y) = .ok (s, t) ∧ (bad ∨ s ≠ nan ∧ t ≠ nan)

/-- A double in `[0, 1]`. -/
private def Dbl (u : Ext ℚ) : Prop := ∃ x, u = fin x ∧ bin64 x = fin x ∧ 0 ≤ x ∧ x ≤ 1

private theorem sub_eq {a p : List ℚ} (ha : a.length = 3) (hp : p.length = 3) :
    vsubA (solverArith norm slv) (a.map fin) (p.map fin) = .ok (diff64 a p) := vsubA_ieee (norm := norm) ha hp

private theorem wide {a : List ℚ} (ha : Moderate a) : ∀ x ∈ a, |x| ≤ 2 ^ 502 := fun x hx =>
  (ha.2 x hx).trans (pow_le_pow_right₀ (by norm_num) (by norm_num))

private theorem dot_eq {a r : List ℚ} (la : a.length = 3) (ha : ∀ x ∈ a, |x| ≤ 2 ^ 502) (hr : r.length = 3)
    (hr' : ∀ x ∈ r, |x| ≤ 2 ^ 502) :
    ∃ w, (solverArith norm slv).inner (a.map fin) (r.map fin) = .ok (fin w) ∧ |w| ≤ 2 ^ 1012 :=
  inner_wide (norm := norm) la ha hr hr'

private theorem grid_eq {N : ℕ} (h1 : 1 ≤ N) (h2 : N ≤ 2 ^ 49) {i : ℕ} (hi : i < 2 * N) :
    ∃ x, pyGet (gridA (solverArith norm slv) (2 * N)) i = .ok (fin x) ∧ bin64 x = fin x ∧ 0 ≤ x ∧ x ≤ 1 := by
  obtain ⟨m, hm⟩ : ∃ m, 2 * N = m + 1 := ⟨2 * N - 1, by omega⟩
  have hm1 : 1 ≤ m := by omega
  have hm2 : m ≤ 2 ^ 50 := by
    have : (2 : ℕ) ^ 50 = 2 * 2 ^ 49 := by norm_num
    omega
  have him : i ≤ m := by omega
  refine ⟨vtkParam m i, ?_, vtkParam_stored hm1 hm2 him, ((vtk_param hm1 hm2).2.1 i him).1, ((vtk_param hm1 hm2).2.1 i him).2⟩
  rw [hm, pyGet_nat _ _ i 0 rfl (by simp [gridA]; omega)]
  unfold gridA
  rw [List.getD_eq_getElem?_getD, List.getElem?_eq_getElem (by simp; omega), Option.getD_some, List.getElem_map,
    List.getElem_range]
  exact congrArg Except.ok (gridPoint_ieee hm1 hm2 him norm)

private theorem guess_returns (hp : Moderate point) (hS : ModerateSurface S) :
    Returns (initialGuessSurfA (solverArith norm slv) S (point.map fin)) fun w => Dbl w.1 ∧ Dbl w.2 := by
  obtain ⟨a1, a2⟩ := hS.numU
  obtain ⟨b1, b2⟩ := hS.numV
  obtain ⟨x0, ex0, hx0⟩ := grid_eq (norm := norm) (slv := slv) a1 a2 (i := 0) (by omega)
  obtain ⟨y0, ey0, hy0⟩ := grid_eq (norm := norm) (slv := slv) b1 b2 (i := 0) (by omega)
  unfold initialGuessSurfA
  dsimp only
  rw [show (0 : ℤ) = ((0 : ℕ) : ℤ) from rfl, ex0, ok_bind, ey0, ok_bind]
  refine Returns.bind (Returns.forN (fun _ (st : Ext ℚ × Ext ℚ × Ext ℚ) => Dbl st.2.1 ∧ Dbl st.2.2)
    (Nat.zero_le _) ⟨⟨x0, rfl, hx0⟩, y0, rfl, hy0⟩ ?_) fun st hst => ⟨st.2, rfl, hst⟩
  intro i st _ hi hst
  refine Returns.forN (fun _ (st : Ext ℚ × Ext ℚ × Ext ℚ) => Dbl st.2.1 ∧ Dbl st.2.2) (Nat.zero_le _) hst ?_
  rintro j ⟨mv, best⟩ - hj hw
  obtain ⟨x, ex, hx⟩ := grid_eq (norm := norm) (slv := slv) a1 a2 hi
  obtain ⟨y, ey, hy⟩ := grid_eq (norm := norm) (slv := slv) b1 b2 hj
  obtain ⟨q, _, _, _, _, _, _, eq, _, _, _, _, _, _, _, mq, _⟩ := hS.eval x y hx.1 hx.2.1 hx.2.2 hy.1 hy.2.1 hy.2.2
  dsimp only
  rw [ex, ok_bind, ey, ok_bind, eq, ok_bind, sub_eq hp.1 mq.1, ok_bind]
  split
  · exact ⟨_, rfl, ⟨x, rfl, hx⟩, y, rfl, hy⟩
  · exact ⟨_, rfl, hw⟩

/-- The derivatives at a pair of doubles. -/
private structure Rows (d : SurfDers (Ext ℚ)) : Prop where
  du : ∃ w, d.du = w.map fin ∧ Moderate w
  dv : ∃ w, d.dv = w.map fin ∧ Moderate w
  duu : ∃ w, d.duu = w.map fin ∧ Moderate w
  dvv : ∃ w, d.dvv = w.map fin ∧ Moderate w
  duv : ∃ w, d.duv = w.map fin ∧ Moderate w

private theorem info_returns (hS : ModerateSurface S) {u v : Ext ℚ} (hu : Dbl u) (hv : Dbl v) :
    (∃ q : List ℚ, S.singlePoint u v = .ok (q.map fin) ∧ Moderate q) ∧ ∃ d, surfInfoE S u v = .ok d ∧ Rows d := by
  obtain ⟨x, rfl, hx⟩ := hu
  obtain ⟨y, rfl, hy⟩ := hv
  obtain ⟨q, d1, d2, d3, d4, d6, D, eq, eD, l, e1, e2, e3, e4, e6, mq, m1, m2, m3, m4, m6⟩ :=
    hS.eval x y hx.1 hx.2.1 hx.2.2 hy.1 hy.2.1 hy.2.2
  refine ⟨⟨q, eq, mq⟩, ⟨d3.map fin, d1.map fin, d6.map fin, d2.map fin, d4.map fin⟩, ?_,
    ⟨_, rfl, m3⟩, ⟨_, rfl, m1⟩, ⟨_, rfl, m6⟩, ⟨_, rfl, m2⟩, ⟨_, rfl, m4⟩⟩
  unfold surfInfoE
  rw [eD, ok_bind, pyGet_nat _ 3 3 [] rfl (by omega), ok_bind, pyGet_nat _ 1 1 [] rfl (by omega), ok_bind,
    pyGet_nat _ 6 6 [] rfl (by omega), ok_bind, pyGet_nat _ 2 2 [] rfl (by omega), ok_bind,
    pyGet_nat _ 4 4 [] rfl (by omega), ok_bind, e1, e2, e3, e4, e6]

private theorem cond1_returns (hp : Moderate point) (hS : ModerateSurface S) {u v : Ext ℚ} (hu : Dbl u) (hv : Dbl v)
    (eps1 : Ext ℚ) : ∃ c, surfCond1A (solverArith norm slv) S (point.map fin) eps1 u v = .ok c := by
  obtain ⟨⟨q, eq, mq⟩, -⟩ := info_returns hS hu hv
  unfold surfCond1A
  rw [eq, ok_bind, sub_eq mq.1 hp.1, ok_bind]
  exact ⟨_, rfl⟩

private theorem cond2_returns (hp : Moderate point) (hS : ModerateSurface S) {u v : Ext ℚ} (hu : Dbl u) (hv : Dbl v)
    (eps2 : Ext ℚ) {d : SurfDers (Ext ℚ)} (hd : Rows d) :
    ∃ c, surfCond2A (solverArith norm slv) S (point.map fin) eps2 u v d = .ok c := by
  obtain ⟨⟨q, eq, mq⟩, -⟩ := info_returns hS hu hv
  obtain ⟨r, er, lr, br⟩ := diff64_bound mq hp
  obtain ⟨a, ea, ma⟩ := hd.du
  obtain ⟨b, eb, mb⟩ := hd.dv
  obtain ⟨w1, e1, -⟩ := dot_eq (norm := norm) (slv := slv) ma.1 (wide ma) lr br
  obtain ⟨w2, e2, -⟩ := dot_eq (norm := norm) (slv := slv) mb.1 (wide mb) lr br
  unfold surfCond2A
  rw [eq, ok_bind, sub_eq mq.1 hp.1, ok_bind, er, ea, e1, ok_bind, eb, e2, ok_bind]
  exact ⟨_, rfl⟩

private theorem add_fin {x y : ℚ} (hx : |x| ≤ 2 ^ 1012) (hy : |y| ≤ 2 ^ 1012) :
    ∃ w, (solverArith norm slv).add (fin x) (fin y) = fin w := by
  obtain ⟨w, e, -⟩ := bin64_bound (x := x + y) (M := 2 ^ 1013)
    (by rw [show (2 : ℚ) ^ 1013 = 2 ^ 1012 + 2 ^ 1012 by rw [pow_succ]; ring]
        exact (abs_add_le x y).trans (add_le_add hx hy))
    (one_le_pow₀ (by norm_num)) (pow_le_pow_right₀ (by norm_num) (by norm_num))
  exact ⟨w, e⟩

/-- The Newton step solves two equations with finite coefficients, adds and clamps. -/
private theorem step_solves (hnorm : BoundedNorm norm) (hp : Moderate point)
    (hS : ModerateSurface S) {u v : Ext ℚ} (hu : Dbl u) (hv : Dbl v) {d : SurfDers (Ext ℚ)} (hd : Rows d) :
    ∃ a b c e f g : ℚ, surfStepA (solverArith norm slv) S (point.map fin) u v d = (do
      let (delta0, delta1) ← slv (fin a) (fin b) (fin c) (fin e) (fin f) (fin g)
      .ok (clamp01E ((solverArith norm slv).add delta0 u), clamp01E ((solverArith norm slv).add delta1 v))) := by
  obtain ⟨⟨q, eq, mq⟩, -⟩ := info_returns hS hu hv
  obtain ⟨r, er, lr, br⟩ := diff64_bound mq hp
  obtain ⟨a, ea, ma⟩ := hd.du
  obtain ⟨b, eb, mb⟩ := hd.dv
  obtain ⟨aa, eaa, maa⟩ := hd.duu
  obtain ⟨bb, ebb, mbb⟩ := hd.dvv
  obtain ⟨ab, eab, mab⟩ := hd.duv
  obtain ⟨f, ef, bf⟩ := dot_eq (norm := norm) (slv := slv) lr br ma.1 (wide ma)
  obtain ⟨g, eg, bg⟩ := dot_eq (norm := norm) (slv := slv) lr br mb.1 (wide mb)
  obtain ⟨ruu, eruu, bruu⟩ := dot_eq (norm := norm) (slv := slv) lr br maa.1 (wide maa)
  obtain ⟨uv, euv, buv⟩ := dot_eq (norm := norm) (slv := slv) ma.1 (wide ma) mb.1 (wide mb)
  obtain ⟨ruv, eruv, bruv⟩ := dot_eq (norm := norm) (slv := slv) lr br mab.1 (wide mab)
  obtain ⟨rvv, ervv, brvv⟩ := dot_eq (norm := norm) (slv := slv) lr br mbb.1 (wide mbb)
  have sq : ∀ w : List ℚ, Moderate w → ∃ m, (solverArith norm slv).mul ((solverArith norm slv).norm (w.map fin))
      ((solverArith norm slv).norm (w.map fin)) = fin m ∧ |m| ≤ 2 ^ 1012 := by
    intro w mw
    obtain ⟨c, nc, z, bc⟩ := hnorm w mw.1 (wide mw)
    obtain ⟨m, em, bm⟩ := bin64_bound (x := c * c) (M := 2 ^ 1010)
      (by rw [abs_of_nonneg (mul_nonneg z z), show (2 : ℚ) ^ 1010 = 2 ^ 505 * 2 ^ 505 by rw [← pow_add]]
          exact mul_le_mul bc bc z (by positivity))
      (one_le_pow₀ (by norm_num)) (pow_le_pow_right₀ (by norm_num) (by norm_num))
    refine ⟨m, ?_, bm.trans ?_⟩
    · rw [show (solverArith norm slv).norm (w.map fin) = fin c from nc]
      exact em
    · rw [show (2 : ℚ) * 2 ^ 1010 = 2 ^ 1011 from (pow_succ' 2 1010).symm]
      exact pow_le_pow_right₀ (by norm_num) (by norm_num)
  have ng : ∀ x : ℚ, |x| ≤ 2 ^ 1012 → ∃ w, (solverArith norm slv).mul (-1) (fin x) = fin w := by
    intro x hx
    obtain ⟨w, e, -⟩ := bin64_bound (x := -1 * x) (M := 2 ^ 1012) (by rw [neg_one_mul, abs_neg]; exact hx)
      (one_le_pow₀ (by norm_num)) (pow_le_pow_right₀ (by norm_num) (by norm_num))
    exact ⟨w, e⟩
  obtain ⟨sa, esa, bsa⟩ := sq a ma
  obtain ⟨sb, esb, bsb⟩ := sq b mb
  obtain ⟨fu, efu⟩ := add_fin (norm := norm) (slv := slv) bsa bruu
  obtain ⟨fv, efv⟩ := add_fin (norm := norm) (slv := slv) buv bruv
  obtain ⟨gv, egv⟩ := add_fin (norm := norm) (slv := slv) bsb brvv
  obtain ⟨nf, enf⟩ := ng f bf
  obtain ⟨ngg, eng⟩ := ng g bg
  refine ⟨fu, fv, fv, gv, nf, ngg, ?_⟩
  unfold surfStepA
  dsimp only
  rw [eq, ok_bind, sub_eq mq.1 hp.1, ok_bind, er, ea, eb, eaa, ebb, eab, ef, ok_bind, eg, ok_bind, eruu, ok_bind, euv,
    ok_bind, eruv, ok_bind, ervv, ok_bind, esa, esb, efu, efv, egv, enf, eng]
  rfl

/-- A sum with a double is clamped to a double, or is NaN. -/
private theorem clamp_sum (s : Ext ℚ) {w : Ext ℚ} (hw : Dbl w) :
    (s ≠ nan → Dbl (clamp01E ((solverArith norm slv).add s w))) ∧
      (s = nan → clamp01E ((solverArith norm slv).add s w) = nan) := by
  obtain ⟨x, rfl, -⟩ := hw
  refine ⟨fun hs => ?_, fun hs => by rw [hs]; rfl⟩
  have hne : (solverArith norm slv).add s (fin x) ≠ nan := by
    cases s with
    | fin y => exact bin64_ne_nan _
    | inf b => change inf b ≠ nan; simp
    | nan => exact absurd rfl hs
  obtain ⟨y, ey, hy⟩ := clamp01E_ne_nan hne
  have hA := ieeeArith_stored norm
  exact ⟨y, ey, clamp01E_stored hA.zero hA.one (hA.add _ _) y ey, hy⟩

private theorem nan_arith (x y z : Ext ℚ) : (solverArith norm slv).add ((solverArith norm slv).mul
      ((solverArith norm slv).sub nan x) y) z = nan ∧
    (solverArith norm slv).add z ((solverArith norm slv).mul ((solverArith norm slv).sub nan x) y) = nan := by
  cases x <;> cases y <;> cases z <;> exact ⟨rfl, rfl⟩

/-- What `surface_inversion` can do: return two doubles in `[0, 1]`, raise `LinAlgError`, or, if `bad`, raise `ValueError`. -/
private def Out (bad : Prop) (r : Py (Ext ℚ × Ext ℚ)) : Prop :=
  r = .error .linAlgError ∨ (bad ∧ r = .error .valueError) ∨ ∃ u v, r = .ok (u, v) ∧ Dbl u ∧ Dbl v

private theorem loop_returns (hnorm : BoundedNorm norm) {bad : Prop} (hslv : SolveOr bad slv)
    (hbad : bad → (∀ l, nan ∈ l → norm l = nan) ∧ ∀ u v, u = nan ∨ v = nan → S.singlePoint u v = .error .valueError)
    (hp : Moderate point) (hS : ModerateSurface S) (eps1 eps2 : Ext ℚ) {maxIter : ℤ} (fuel : ℕ) :
    ∀ (j : ℤ) (u v : Ext ℚ) (d : SurfDers (Ext ℚ)), maxIter + 1 - j ≤ fuel → 1 ≤ fuel → Dbl u → Dbl v → Rows d →
    Out bad (surfLoopA (solverArith norm slv) S (point.map fin) eps1 eps2 maxIter fuel j u v d) := by
  induction fuel with
  | zero => intro j u v d _ h; omega
  | succ fuel ih =>
    intro j u v d hj _ hu hv hd
    unfold surfLoopA
    obtain ⟨a, ea, ma⟩ := hd.du
    obtain ⟨b, eb, mb⟩ := hd.dv
    have hw : ∀ u' v', vaddA (solverArith norm slv) (d.du.map fun x => (solverArith norm slv).mul
        ((solverArith norm slv).sub u' u) x) (d.dv.map fun x => (solverArith norm slv).mul
        ((solverArith norm slv).sub v' v) x) = .ok (List.zipWith (solverArith norm slv).add
          (d.du.map fun x => (solverArith norm slv).mul ((solverArith norm slv).sub u' u) x)
          (d.dv.map fun x => (solverArith norm slv).mul ((solverArith norm slv).sub v' v) x)) := by
      intro u' v'
      unfold vaddA
      rw [if_pos (by simp [ea, eb, ma.1, mb.1])]
    obtain ⟨a1, a2, a3, a4, a5, a6, red⟩ := step_solves (slv := slv) hnorm hp hS hu hv hd
    obtain ⟨-, d', ed', hd'⟩ := info_returns hS hu hv
    rw [red]
    rcases hslv a1 a2 a3 a4 a5 a6 with h | ⟨s, t, h, hst⟩
    · left
      rw [h]
      rfl
    rw [h, ok_bind]
    dsimp only
    rw [ok_bind]
    dsimp only
    rw [hw, ok_bind]
    by_cases hn : s = nan ∨ t = nan
    · have hb : bad := by
        by_contra hb
        rcases hst with hst | hst
        · exact hb hst
        · exact hn.elim hst.1 hst.2
      obtain ⟨hnn, hrej⟩ := hbad hb
      have hcl : clamp01E ((solverArith norm slv).add s u) = nan ∨ clamp01E ((solverArith norm slv).add t v) = nan :=
        hn.imp (clamp_sum s hu).2 (clamp_sum t hv).2
      right; left
      refine ⟨hb, ?_⟩
      rw [if_neg, ed', ok_bind]
      · unfold surfCond1A
        rw [hrej _ _ hcl]
        rfl
      · obtain ⟨x1, x2, x3, rfl⟩ := List.length_eq_three.1 ma.1
        obtain ⟨y1, y2, y3, rfl⟩ := List.length_eq_three.1 mb.1
        rw [show (solverArith norm slv).norm = norm from rfl, hnn _ (by
          rw [ea, eb]
          simp only [List.map_cons, List.map_nil, List.zipWith_cons_cons, List.mem_cons]
          left
          rcases hcl with h | h
          · rw [h]; exact (nan_arith _ _ _).1.symm
          · rw [h]; exact (nan_arith _ _ _).2.symm)]
        cases eps1 <;> exact Bool.false_ne_true
    rw [not_or] at hn
    have hu' := (clamp_sum (norm := norm) (slv := slv) s hu).1 hn.1
    have hv' := (clamp_sum (norm := norm) (slv := slv) t hv).1 hn.2
    generalize clamp01E ((solverArith norm slv).add s u) = u' at hu' ⊢
    generalize clamp01E ((solverArith norm slv).add t v) = v' at hv' ⊢
    split
    · exact Or.inr (Or.inr ⟨_, _, rfl, hu', hv'⟩)
    obtain ⟨c1, h1⟩ := cond1_returns (norm := norm) (slv := slv) hp hS hu' hv' eps1
    rw [ed', ok_bind, h1, ok_bind]
    split
    · exact Or.inr (Or.inr ⟨_, _, rfl, hu', hv'⟩)
    obtain ⟨c2, h2⟩ := cond2_returns (norm := norm) (slv := slv) hp hS hu' hv' eps2 hd'
    rw [h2, ok_bind]
    split
    · exact Or.inr (Or.inr ⟨_, _, rfl, hu', hv'⟩)
    split
    · exact Or.inr (Or.inr ⟨_, _, rfl, hu', hv'⟩)
    · exact ih _ _ _ _ (by push_cast at hj; omega) (by push_cast at hj; omega) hu' hv' hd'

private theorem inversion_out (hnorm : BoundedNorm norm) {bad : Prop} (hslv : SolveOr bad slv)
    (hbad : bad → (∀ l, nan ∈ l → norm l = nan) ∧ ∀ u v, u = nan ∨ v = nan → S.singlePoint u v = .error .valueError)
    (hp : Moderate point) (hS : ModerateSurface S) (eps1 eps2 : Ext ℚ) {maxIter : ℤ} {fuel : ℕ} (hf : maxIter + 1 ≤ fuel)
    (hf1 : 1 ≤ fuel) : Out bad (surfaceInversionA fuel (solverArith norm slv) S (point.map fin) eps1 eps2 maxIter) := by
  obtain ⟨⟨u, v⟩, eg, hu, hv⟩ := guess_returns (norm := norm) (slv := slv) hp hS
  dsimp only at hu hv
  obtain ⟨-, d, ed, hd⟩ := info_returns hS hu hv
  obtain ⟨c1, h1⟩ := cond1_returns (norm := norm) (slv := slv) hp hS hu hv eps1
  obtain ⟨c2, h2⟩ := cond2_returns (norm := norm) (slv := slv) hp hS hu hv eps2 hd
  unfold surfaceInversionA
  rw [eg, ok_bind]
  dsimp only
  rw [ed, ok_bind, h1, ok_bind]
  split
  · exact Or.inr (Or.inr ⟨_, _, rfl, hu, hv⟩)
  rw [h2, ok_bind]
  split
  · exact Or.inr (Or.inr ⟨_, _, rfl, hu, hv⟩)
  exact loop_returns hnorm hslv hbad hp hS eps1 eps2 fuel 0 u v d (by omega) hf1 hu hv hd

/-- **C198.** `surface_inversion` in double precision with overflow and underflow, on a surface that returns points and
derivatives of size at most `2^500` at all pairs of doubles in `[0, 1]`: for every point of such size, all tolerances and every
limit of the passes it returns two doubles in `[0, 1]`, or raises `LinAlgError` because the matrix of a Newton step is singular;
provided the solver of the Newton steps does not make NaN out of numbers. -/
theorem surface_inversion_fails_binary64 (hnorm : BoundedNorm norm) (hslv : NumericSolve slv) (hp : Moderate point)
    (hS : ModerateSurface S) (eps1 eps2 : Ext ℚ) {maxIter : ℤ} {fuel : ℕ} (hf : maxIter + 1 ≤ fuel) (hf1 : 1 ≤ fuel) :
    surfaceInversionA fuel (solverArith norm slv) S (point.map fin) eps1 eps2 maxIter = .error .linAlgError ∨
      ∃ u v, surfaceInversionA fuel (solverArith norm slv) S (point.map fin) eps1 eps2 maxIter = .ok (fin u, fin v) ∧
        (bin64 u = fin u ∧ 0 ≤ u ∧ u ≤ 1) ∧ bin64 v = fin v ∧ 0 ≤ v ∧ v ≤ 1 := by
  rcases inversion_out hnorm (bad := False) (fun a b c d x y => (hslv a b c d x y).imp id fun ⟨s, t, h, k⟩ => ⟨s, t, h, Or.inr k⟩)
    False.elim hp hS eps1 eps2 hf hf1 with h | ⟨h, -⟩ | ⟨u, v, h, ⟨x, rfl, hx⟩, y, rfl, hy⟩
  · exact Or.inl h
  · exact h.elim
  · exact Or.inr ⟨x, y, h, hx, hy⟩

/-- **C198.** The same with a solver that may return anything, NaN included, when it does not raise `LinAlgError`, on a surface
that rejects NaN: the only further outcome is `ValueError`. In particular no NaN is returned, if the norm of a vector with a NaN
is NaN. -/
theorem surface_inversion_any_solver_binary64 (hnorm : BoundedNorm norm) (hnan : ∀ l, nan ∈ l → norm l = nan)
    (hslv : ∀ a b c d x y : ℚ, slv (fin a) (fin b) (fin c) (fin d) (fin x) (fin y) = .error .linAlgError ∨
      ∃ s t, slv (fin a) (fin b) (fin c) (fin d) (fin x) (fin y) = .ok (s, t))
    (hp : Moderate point) (hS : ModerateSurface S)
    (hrej : ∀ u v, u = nan ∨ v = nan → S.singlePoint u v = .error .valueError) (eps1 eps2 : Ext ℚ) {maxIter : ℤ} {fuel : ℕ}
    (hf : maxIter + 1 ≤ fuel) (hf1 : 1 ≤ fuel) :
    surfaceInversionA fuel (solverArith norm slv) S (point.map fin) eps1 eps2 maxIter = .error .linAlgError ∨
      surfaceInversionA fuel (solverArith norm slv) S (point.map fin) eps1 eps2 maxIter = .error .valueError ∨
      ∃ u v, surfaceInversionA fuel (solverArith norm slv) S (point.map fin) eps1 eps2 maxIter = .ok (fin u, fin v) ∧
        (bin64 u = fin u ∧ 0 ≤ u ∧ u ≤ 1) ∧ bin64 v = fin v ∧ 0 ≤ v ∧ v ≤ 1 := by
  rcases inversion_out hnorm (bad := True)
    (fun a b c d x y => (hslv a b c d x y).imp id fun ⟨s, t, h⟩ => ⟨s, t, h, Or.inl trivial⟩)
    (fun _ => ⟨hnan, hrej⟩) hp hS eps1 eps2 hf hf1 with h | ⟨-, h⟩ | ⟨u, v, h, ⟨x, rfl, hx⟩, y, rfl, hy⟩
  · exact Or.inl h
  · exact Or.inr (Or.inl h)
  · exact Or.inr (Or.inr ⟨x, y, h, hx, hy⟩)

end

/-- **C198.** The exact solution of the rounded equations, rounded, is such a solver. -/
theorem ieee_solve_numeric (norm : List (Ext ℚ) → Ext ℚ) : NumericSolve (ieeeArith bin64 norm).solve := by
  intro a b c d x y
  by_cases h : a * d - b * c = 0
  · left
    simp [ieeeArith, solve2E, h]
  · right
    refine ⟨bin64 (d / (a * d - b * c) * x + -b / (a * d - b * c) * y), bin64 (-c / (a * d - b * c) * x + a / (a * d - b * c) * y),
      ?_, bin64_ne_nan _, bin64_ne_nan _⟩
    simp only [ieeeArith, solve2E, if_neg h]
    rfl

/-! ## Concrete cases -/

/-- A surface given by its values and first derivatives, with second derivatives zero, outside `[0, 1]` it raises. -/
def exPatch (x du dv : ℚ → ℚ → List ℚ) : SurfLike (Ext ℚ) where
  numU := 2
  numV := 2
  singlePoint u v := match u, v with
    | fin u, fin v => if 0 ≤ u ∧ u ≤ 1 ∧ 0 ≤ v ∧ v ≤ 1 then .ok ((x u v).map fin) else .error .valueError
    | _, _ => .error .valueError
  ders u v := match u, v with
    | fin u, fin v => if 0 ≤ u ∧ u ≤ 1 ∧ 0 ≤ v ∧ v ≤ 1 then
        .ok [(x u v).map fin, (dv u v).map fin, [0, 0, 0], (du u v).map fin, [0, 0, 0], [0, 0, 0], [0, 0, 0]]
      else .error .valueError
    | _, _ => .error .valueError

/-- C198: the unit square satisfies the hypotheses. -/
theorem exPatch_moderate :
    ModerateSurface (exPatch (fun u v => [u, v, 0]) (fun _ _ => [1, 0, 0]) fun _ _ => [0, 1, 0]) := by
  have h500 : (1 : ℚ) ≤ 2 ^ 500 := one_le_pow₀ (by norm_num)
  refine ⟨by decide, by decide, fun u v _ u0 u1 _ v0 v1 => ?_⟩
  refine ⟨[u, v, 0], [0, 1, 0], [0, 0, 0], [1, 0, 0], [0, 0, 0], [0, 0, 0],
    [[fin u, fin v, fin 0], [0, 1, 0], [0, 0, 0], [1, 0, 0], [0, 0, 0], [0, 0, 0], [0, 0, 0]], ?_, ?_, by simp, rfl, rfl, rfl,
    rfl, rfl, ⟨rfl, ?_⟩, ⟨rfl, by decide +kernel⟩, ⟨rfl, by decide +kernel⟩, ⟨rfl, by decide +kernel⟩,
    ⟨rfl, by decide +kernel⟩, ⟨rfl, by decide +kernel⟩⟩
  · simp [exPatch, u0, u1, v0, v1]
  · simp [exPatch, u0, u1, v0, v1]
    and_intros <;> rfl
  · simp only [List.mem_cons, List.not_mem_nil, or_false]
    rintro _ (rfl | rfl | rfl)
    · rw [abs_of_nonneg u0]; exact u1.trans h500
    · rw [abs_of_nonneg v0]; exact v1.trans h500
    · rw [abs_zero]; positivity

/-- C198: on the unit square the inversion of every moderate point returns or raises `LinAlgError`. -/
example (point : List ℚ) (hp : Moderate point) :
    surfaceInversionA 102 (ieeeArith bin64 (sumNormR bin64)) (exPatch (fun u v => [u, v, 0]) (fun _ _ => [1, 0, 0])
        fun _ _ => [0, 1, 0]) (point.map fin) (fin (1 / 10 ^ 5)) (fin (1 / 10 ^ 5)) 100 = .error .linAlgError ∨
      ∃ u v, surfaceInversionA 102 (ieeeArith bin64 (sumNormR bin64)) (exPatch (fun u v => [u, v, 0]) (fun _ _ => [1, 0, 0])
        fun _ _ => [0, 1, 0]) (point.map fin) (fin (1 / 10 ^ 5)) (fin (1 / 10 ^ 5)) 100 = .ok (fin u, fin v) ∧
        (bin64 u = fin u ∧ 0 ≤ u ∧ u ≤ 1) ∧ bin64 v = fin v ∧ 0 ≤ v ∧ v ≤ 1 :=
  surface_inversion_fails_binary64 (slv := (ieeeArith bin64 (sumNormR bin64)).solve) sumNormR_bounded
    (ieee_solve_numeric _) hp exPatch_moderate _ _ (by norm_num) (by norm_num)

/-- C198: a point over the unit square is found, and on a surface that has shrunk to a segment `LinAlgError` is raised. -/
example : surfaceInversionA 102 (ieeeArith bin64 (sumNormR bin64)) (exPatch (fun u v => [u, v, 0]) (fun _ _ => [1, 0, 0])
      fun _ _ => [0, 1, 0]) [fin (1 / 2), fin (1 / 4), 1] (fin (1 / 10 ^ 5)) (fin (1 / 10 ^ 5)) 100
      = .ok (fin (1 / 2), fin (1 / 4)) ∧
    surfaceInversionA 102 (ieeeArith bin64 (sumNormR bin64)) (exPatch (fun u _ => [u, 0, 0]) (fun _ _ => [1, 0, 0])
      fun _ _ => [0, 0, 0]) [fin (1 / 2), fin (1 / 4), 1] (fin (1 / 10 ^ 5)) (fin (1 / 10 ^ 5)) 100
      = .error .linAlgError := by decide +kernel

/-- The inverse of a matrix with determinant not zero, every entry and every operation of the product rounded
(`np.matmul(np.linalg.inv(jacobian), kappa)`, `fit/algorithms/parameterize.py:274`). -/
def invMulR (a b c d x y : Ext ℚ) : Py (Ext ℚ × Ext ℚ) := match a, b, c, d with
  | fin a, fin b, fin c, fin d =>
    if a * d - b * c = 0 then .error .linAlgError
    else .ok (rnd bin64 (rnd bin64 (bin64 (d / (a * d - b * c)) * x) + rnd bin64 (bin64 (-b / (a * d - b * c)) * y)),
      rnd bin64 (rnd bin64 (bin64 (-c / (a * d - b * c)) * x) + rnd bin64 (bin64 (a / (a * d - b * c)) * y)))
  | _, _, _, _ => .ok (nan, nan)

/-- C198: with the rounded inverse, for every moderate point and the unit square. -/
example (point : List ℚ) (hp : Moderate point) :
    Returns (surfaceInversionA 102 (solverArith (sumNormR bin64) invMulR) (exPatch (fun u v => [u, v, 0]) (fun _ _ => [1, 0, 0])
        fun _ _ => [0, 1, 0]) (point.map fin) (fin (1 / 10 ^ 5)) (fin (1 / 10 ^ 5)) 100) (fun w => w.1 ≠ nan ∧ w.2 ≠ nan) ∨
      surfaceInversionA 102 (solverArith (sumNormR bin64) invMulR) (exPatch (fun u v => [u, v, 0]) (fun _ _ => [1, 0, 0])
        fun _ _ => [0, 1, 0]) (point.map fin) (fin (1 / 10 ^ 5)) (fin (1 / 10 ^ 5)) 100 ∈
          [.error .linAlgError, .error .valueError] := by
  rcases surface_inversion_any_solver_binary64 (slv := invMulR) sumNormR_bounded (sumNormR_nan bin64)
    (fun a b c d x y => by
      unfold invMulR
      by_cases h : a * d - b * c = 0
      · exact Or.inl (if_pos h)
      · exact Or.inr ⟨_, _, if_neg h⟩)
    hp exPatch_moderate (fun u v h => by rcases h with rfl | rfl <;> [rfl; (cases u <;> rfl)])
    (fin (1 / 10 ^ 5)) (fin (1 / 10 ^ 5)) (maxIter := 100) (fuel := 102) (by norm_num) (by norm_num) with h | h | ⟨u, v, h, -⟩
  · right; rw [h]; simp
  · right; rw [h]; simp
  · left; exact ⟨_, h, by simp, by simp⟩

/-- C198: with the rounded inverse all three outcomes occur. The third surface has so small a derivative that an entry of the
inverse overflows and is multiplied with zero. -/
example : surfaceInversionA 102 (solverArith (sumNormR bin64) invMulR) (exPatch (fun u v => [u, v, 0]) (fun _ _ => [1, 0, 0])
      fun _ _ => [0, 1, 0]) [fin (1 / 2), fin (1 / 4), 1] (fin (1 / 10 ^ 5)) (fin (1 / 10 ^ 5)) 100
      = .ok (fin (1 / 2), fin (1 / 4)) ∧
    surfaceInversionA 102 (solverArith (sumNormR bin64) invMulR) (exPatch (fun u _ => [u, 0, 0]) (fun _ _ => [1, 0, 0])
      fun _ _ => [0, 0, 0]) [fin (1 / 2), fin (1 / 4), 1] (fin (1 / 10 ^ 5)) (fin (1 / 10 ^ 5)) 100
      = .error .linAlgError ∧
    surfaceInversionA 102 (solverArith (sumNormR bin64) invMulR) (exPatch (fun u _ => [u, 0, 0]) (fun _ _ => [1, 0, 0])
      fun _ _ => [0, 1 / 2 ^ 530, 0]) [fin (1 / 2), 0, 1] (fin (1 / 10 ^ 5)) (fin (1 / 10 ^ 5)) 100
      = .error .valueError := by decide +kernel

end PySpline
