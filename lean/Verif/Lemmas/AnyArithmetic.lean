import Verif.Model.AnyArithmetic
import Verif.Lemmas.ExtendedMore
import Verif.Lemmas.Parameterize

/-!
# Lemmas about the inversion functions in an arbitrary arithmetic
-/

set_option linter.unusedSectionVars false

namespace PySpline

open Ext

section
variable {K : Type} [Field K] [LinearOrder K] [IsStrictOrderedRing K]

/-- `u` is a number in `[0, 1]`: neither NaN nor infinite. -/
def UnitNum (u : Ext K) : Prop := ∃ x, u = fin x ∧ 0 ≤ x ∧ x ≤ 1

/-- A curve object whose methods raise outside `[0, 1]`. -/
structure CurveLike.Checks (C : CurveLike (Ext K)) : Prop where
  pt : ∀ u q, C.singlePoint u = .ok q → UnitNum u
  ders : ∀ u d, C.ders u = .ok d → UnitNum u

/-- A surface object whose methods raise outside the unit square. -/
structure SurfLike.Checks (S : SurfLike (Ext K)) : Prop where
  pt : ∀ u v q, S.singlePoint u v = .ok q → UnitNum u ∧ UnitNum v
  ders : ∀ u v d, S.ders u v = .ok d → UnitNum u ∧ UnitNum v

/-- A black box whose methods do not hang. -/
structure CurveLike.TotalE (C : CurveLike (Ext K)) : Prop where
  pt : ∀ u, C.singlePoint u ≠ .error .diverged
  ders : ∀ u, C.ders u ≠ .error .diverged

/-- The same for surfaces. -/
structure SurfLike.TotalE (S : SurfLike (Ext K)) : Prop where
  pt : ∀ u v, S.singlePoint u v ≠ .error .diverged
  ders : ∀ u v, S.ders u v ≠ .error .diverged

/-- The functions of numpy return or raise. -/
structure Arith.Total (A : Arith K) : Prop where
  inner : ∀ a b, A.inner a b ≠ .error .diverged
  solve : ∀ a b c d x y, A.solve a b c d x y ≠ .error .diverged

/-- NaN propagates through `-`, `*`, `+` and `np.linalg.norm`, as IEEE 754 requires. -/
structure Arith.Propagates (A : Arith K) : Prop where
  sub : ∀ a, A.sub nan a = nan
  mul : ∀ a, A.mul nan a = nan
  add : ∀ a, A.add nan a = nan ∧ A.add a nan = nan
  norm : ∀ l, nan ∈ l → A.norm l = nan

theorem validateKnotE_unit {u : Ext K} (h : validateKnotE u = true) : UnitNum u := by
  unfold validateKnotE at h
  rcases u with x | s | _
  · refine ⟨x, rfl, ?_⟩
    rw [Bool.and_eq_true] at h
    have h0 : (0 : Ext K) = fin 0 := rfl
    have h1 : (1 : Ext K) = fin 1 := rfl
    rw [h0, h1] at h
    simp only [le, lt, eqv, Bool.or_eq_true, decide_eq_true_eq] at h
    exact ⟨le_iff_lt_or_eq.2 h.1, le_iff_lt_or_eq.2 h.2⟩
  · exfalso
    have h0 : (0 : Ext K) = fin 0 := rfl
    have h1 : (1 : Ext K) = fin 1 := rfl
    rw [h0, h1] at h
    cases s <;> simp [le, lt, eqv] at h
  · exfalso
    have h0 : (0 : Ext K) = fin 0 := rfl
    rw [h0] at h
    simp [le, lt, eqv] at h

/-- The clamped value is in `[0, 1]` or NaN. -/
theorem clamp01E_unit (x : Ext K) : UnitNum (clamp01E x) ∨ clamp01E x = nan := by
  rcases x with x | s | _
  · left
    rw [clamp01E_lift]
    exact ⟨_, rfl, clamp01_mem x⟩
  · left
    cases s
    · exact ⟨1, rfl, zero_le_one, le_rfl⟩
    · exact ⟨0, rfl, le_rfl, zero_le_one⟩
  · right; rfl

theorem UnitNum.ne_nan {u : Ext K} (h : UnitNum u) : u ≠ nan := by
  obtain ⟨x, rfl, -⟩ := h
  simp

theorem pyGet_gridA {A : Arith K} {N k : ℕ} (h : k < N) : pyGet (gridA A N) k = .ok (A.gridPoint N k) := by
  have hl : (gridA A N).length = N := by simp [gridA]
  rw [pyGet_nat _ _ k 0 rfl (by omega)]
  simp [gridA, List.getD_eq_getElem?_getD, h]

theorem curveInfoE_u {C : CurveLike (Ext K)} {u : Ext K} {s : CurveState (Ext K)} (h : curveInfoE C u = .ok s) :
    s.u = u := by
  unfold curveInfoE at h
  obtain ⟨a, -, h⟩ := bind_eq_ok h
  obtain ⟨a, -, h⟩ := bind_eq_ok h
  obtain ⟨a, -, h⟩ := bind_eq_ok h
  obtain ⟨a, -, h⟩ := bind_eq_ok h
  cases h
  rfl

theorem curveInfoE_unit {C : CurveLike (Ext K)} (hC : C.Checks) {u : Ext K} {s : CurveState (Ext K)}
    (h : curveInfoE C u = .ok s) : UnitNum s.u := by
  rw [curveInfoE_u h]
  unfold curveInfoE at h
  obtain ⟨d, hd, -⟩ := bind_eq_ok h
  exact hC.ders u d hd

theorem curveLoopA_mem {A : Arith K} {C : CurveLike (Ext K)} (hC : C.Checks) {point : List (Ext K)}
    {eps1 eps2 : Ext K} {maxIter : ℤ} (fuel : ℕ) : ∀ (j : ℤ) (s : CurveState (Ext K)) (u : Ext K),
    UnitNum s.u → curveLoopA A C point eps1 eps2 maxIter fuel j s = .ok u → UnitNum u := by
  induction fuel with
  | zero => intro j s u _ h; cases h
  | succ fuel ih =>
    intro j s u h0 h
    unfold curveLoopA at h
    obtain ⟨r, -, h⟩ := bind_eq_ok h
    obtain ⟨num, -, h⟩ := bind_eq_ok h
    obtain ⟨d, -, h⟩ := bind_eq_ok h
    dsimp only at h
    split at h
    · cases h; exact h0
    obtain ⟨s', hs', h⟩ := bind_eq_ok h
    have hu := curveInfoE_unit hC hs'
    obtain ⟨c1, -, h⟩ := bind_eq_ok h
    split at h
    · cases h; exact h0
    obtain ⟨c2, -, h⟩ := bind_eq_ok h
    split at h
    · cases h; exact h0
    split at h
    · cases h; exact hu
    · exact ih _ _ _ hu h

theorem curveLoopA_fails_tests {A : Arith K} {C : CurveLike (Ext K)} {point : List (Ext K)} {eps1 eps2 : Ext K}
    {maxIter : ℤ} (fuel : ℕ) : ∀ (j : ℤ) (s : CurveState (Ext K)) (u : Ext K),
    curveInfoE C s.u = .ok s → curveCond1A A C point eps1 s.u = .ok false →
    curveCond2A A point eps2 s = .ok false →
    curveLoopA A C point eps1 eps2 maxIter fuel j s = .ok u →
    curveCond1A A C point eps1 u = .ok false ∧
      ∃ s', curveInfoE C u = .ok s' ∧ curveCond2A A point eps2 s' = .ok false := by
  induction fuel with
  | zero => intro j s u _ _ _ h; cases h
  | succ fuel ih =>
    intro j s u hs h1 h2 h
    unfold curveLoopA at h
    obtain ⟨r, -, h⟩ := bind_eq_ok h
    obtain ⟨num, -, h⟩ := bind_eq_ok h
    obtain ⟨d, -, h⟩ := bind_eq_ok h
    dsimp only at h
    split at h
    · cases h; exact ⟨h1, s, hs, h2⟩
    obtain ⟨s', hs', h⟩ := bind_eq_ok h
    have hu := curveInfoE_u hs'
    obtain ⟨c1, hc1, h⟩ := bind_eq_ok h
    split at h
    · cases h; exact ⟨h1, s, hs, h2⟩
    rename_i hc1f
    rw [Bool.not_eq_true] at hc1f
    subst hc1f
    obtain ⟨c2, hc2, h⟩ := bind_eq_ok h
    split at h
    · cases h; exact ⟨h1, s, hs, h2⟩
    rename_i hc2f
    rw [Bool.not_eq_true] at hc2f
    subst hc2f
    rw [← hu] at hs' hc1
    split at h
    · cases h; exact ⟨hc1, s', hs', hc2⟩
    · exact ih _ _ _ hs' hc1 hc2 h

theorem curveLoopA_fuel {A : Arith K} {C : CurveLike (Ext K)} {point : List (Ext K)}
    {eps1 eps2 : Ext K} {maxIter : ℤ} (fuel : ℕ) : ∀ (j : ℤ) (s : CurveState (Ext K)) (extra : ℕ),
    maxIter + 2 - j ≤ fuel → 1 ≤ fuel →
    curveLoopA A C point eps1 eps2 maxIter (fuel + extra) j s
      = curveLoopA A C point eps1 eps2 maxIter fuel j s := by
  induction fuel with
  | zero => intro j s extra _ h; omega
  | succ fuel ih =>
    intro j s extra hj _
    rw [Nat.add_right_comm]
    unfold curveLoopA
    by_cases hm : j > maxIter
    · simp only [if_pos hm]
    · simp only [if_neg hm]
      have : ∀ s', curveLoopA A C point eps1 eps2 maxIter (fuel + extra) (j + 1) s'
          = curveLoopA A C point eps1 eps2 maxIter fuel (j + 1) s' := fun s' =>
        ih (j + 1) s' extra (by push_cast at hj; omega) (by push_cast at hj; omega)
      simp only [this]

theorem vsubA_ne_diverged (A : Arith K) (a b : List (Ext K)) : vsubA A a b ≠ .error .diverged := by
  unfold vsubA
  repeat' split
  all_goals simp

theorem vaddA_ne_diverged (A : Arith K) (a b : List (Ext K)) : vaddA A a b ≠ .error .diverged := by
  unfold vaddA
  split <;> simp

theorem curveInfoE_ne_diverged {C : CurveLike (Ext K)} (hC : C.TotalE) (u : Ext K) :
    curveInfoE C u ≠ .error .diverged := by
  unfold curveInfoE
  exact bind_ne_diverged (hC.ders u) fun _ _ => bind_ne_diverged (pyGet_ne_diverged _ _) fun _ _ =>
    bind_ne_diverged (pyGet_ne_diverged _ _) fun _ _ =>
    bind_ne_diverged (pyGet_ne_diverged _ _) fun _ _ => by simp

theorem curveCond1A_ne_diverged {A : Arith K} {C : CurveLike (Ext K)} (hC : C.TotalE) (p : List (Ext K))
    (e u : Ext K) : curveCond1A A C p e u ≠ .error .diverged := by
  unfold curveCond1A
  exact bind_ne_diverged (hC.pt u) fun _ _ => bind_ne_diverged (vsubA_ne_diverged _ _ _) fun _ _ => by simp

theorem curveCond2A_ne_diverged {A : Arith K} (hA : A.Total) (p : List (Ext K)) (e : Ext K)
    (s : CurveState (Ext K)) : curveCond2A A p e s ≠ .error .diverged := by
  unfold curveCond2A
  exact bind_ne_diverged (vsubA_ne_diverged _ _ _) fun _ _ =>
    bind_ne_diverged (hA.inner _ _) fun _ _ => by simp

theorem curveLoopA_ne_diverged {A : Arith K} (hA : A.Total) {C : CurveLike (Ext K)} (hC : C.TotalE)
    {point : List (Ext K)} {eps1 eps2 : Ext K} {maxIter : ℤ} (fuel : ℕ) : ∀ (j : ℤ) (s : CurveState (Ext K)),
    maxIter + 2 - j ≤ fuel → 1 ≤ fuel →
    curveLoopA A C point eps1 eps2 maxIter fuel j s ≠ .error .diverged := by
  induction fuel with
  | zero => intro j s _ h; omega
  | succ fuel ih =>
    intro j s hj _
    unfold curveLoopA
    refine bind_ne_diverged (vsubA_ne_diverged _ _ _) fun _ _ => bind_ne_diverged (hA.inner _ _)
      fun _ _ => bind_ne_diverged (hA.inner _ _) fun _ _ => ?_
    dsimp only
    split
    · simp
    refine bind_ne_diverged (curveInfoE_ne_diverged hC _) fun _ _ =>
      bind_ne_diverged (curveCond1A_ne_diverged hC _ _ _) fun _ _ => ?_
    split
    · simp
    refine bind_ne_diverged (curveCond2A_ne_diverged hA _ _ _) fun _ _ => ?_
    split
    · simp
    split
    · simp
    · exact ih _ _ (by push_cast at hj; omega) (by push_cast at hj; omega)

theorem initialGuessCurveA_ne_diverged {A : Arith K} {C : CurveLike (Ext K)} (hC : C.TotalE)
    (p : List (Ext K)) : initialGuessCurveA A C p ≠ .error .diverged := by
  unfold initialGuessCurveA
  dsimp only
  refine bind_ne_diverged (pyGet_ne_diverged _ _) fun _ _ => bind_ne_diverged
    (forN_ne_diverged ?_) fun _ _ => by simp
  rintro i ⟨m, x⟩
  refine bind_ne_diverged (pyGet_ne_diverged _ _) fun _ _ => bind_ne_diverged (hC.pt _) fun _ _ =>
    bind_ne_diverged (vsubA_ne_diverged _ _ _) fun _ _ => ?_
  dsimp only
  split <;> simp

/-! ## Surfaces -/

theorem surfInfoE_rows {S : SurfLike (Ext K)} {u v : Ext K} {d : SurfDers (Ext K)} (h : surfInfoE S u v = .ok d) :
    ∃ m, S.ders u v = .ok m ∧ d.du ∈ m ∧ d.dv ∈ m := by
  unfold surfInfoE at h
  obtain ⟨m, hm, h⟩ := bind_eq_ok h
  obtain ⟨a, ha, h⟩ := bind_eq_ok h
  obtain ⟨b, hb, h⟩ := bind_eq_ok h
  obtain ⟨c, -, h⟩ := bind_eq_ok h
  obtain ⟨c, -, h⟩ := bind_eq_ok h
  obtain ⟨c, -, h⟩ := bind_eq_ok h
  cases h
  have mem : ∀ {x : List (Ext K)} {i : ℤ}, pyGet m i = .ok x → x ∈ m := by
    intro x i hx
    unfold pyGet at hx
    obtain ⟨k, -, hx⟩ := bind_eq_ok hx
    split at hx
    · rename_i y hy; cases hx; exact List.mem_of_getElem? hy
    · cases hx
  exact ⟨m, hm, mem ha, mem hb⟩

theorem surfStepA_unit {A : Arith K} {S : SurfLike (Ext K)} {point : List (Ext K)} {ui vi : Ext K}
    {d : SurfDers (Ext K)} {uv : Ext K × Ext K} (h : surfStepA A S point ui vi d = .ok uv) :
    (UnitNum uv.1 ∨ uv.1 = nan) ∧ (UnitNum uv.2 ∨ uv.2 = nan) := by
  unfold surfStepA at h
  obtain ⟨q, -, h⟩ := bind_eq_ok h
  obtain ⟨r, -, h⟩ := bind_eq_ok h
  obtain ⟨x, -, h⟩ := bind_eq_ok h
  obtain ⟨x, -, h⟩ := bind_eq_ok h
  obtain ⟨x, -, h⟩ := bind_eq_ok h
  obtain ⟨x, -, h⟩ := bind_eq_ok h
  obtain ⟨x, -, h⟩ := bind_eq_ok h
  obtain ⟨x, -, h⟩ := bind_eq_ok h
  obtain ⟨⟨a, b⟩, -, h⟩ := bind_eq_ok h
  cases h
  exact ⟨clamp01E_unit _, clamp01E_unit _⟩

/-- The fourth convergence test never accepts NaN. -/
theorem vaddA_nan {A : Arith K} (hA : A.Propagates) {a b w : List (Ext K)} {s t : Ext K} {eps : Ext K}
    (ha : a ≠ []) (h : vaddA A (a.map fun x => A.mul s x) (b.map fun x => A.mul t x) = .ok w)
    (hle : le (A.norm w) eps = true) : s ≠ nan ∧ t ≠ nan := by
  unfold vaddA at h
  split at h
  · rename_i hl
    cases h
    simp only [List.length_map] at hl
    obtain ⟨x, a, rfl⟩ := List.exists_cons_of_ne_nil ha
    obtain ⟨y, b, rfl⟩ : ∃ y b', b = y :: b' := by
      cases b with
      | nil => simp at hl
      | cons y b => exact ⟨y, b, rfl⟩
    have key : ∀ z : Ext K, z = nan → A.norm (z :: List.zipWith A.add (a.map fun x => A.mul s x)
        (b.map fun x => A.mul t x)) ≠ nan → False := fun z hz hn => hn (hA.norm _ (by simp [hz]))
    have hne : A.norm (A.add (A.mul s x) (A.mul t y) :: List.zipWith A.add (a.map fun x => A.mul s x)
        (b.map fun x => A.mul t x)) ≠ nan := by
      intro hn
      simp only [List.map_cons, List.zipWith_cons_cons] at hle
      rw [hn] at hle
      simp [le, lt, eqv] at hle
    constructor
    · rintro rfl
      exact key _ (by rw [hA.mul]; exact (hA.add _).1) hne
    · rintro rfl
      exact key _ (by rw [hA.mul]; exact (hA.add _).2) hne
  · cases h

theorem surfLoopA_mem {A : Arith K} (hA : A.Propagates) {S : SurfLike (Ext K)} (hS : S.Checks)
    (hrow : ∀ u v m, S.ders u v = .ok m → ∀ row ∈ m, row ≠ []) {point : List (Ext K)}
    {eps1 eps2 : Ext K} {maxIter : ℤ} (fuel : ℕ) :
    ∀ (n : ℤ) (ui vi : Ext K) (d : SurfDers (Ext K)) (uv : Ext K × Ext K), d.du ≠ [] →
    surfLoopA A S point eps1 eps2 maxIter fuel n ui vi d = .ok uv → UnitNum uv.1 ∧ UnitNum uv.2 := by
  induction fuel with
  | zero => intro n ui vi d uv _ h; cases h
  | succ fuel ih =>
    intro n ui vi d uv hd h
    unfold surfLoopA at h
    obtain ⟨⟨a, b⟩, hab, h⟩ := bind_eq_ok h
    have hu := surfStepA_unit hab
    obtain ⟨w, hw, h⟩ := bind_eq_ok h
    dsimp only at h hw hu
    split at h
    · rename_i hle
      cases h
      have hn := vaddA_nan hA hd hw hle
      constructor
      · rcases hu.1 with h | h
        · exact h
        · subst h; exact absurd (hA.sub ui) hn.1
      · rcases hu.2 with h | h
        · exact h
        · subst h; exact absurd (hA.sub vi) hn.2
    obtain ⟨d', hd', h⟩ := bind_eq_ok h
    obtain ⟨c1, hc1, h⟩ := bind_eq_ok h
    have hin : UnitNum a ∧ UnitNum b := by
      unfold surfCond1A at hc1
      obtain ⟨q, hq, -⟩ := bind_eq_ok hc1
      exact hS.pt _ _ _ hq
    split at h
    · cases h; exact hin
    obtain ⟨c2, -, h⟩ := bind_eq_ok h
    split at h
    · cases h; exact hin
    split at h
    · cases h; exact hin
    · obtain ⟨m, hm, h1, -⟩ := surfInfoE_rows hd'
      exact ih _ _ _ _ _ (hrow _ _ _ hm _ h1) h

theorem surfLoopA_fuel {A : Arith K} {S : SurfLike (Ext K)} {point : List (Ext K)}
    {eps1 eps2 : Ext K} {maxIter : ℤ} (fuel : ℕ) :
    ∀ (n : ℤ) (ui vi : Ext K) (d : SurfDers (Ext K)) (extra : ℕ), maxIter + 1 - n ≤ fuel → 1 ≤ fuel →
    surfLoopA A S point eps1 eps2 maxIter (fuel + extra) n ui vi d
      = surfLoopA A S point eps1 eps2 maxIter fuel n ui vi d := by
  induction fuel with
  | zero => intro j ui vi d extra _ h; omega
  | succ fuel ih =>
    intro n ui vi d extra hn _
    rw [Nat.add_right_comm]
    unfold surfLoopA
    by_cases hm : n ≥ maxIter
    · simp only [if_pos hm]
    · simp only [if_neg hm]
      have : ∀ ui vi d', surfLoopA A S point eps1 eps2 maxIter (fuel + extra) (n + 1) ui vi d'
          = surfLoopA A S point eps1 eps2 maxIter fuel (n + 1) ui vi d' := fun ui vi d' =>
        ih (n + 1) ui vi d' extra (by push_cast at hn; omega) (by push_cast at hn; omega)
      simp only [this]

theorem surfInfoE_ne_diverged {S : SurfLike (Ext K)} (hS : S.TotalE) (u v : Ext K) :
    surfInfoE S u v ≠ .error .diverged := by
  unfold surfInfoE
  exact bind_ne_diverged (hS.ders u v) fun _ _ => bind_ne_diverged (pyGet_ne_diverged _ _) fun _ _ =>
    bind_ne_diverged (pyGet_ne_diverged _ _) fun _ _ => bind_ne_diverged (pyGet_ne_diverged _ _) fun _ _ =>
    bind_ne_diverged (pyGet_ne_diverged _ _) fun _ _ => bind_ne_diverged (pyGet_ne_diverged _ _) fun _ _ => by simp

theorem surfCond1A_ne_diverged {A : Arith K} {S : SurfLike (Ext K)} (hS : S.TotalE) (p : List (Ext K))
    (e u v : Ext K) : surfCond1A A S p e u v ≠ .error .diverged := by
  unfold surfCond1A
  exact bind_ne_diverged (hS.pt u v) fun _ _ => bind_ne_diverged (vsubA_ne_diverged _ _ _) fun _ _ => by simp

theorem surfCond2A_ne_diverged {A : Arith K} (hA : A.Total) {S : SurfLike (Ext K)} (hS : S.TotalE)
    (p : List (Ext K)) (e u v : Ext K) (d : SurfDers (Ext K)) : surfCond2A A S p e u v d ≠ .error .diverged := by
  unfold surfCond2A
  exact bind_ne_diverged (hS.pt u v) fun _ _ => bind_ne_diverged (vsubA_ne_diverged _ _ _) fun _ _ =>
    bind_ne_diverged (hA.inner _ _) fun _ _ => bind_ne_diverged (hA.inner _ _) fun _ _ => by simp

theorem surfStepA_ne_diverged {A : Arith K} (hA : A.Total) {S : SurfLike (Ext K)} (hS : S.TotalE)
    (p : List (Ext K)) (u v : Ext K) (d : SurfDers (Ext K)) : surfStepA A S p u v d ≠ .error .diverged := by
  unfold surfStepA
  exact bind_ne_diverged (hS.pt u v) fun _ _ => bind_ne_diverged (vsubA_ne_diverged _ _ _) fun _ _ =>
    bind_ne_diverged (hA.inner _ _) fun _ _ => bind_ne_diverged (hA.inner _ _) fun _ _ =>
    bind_ne_diverged (hA.inner _ _) fun _ _ => bind_ne_diverged (hA.inner _ _) fun _ _ =>
    bind_ne_diverged (hA.inner _ _) fun _ _ => bind_ne_diverged (hA.inner _ _) fun _ _ =>
    bind_ne_diverged (hA.solve _ _ _ _ _ _) fun _ _ => by simp

theorem surfLoopA_ne_diverged {A : Arith K} (hA : A.Total) {S : SurfLike (Ext K)} (hS : S.TotalE)
    {point : List (Ext K)} {eps1 eps2 : Ext K} {maxIter : ℤ} (fuel : ℕ) :
    ∀ (n : ℤ) (ui vi : Ext K) (d : SurfDers (Ext K)), maxIter + 1 - n ≤ fuel → 1 ≤ fuel →
    surfLoopA A S point eps1 eps2 maxIter fuel n ui vi d ≠ .error .diverged := by
  induction fuel with
  | zero => intro n ui vi d _ h; omega
  | succ fuel ih =>
    intro n ui vi d hn _
    unfold surfLoopA
    refine bind_ne_diverged (surfStepA_ne_diverged hA hS _ _ _ _) fun x _ => ?_
    dsimp only
    refine bind_ne_diverged (vaddA_ne_diverged _ _ _) fun _ _ => ?_
    split
    · simp
    refine bind_ne_diverged (surfInfoE_ne_diverged hS _ _) fun _ _ =>
      bind_ne_diverged (surfCond1A_ne_diverged hS _ _ _ _) fun _ _ => ?_
    split
    · simp
    refine bind_ne_diverged (surfCond2A_ne_diverged hA hS _ _ _ _ _) fun _ _ => ?_
    split
    · simp
    split
    · simp
    · exact ih _ _ _ _ (by push_cast at hn; omega) (by push_cast at hn; omega)

theorem initialGuessSurfA_ne_diverged {A : Arith K} {S : SurfLike (Ext K)} (hS : S.TotalE)
    (p : List (Ext K)) : initialGuessSurfA A S p ≠ .error .diverged := by
  unfold initialGuessSurfA
  dsimp only
  refine bind_ne_diverged (pyGet_ne_diverged _ _) fun _ _ => bind_ne_diverged (pyGet_ne_diverged _ _) fun _ _ =>
    bind_ne_diverged (forN_ne_diverged ?_) fun _ _ => by simp
  intro i st
  refine forN_ne_diverged ?_
  rintro j ⟨m, x⟩
  refine bind_ne_diverged (pyGet_ne_diverged _ _) fun _ _ => bind_ne_diverged (pyGet_ne_diverged _ _) fun _ _ =>
    bind_ne_diverged (hS.pt _ _) fun _ _ => bind_ne_diverged (vsubA_ne_diverged _ _ _) fun _ _ => ?_
  dsimp only
  split <;> simp

end

end PySpline
