import Verif.Lemmas.AnyArithmetic
import Verif.Lemmas.ExtendedMore
import Verif.Lemmas.IeeeInitial

/-!
# The parameters that the inversion functions return are stored numbers: auxiliary facts
-/

set_option linter.unusedSectionVars false

namespace PySpline

open Spec Ext

section
variable {K : Type} [Field K] [LinearOrder K] [IsStrictOrderedRing K]

/-- What is a number is a stored number. -/
def IsStored (rd : K → Ext K) (x : Ext K) : Prop := ∀ y, x = fin y → rd y = fin y

/-- An arithmetic in which sums, differences and grid points are stored numbers, as are zero and one. -/
structure Arith.Stored (rd : K → Ext K) (A : Arith K) : Prop where
  add : ∀ a b, IsStored rd (A.add a b)
  sub : ∀ a b, IsStored rd (A.sub a b)
  grid : ∀ N k, IsStored rd (A.gridPoint N k)
  zero : rd 0 = fin 0
  one : rd 1 = fin 1

theorem clamp01E_stored {rd : K → Ext K} (h0 : rd 0 = fin 0) (h1 : rd 1 = fin 1) {x : Ext K} (h : IsStored rd x) :
    IsStored rd (clamp01E x) := by
  unfold clamp01E
  split
  · intro y hy; cases hy; exact h0
  split
  · intro y hy; cases hy; exact h1
  · exact h

theorem gridA_stored {rd : K → Ext K} {A : Arith K} (hA : A.Stored rd) {N : ℕ} {i : ℤ} {x : Ext K}
    (h : pyGet (gridA A N) i = .ok x) : IsStored rd x := by
  obtain ⟨k, -, rfl⟩ := List.mem_map.1 (pyGet_mem h)
  exact hA.grid N k

theorem initialGuessCurveA_stored {rd : K → Ext K} {A : Arith K} (hA : A.Stored rd) {C : CurveLike (Ext K)}
    {point : List (Ext K)} {u : Ext K} (h : initialGuessCurveA A C point = .ok u) : IsStored rd u := by
  unfold initialGuessCurveA at h
  obtain ⟨u0, hu0, h⟩ := bind_eq_ok h
  obtain ⟨⟨m, u1⟩, hloop, h⟩ := bind_eq_ok h
  cases h
  refine forN_ok (fun _ (st : Ext K × Ext K) => IsStored rd st.2) hloop (Nat.zero_le _) (gridA_stored hA hu0) ?_
  rintro i ⟨m, w⟩ s' - - hw hs
  obtain ⟨x, hx, hs⟩ := bind_eq_ok hs
  obtain ⟨q, -, hs⟩ := bind_eq_ok hs
  obtain ⟨r, -, hs⟩ := bind_eq_ok hs
  dsimp only at hs
  split at hs
  · cases hs; exact gridA_stored hA hx
  · cases hs; exact hw

theorem curveLoopA_stored {rd : K → Ext K} {A : Arith K} (hA : A.Stored rd) {C : CurveLike (Ext K)}
    {point : List (Ext K)} {eps1 eps2 : Ext K} {maxIter : ℤ} (fuel : ℕ) : ∀ (j : ℤ) (s : CurveState (Ext K)) (u : Ext K),
    IsStored rd s.u → curveLoopA A C point eps1 eps2 maxIter fuel j s = .ok u → IsStored rd u := by
  induction fuel with
  | zero => intro j s u _ h; cases h
  | succ fuel ih =>
    intro j s u h0 h
    unfold curveLoopA at h
    obtain ⟨r, -, h⟩ := bind_eq_ok h
    obtain ⟨num, -, h⟩ := bind_eq_ok h
    obtain ⟨d, -, h⟩ := bind_eq_ok h
    dsimp only at h
    split at h
    · cases h; exact h0
    obtain ⟨s', hs', h⟩ := bind_eq_ok h
    have hu : IsStored rd s'.u := by
      rw [curveInfoE_u hs']
      exact clamp01E_stored hA.zero hA.one (hA.sub _ _)
    obtain ⟨c1, -, h⟩ := bind_eq_ok h
    split at h
    · cases h; exact h0
    obtain ⟨c2, -, h⟩ := bind_eq_ok h
    split at h
    · cases h; exact h0
    split at h
    · cases h; exact hu
    · exact ih _ _ _ hu h

theorem curveInversionA_stored {rd : K → Ext K} {A : Arith K} (hA : A.Stored rd) {C : CurveLike (Ext K)}
    {point : List (Ext K)} {eps1 eps2 : Ext K} {maxIter : ℤ} {fuel : ℕ} {u : Ext K}
    (h : curveInversionA fuel A C point eps1 eps2 maxIter = .ok u) : IsStored rd u := by
  unfold curveInversionA at h
  obtain ⟨u0, hu0, h⟩ := bind_eq_ok h
  have hg := initialGuessCurveA_stored hA hu0
  obtain ⟨s, hs, h⟩ := bind_eq_ok h
  obtain ⟨c1, -, h⟩ := bind_eq_ok h
  split at h
  · cases h; exact hg
  obtain ⟨c2, -, h⟩ := bind_eq_ok h
  split at h
  · cases h; exact hg
  · exact curveLoopA_stored hA fuel 0 s u (by rw [curveInfoE_u hs]; exact hg) h

theorem initialGuessSurfA_stored {rd : K → Ext K} {A : Arith K} (hA : A.Stored rd) {S : SurfLike (Ext K)}
    {point : List (Ext K)} {w : Ext K × Ext K} (h : initialGuessSurfA A S point = .ok w) :
    IsStored rd w.1 ∧ IsStored rd w.2 := by
  unfold initialGuessSurfA at h
  obtain ⟨u0, hu0, h⟩ := bind_eq_ok h
  obtain ⟨v0, hv0, h⟩ := bind_eq_ok h
  obtain ⟨⟨m, u1⟩, hloop, h⟩ := bind_eq_ok h
  cases h
  refine forN_ok (fun _ (st : Ext K × Ext K × Ext K) => IsStored rd st.2.1 ∧ IsStored rd st.2.2) hloop (Nat.zero_le _)
    ⟨gridA_stored hA hu0, gridA_stored hA hv0⟩ ?_
  intro i st s' _ _ hw hs
  refine forN_ok (fun _ (st : Ext K × Ext K × Ext K) => IsStored rd st.2.1 ∧ IsStored rd st.2.2) hs (Nat.zero_le _) hw ?_
  rintro j ⟨m, w⟩ s' - - hw hs
  obtain ⟨x, hx, hs⟩ := bind_eq_ok hs
  obtain ⟨y, hy, hs⟩ := bind_eq_ok hs
  obtain ⟨q, -, hs⟩ := bind_eq_ok hs
  obtain ⟨r, -, hs⟩ := bind_eq_ok hs
  dsimp only at hs
  split at hs
  · cases hs; exact ⟨gridA_stored hA hx, gridA_stored hA hy⟩
  · cases hs; exact hw

theorem surfStepA_stored {rd : K → Ext K} {A : Arith K} (hA : A.Stored rd) {S : SurfLike (Ext K)} {point : List (Ext K)}
    {ui vi : Ext K} {d : SurfDers (Ext K)} {uv : Ext K × Ext K} (h : surfStepA A S point ui vi d = .ok uv) :
    IsStored rd uv.1 ∧ IsStored rd uv.2 := by
  unfold surfStepA at h
  obtain ⟨q, -, h⟩ := bind_eq_ok h
  obtain ⟨r, -, h⟩ := bind_eq_ok h
  obtain ⟨x, -, h⟩ := bind_eq_ok h
  obtain ⟨x, -, h⟩ := bind_eq_ok h
  obtain ⟨x, -, h⟩ := bind_eq_ok h
  obtain ⟨x, -, h⟩ := bind_eq_ok h
  obtain ⟨x, -, h⟩ := bind_eq_ok h
  obtain ⟨x, -, h⟩ := bind_eq_ok h
  obtain ⟨⟨a, b⟩, -, h⟩ := bind_eq_ok h
  cases h
  exact ⟨clamp01E_stored hA.zero hA.one (hA.add _ _), clamp01E_stored hA.zero hA.one (hA.add _ _)⟩

theorem surfLoopA_stored {rd : K → Ext K} {A : Arith K} (hA : A.Stored rd) {S : SurfLike (Ext K)}
    {point : List (Ext K)} {eps1 eps2 : Ext K} {maxIter : ℤ} (fuel : ℕ) :
    ∀ (n : ℤ) (ui vi : Ext K) (d : SurfDers (Ext K)) (w : Ext K × Ext K),
    surfLoopA A S point eps1 eps2 maxIter fuel n ui vi d = .ok w → IsStored rd w.1 ∧ IsStored rd w.2 := by
  induction fuel with
  | zero => intro n ui vi d w h; cases h
  | succ fuel ih =>
    intro n ui vi d w h
    unfold surfLoopA at h
    obtain ⟨⟨a, b⟩, hab, h⟩ := bind_eq_ok h
    have hu := surfStepA_stored hA hab
    obtain ⟨x, -, h⟩ := bind_eq_ok h
    split at h
    · cases h; exact hu
    obtain ⟨d', -, h⟩ := bind_eq_ok h
    obtain ⟨c1, -, h⟩ := bind_eq_ok h
    split at h
    · cases h; exact hu
    obtain ⟨c2, -, h⟩ := bind_eq_ok h
    split at h
    · cases h; exact hu
    split at h
    · cases h; exact hu
    · exact ih _ _ _ _ _ h

theorem surfaceInversionA_stored {rd : K → Ext K} {A : Arith K} (hA : A.Stored rd) {S : SurfLike (Ext K)}
    {point : List (Ext K)} {eps1 eps2 : Ext K} {maxIter : ℤ} {fuel : ℕ} {w : Ext K × Ext K}
    (h : surfaceInversionA fuel A S point eps1 eps2 maxIter = .ok w) : IsStored rd w.1 ∧ IsStored rd w.2 := by
  unfold surfaceInversionA at h
  obtain ⟨⟨u0, v0⟩, hu0, h⟩ := bind_eq_ok h
  have hg := initialGuessSurfA_stored hA hu0
  obtain ⟨s, hs, h⟩ := bind_eq_ok h
  obtain ⟨c1, -, h⟩ := bind_eq_ok h
  split at h
  · cases h; exact hg
  obtain ⟨c2, -, h⟩ := bind_eq_ok h
  split at h
  · cases h; exact hg
  · exact surfLoopA_stored hA fuel 0 _ _ _ _ h

end

end PySpline
