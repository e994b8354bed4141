import Verif.Lemmas.ExtendedNan
import Verif.Lemmas.InsertionEnd

/-!
# The checks of `knots.py` and the methods of curves and surfaces with infinities and NaN
-/

set_option linter.unusedSectionVars false

namespace PySpline

open Ext

section
variable {K : Type} [Field K] [LinearOrder K]

theorem Follows.iff {α β : Type} {f : α → β} {x : Py α} {y : Py β} (h : Follows f x y) :
    x = .error .nonfinite ∨ y = x.map f := by
  by_cases e : x = .error .nonfinite
  · exact Or.inl e
  · exact Or.inr (h e)

theorem bind_finite {α β : Type} {x : Py α} {k : α → Py β} (hx : x ≠ .error .nonfinite)
    (hk : ∀ a, k a ≠ .error .nonfinite) : (x >>= k) ≠ .error .nonfinite := by
  rcases x with e | a
  · exact fun h => hx (by rw [Except.error.inj h])
  · exact hk a

theorem ok_finite {α : Type} (a : α) : (Except.ok a : Py α) ≠ .error .nonfinite := by simp

theorem pyGet_finite {α : Type} (l : List α) (i : ℤ) : pyGet l i ≠ .error .nonfinite := by
  unfold pyGet
  refine bind_finite ?_ fun k => ?_
  · unfold pyIdx
    split_ifs <;> simp
  · split <;> simp

theorem findSpanLoop_finite (knot : K) (U : List K) : ∀ fuel low high mid,
    findSpanLoop knot U fuel low high mid ≠ .error .nonfinite := by
  intro fuel
  induction fuel with
  | zero => intro low high mid; simp [findSpanLoop]
  | succ fuel ih =>
    intro low high mid
    unfold findSpanLoop
    refine bind_finite (pyGet_finite _ _) fun a => ?_
    split_ifs
    · exact ih _ _ _
    refine bind_finite (pyGet_finite _ _) fun b => ?_
    split_ifs
    · exact ih _ _ _
    · simp

theorem findSpan_finite (n p : ℕ) (knot : K) (U : List K) : findSpan n p knot U ≠ .error .nonfinite := by
  unfold findSpan findSpanWith
  refine bind_finite (pyGet_finite _ _) fun a => ?_
  split_ifs
  · simp
  · exact findSpanLoop_finite _ _ _ _ _ _

theorem validateKnotE_nan : validateKnotE (nan : Ext K) = false := rfl

/-- The methods of a curve over `Ext K` are those of the curve as numpy evaluates them. -/
theorem curve_like_extends (norm : List K → K) (c : Curve K) : (c.like norm).Extends (c.lift.likeE norm) where
  numCtrl := List.length_map _
  singlePoint u := singlePointE_follows c u
  ders u := derivativesE_follows norm c u 2 false
  singlePoint_nan := by
    show c.lift.singlePointE nan = _
    unfold Curve.singlePointE
    rw [if_pos validateKnotE_nan]
  ders_nan := by
    show c.lift.derivativesE norm nan 2 false = _
    unfold Curve.derivativesE
    rw [if_pos validateKnotE_nan]

theorem surface_like_extends (norm : List K → K) (s : Surface K) :
    (s.like norm).Extends (s.lift.likeE norm) where
  numU := rfl
  numV := rfl
  singlePoint u v := surface_singlePointE_follows s u v
  ders u v := surface_derivativesE_follows norm s u v 2 2 false
  singlePoint_nan u v h := by
    show s.lift.singlePointE u v = _
    unfold Surface.singlePointE
    rcases h with rfl | rfl
    · rw [if_pos validateKnotE_nan]
    · rw [if_pos validateKnotE_nan]
      split_ifs <;> rfl
  ders_nan u v h := by
    show s.lift.derivativesE norm u v 2 2 false = _
    unfold Surface.derivativesE
    rcases h with rfl | rfl
    · rw [if_pos validateKnotE_nan]
    · rw [if_pos validateKnotE_nan]
      split_ifs <;> rfl

end

section
variable {K : Type} [Field K] [LinearOrder K] [IsStrictOrderedRing K]

/-- `check_knot_vector` rejects normalized knots that are all `0` or NaN. -/
theorem checkNormalizedE_zero_nan (p n : ℕ) (kv : List (Ext K)) (h : ∀ x ∈ kv, x = 0 ∨ x = nan) :
    checkNormalizedE p kv n = .ok false := by
  unfold checkNormalizedE
  split_ifs with h1 h2
  · rfl
  swap
  · rfl
  push Not at h1
  rw [pyGet_neg kv _ n 0 (by omega) (by omega), ok_bind]
  have hm : kv.getD n 0 ∈ kv := by
    rw [List.getD_eq_getElem?_getD, List.getElem?_eq_getElem (by omega)]
    exact List.getElem_mem _
  have : iscloseDE 1 (kv.getD n 0) = false := by
    rcases h _ hm with e | e
    · rw [e]
      refine (iscloseDE_lift (1 : K) 0).trans ?_
      unfold iscloseD isclose atolDefault
      rw [decide_eq_false_iff_not]
      simp
      norm_num
    · rw [e]
      exact isclose_nan_right _ _ _
  rw [this]
  rfl

theorem normalizeE_const {U : List K} (hne : U ≠ []) (h : ∀ x ∈ U, ∀ y ∈ U, x = y) :
    normalizeE (U.map fin) = .ok (List.replicate U.length nan) := by
  obtain ⟨x, xs, rfl⟩ := List.exists_cons_of_ne_nil hne
  have hr : x :: xs = List.replicate (xs.length + 1) x := by
    refine List.eq_replicate_iff.2 ⟨rfl, fun y hy => (h y hy x (by simp))⟩
  rw [hr]
  unfold normalizeE
  have hmax : npMaxE ((List.replicate (xs.length + 1) x).map fin) = .ok (fin x) := by
    refine (npMaxE_follows _).value ?_
    show Except.ok ((List.replicate xs.length x).foldl max x) = _
    induction xs.length with
    | zero => rfl
    | succ n ih => rw [List.replicate_succ, List.foldl_cons, max_self]; exact ih
  have hmin : npMinE ((List.replicate (xs.length + 1) x).map fin) = .ok (fin x) := by
    refine (npMinE_follows _).value ?_
    show Except.ok ((List.replicate xs.length x).foldl min x) = _
    induction xs.length with
    | zero => rfl
    | succ n ih => rw [List.replicate_succ, List.foldl_cons, min_self]; exact ih
  rw [hmax, ok_bind, hmin, ok_bind]
  dsimp only
  unfold divE
  rw [ok_bind]
  congr 1
  rw [List.map_replicate, List.map_replicate, List.map_replicate, List.length_replicate]
  congr 1
  show fin (x - x * 1) * ((fin 1 : Ext K) / fin (x - x)) = nan
  rw [mul_one, sub_self]
  show fin 0 * (if (0 : K) = 0 then (if (1 : K) = 0 then nan else inf (decide ((1 : K) < 0))) else fin (1 / 0)) = nan
  rw [if_pos rfl, if_neg one_ne_zero]
  show (if (0 : K) = 0 then nan else _) = nan
  rw [if_pos rfl]

theorem checkNormalized_finite (p : ℕ) (kv : List K) (n : ℕ) : checkNormalized p kv n ≠ .error .nonfinite := by
  unfold checkNormalized
  split_ifs
  · exact ok_finite _
  · refine bind_finite (pyGet_finite _ _) fun a => ?_
    split_ifs
    · refine bind_finite (pyGet_finite _ _) fun b => ok_finite _
    · exact ok_finite _
  · exact ok_finite _

end

end PySpline
