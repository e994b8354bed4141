import Verif.Lemmas.Extended

/-!
# Evaluation and inversion over extended numbers
-/

set_option linter.unusedSectionVars false

namespace PySpline

open Ext

section
variable {K : Type} [Field K] [LinearOrder K]

/-! ## `bspline.py` -/

/-- A curve with numbers as a curve with extended numbers. -/
def Curve.lift (c : Curve K) : Curve (Ext K) := ⟨c.degree, lift2 c.ctrlpts, lift1 c.kv⟩

/-- A surface with numbers as a surface with extended numbers. -/
def Surface.lift (s : Surface K) : Surface (Ext K) :=
  ⟨s.degreeU, s.degreeV, s.numU, s.numV, lift2 s.ctrlpts, lift1 s.kvU, lift1 s.kvV⟩

theorem validateKnotE_lift (u : K) : validateKnotE (fin u) = validateKnot u := by
  unfold validateKnotE validateKnot
  rw [Bool.eq_iff_iff, Bool.and_eq_true, Bool.and_eq_true, decide_eq_true_iff, decide_eq_true_iff]
  exact and_congr (le_lift 0 u) (le_lift u 1)

theorem dotE_follows (a b : List K) : Follows fin (dot a b) (dotE (lift1 a) (lift1 b)) := by
  unfold dot dotE
  refine Follows.ite (by rw [List.length_map, List.length_map]) (Follows.ok ?_) (Follows.error _)
  rw [zipWith_lift (· * ·) (· * ·) (fun _ _ => rfl), sum_lift]

theorem columnE_follows (m : List (List K)) (c : ℤ) : Follows lift1 (column m c) (columnE (lift2 m) c) :=
  Follows.mapPy (f := List.map fin) (F := fun r => pyGet r c) (G := fun r => pyGet r c)
    (fun r => Follows.get r c) m

theorem singlePointE_follows (c : Curve K) (u : K) :
    Follows lift1 (c.singlePoint u) (c.lift.singlePointE (fin u)) := by
  unfold Curve.singlePoint Curve.singlePointE
  refine Follows.ite (by rw [validateKnotE_lift]) (Follows.error _) ?_
  refine Follows.bind (f := id) ?_ fun span => ?_
  · show Follows id _ (findSpanE (lift2 c.ctrlpts).length c.degree (fin u) (lift1 c.kv))
    rw [List.length_map]
    exact findSpanE_follows _ _ _ _
  dsimp only [id]
  refine Follows.bind (basisFunctionsE_follows _ _ _ _) fun funs => ?_
  show Follows lift1 _ (columnE (pySlice (lift2 c.ctrlpts) _ _) 0 >>= _)
  rw [pySlice_map]
  refine Follows.bind (columnE_follows _ _) fun c0 => ?_
  refine Follows.bind (dotE_follows _ _) fun x => ?_
  show Follows lift1 _ (columnE (pySlice (lift2 c.ctrlpts) _ _) 1 >>= _)
  rw [pySlice_map]
  refine Follows.bind (columnE_follows _ _) fun c1 => ?_
  refine Follows.bind (dotE_follows _ _) fun y => ?_
  show Follows lift1 _ (columnE (pySlice (lift2 c.ctrlpts) _ _) 2 >>= _)
  rw [pySlice_map]
  refine Follows.bind (columnE_follows _ _) fun c2 => ?_
  refine Follows.bind (dotE_follows _ _) fun z => ?_
  exact Follows.ok rfl

theorem normE_lift (norm : List K → K) (l : List K) : normE norm (lift1 l) = fin (norm l) := by
  unfold normE
  rw [if_neg, if_pos, List.map_map]
  · congr 2
    exact List.map_id _
  · simp [Ext.isFin]
  · simp

theorem normalizeRowE_follows (norm : List K → K) (b first : Bool) (val : List K) :
    Follows lift1 (normalizeRow norm b first val) (normalizeRowE norm b first (lift1 val)) := by
  unfold normalizeRow normalizeRowE
  rw [normE_lift]
  refine Follows.ite ?_ (Follows.mapPy (f := fin) (F := fun x => pyDiv x (norm val))
    (G := fun x => divE x (fin (norm val))) (fun x => Follows.div x _) val) (Follows.ok rfl)
  rw [← iscloseDE_lift]
  rfl

theorem derivativesE_follows (norm : List K → K) (c : Curve K) (u : K) (order : ℤ) (b : Bool) :
    Follows lift2 (c.derivatives norm u order b) (c.lift.derivativesE norm (fin u) order b) := by
  unfold Curve.derivatives Curve.derivativesE
  refine Follows.ite (by rw [validateKnotE_lift]) (Follows.error _) ?_
  refine Follows.ite Iff.rfl (Follows.error _) ?_
  dsimp only
  refine Follows.bind (f := id) ?_ fun span => ?_
  · show Follows id _ (findSpanE (lift2 c.ctrlpts).length c.degree (fin u) (lift1 c.kv))
    rw [List.length_map]
    exact findSpanE_follows _ _ _ _
  dsimp only [id]
  refine Follows.bind (basisFunctionDersE_follows _ _ _ _ _) fun ders => ?_
  rw [zeros2E_lift]
  refine Follows.forN rfl fun row derivs => ?_
  refine Follows.bind (columnE_follows _ _) fun d1 => ?_
  show Follows lift2 _ (columnE (pySlice (lift2 c.ctrlpts) _ _) 1 >>= _)
  rw [pySlice_map]
  refine Follows.bind (columnE_follows _ _) fun c1 => ?_
  refine Follows.bind (dotE_follows _ _) fun y => ?_
  show Follows lift2 _ (columnE (pySlice (lift2 c.ctrlpts) _ _) 2 >>= _)
  rw [pySlice_map]
  refine Follows.bind (columnE_follows _ _) fun c2 => ?_
  refine Follows.bind (dotE_follows _ _) fun z => ?_
  refine Follows.bind (normalizeRowE_follows norm b _ [y, z]) fun val => ?_
  exact assignRowE_follows _ _ rfl

theorem reshape2E_follows (x : List K) (n m : ℕ) :
    Follows lift2 (reshape2 x n m) (reshape2E (lift1 x) n m) := by
  unfold reshape2 reshape2E
  refine Follows.ite (by rw [List.length_map]) (Follows.ok ?_) (Follows.error _)
  show _ = List.map (List.map fin) (List.map _ _)
  rw [List.map_map]
  refine List.map_congr_left fun i _ => ?_
  rw [← List.map_drop, ← List.map_take]
  rfl

theorem slice2E_lift (m : List (List K)) (a b c d : ℤ) :
    slice2E (lift2 m) a b c d = lift2 (slice2 m a b c d) := by
  unfold slice2E slice2
  rw [pySlice_map, List.map_map]
  show _ = List.map (List.map fin) (List.map _ _)
  rw [List.map_map]
  refine List.map_congr_left fun row _ => ?_
  exact pySlice_map fin row c d

theorem vecMatE_follows (v : List K) (m : List (List K)) :
    Follows lift1 (vecMat v m) (vecMatE (lift1 v) (lift2 m)) := by
  unfold vecMat vecMatE
  refine Follows.ite (by rw [List.length_map, List.length_map]) (Follows.ok ?_) (Follows.error _)
  have h0 : ((lift2 m).headD []).length = (m.headD []).length := by
    cases m with
    | nil => rfl
    | cons a b => exact List.length_map _
  rw [h0]
  show _ = List.map fin (List.map _ _)
  rw [List.map_map]
  refine List.map_congr_left fun j _ => ?_
  have h1 : ((lift2 m).map fun row => row.getD j 0) = (m.map fun row => row.getD j 0).map fin := by
    rw [List.map_map, List.map_map]
    exact List.map_congr_left fun row _ => getD_lift row j
  rw [h1, zipWith_lift (· * ·) (· * ·) (fun _ _ => rfl), sum_lift]
  rfl

theorem bilinearE_follows (bu : List K) (m : List (List K)) (bv : List K) :
    Follows fin (bilinear bu m bv) (bilinearE (lift1 bu) (lift2 m) (lift1 bv)) :=
  Follows.bind (vecMatE_follows _ _) fun _ => dotE_follows _ _

theorem surface_singlePointE_follows (s : Surface K) (u v : K) :
    Follows lift1 (s.singlePoint u v) (s.lift.singlePointE (fin u) (fin v)) := by
  unfold Surface.singlePoint Surface.singlePointE
  refine Follows.ite (by rw [validateKnotE_lift]) (Follows.error _) ?_
  refine Follows.ite (by rw [validateKnotE_lift]) (Follows.error _) ?_
  refine Follows.bind (findSpanE_follows _ _ _ _) fun a => ?_
  refine Follows.bind (findSpanE_follows _ _ _ _) fun b => ?_
  refine Follows.bind (basisFunctionsE_follows _ _ _ _) fun bu => ?_
  refine Follows.bind (basisFunctionsE_follows _ _ _ _) fun bv => ?_
  refine Follows.bind (columnE_follows _ _) fun cx => ?_
  refine Follows.bind (columnE_follows _ _) fun cy => ?_
  refine Follows.bind (columnE_follows _ _) fun cz => ?_
  refine Follows.bind (reshape2E_follows _ _ _) fun xa => ?_
  refine Follows.bind (reshape2E_follows _ _ _) fun ya => ?_
  refine Follows.bind (reshape2E_follows _ _ _) fun za => ?_
  rw [slice2E_lift, slice2E_lift, slice2E_lift]
  refine Follows.bind (bilinearE_follows _ _ _) fun x => ?_
  refine Follows.bind (bilinearE_follows _ _ _) fun y => ?_
  refine Follows.bind (bilinearE_follows _ _ _) fun z => ?_
  exact Follows.ok rfl

theorem surface_derivativesE_follows (norm : List K → K) (s : Surface K) (u v : K) (ou ov : ℕ) (b : Bool) :
    Follows lift2 (s.derivatives norm u v ou ov b) (s.lift.derivativesE norm (fin u) (fin v) ou ov b) := by
  unfold Surface.derivatives Surface.derivativesE
  refine Follows.ite (by rw [validateKnotE_lift]) (Follows.error _) ?_
  refine Follows.ite (by rw [validateKnotE_lift]) (Follows.error _) ?_
  dsimp only
  refine Follows.bind (findSpanE_follows _ _ _ _) fun a => ?_
  refine Follows.bind (findSpanE_follows _ _ _ _) fun b => ?_
  refine Follows.bind (basisFunctionDersE_follows _ _ _ _ _) fun du => ?_
  refine Follows.bind (basisFunctionDersE_follows _ _ _ _ _) fun dv => ?_
  refine Follows.bind (columnE_follows _ _) fun cx => ?_
  refine Follows.bind (columnE_follows _ _) fun cy => ?_
  refine Follows.bind (columnE_follows _ _) fun cz => ?_
  refine Follows.bind (reshape2E_follows _ _ _) fun xa => ?_
  refine Follows.bind (reshape2E_follows _ _ _) fun ya => ?_
  refine Follows.bind (reshape2E_follows _ _ _) fun za => ?_
  rw [slice2E_lift, slice2E_lift, slice2E_lift, zeros2E_lift]
  refine Follows.bind (f := Prod.map lift2 id) (Follows.forN rfl fun uRow st => Follows.forN rfl ?_) ?_
  · rintro vRow ⟨derivs, index⟩
    dsimp only [Prod.map, id]
    refine Follows.bind (columnE_follows _ _) fun bu => ?_
    refine Follows.bind (columnE_follows _ _) fun bv => ?_
    refine Follows.bind (bilinearE_follows _ _ _) fun x => ?_
    refine Follows.bind (bilinearE_follows _ _ _) fun y => ?_
    refine Follows.bind (bilinearE_follows _ _ _) fun z => ?_
    refine Follows.bind (normalizeRowE_follows norm _ _ [x, y, z]) fun val => ?_
    refine Follows.bind (assignRowE_follows _ _ rfl) fun derivs => ?_
    exact Follows.ok rfl
  rintro ⟨derivs, index⟩
  exact Follows.ok rfl

/-! ## `parameterize.py` -/

/-- `E` is the curve `C` as numpy evaluates it: on numbers it does the same unless there is a division
by zero, and it rejects a parameter that is not a number. -/
structure CurveLike.Extends (C : CurveLike K) (E : CurveLike (Ext K)) : Prop where
  numCtrl : E.numCtrl = C.numCtrl
  singlePoint : ∀ u, Follows lift1 (C.singlePoint u) (E.singlePoint (fin u))
  ders : ∀ u, Follows lift2 (C.ders u) (E.ders (fin u))
  singlePoint_nan : E.singlePoint nan = .error .valueError
  ders_nan : E.ders nan = .error .valueError

/-- `E` is the surface `S` as numpy evaluates it. -/
structure SurfLike.Extends (S : SurfLike K) (E : SurfLike (Ext K)) : Prop where
  numU : E.numU = S.numU
  numV : E.numV = S.numV
  singlePoint : ∀ u v, Follows lift1 (S.singlePoint u v) (E.singlePoint (fin u) (fin v))
  ders : ∀ u v, Follows lift2 (S.ders u v) (E.ders (fin u) (fin v))
  singlePoint_nan : ∀ u v, u = nan ∨ v = nan → E.singlePoint u v = .error .valueError
  ders_nan : ∀ u v, u = nan ∨ v = nan → E.ders u v = .error .valueError

theorem vsubE_follows (a b : List K) : Follows lift1 (vsub a b) (vsubE (lift1 a) (lift1 b)) := by
  unfold vsub vsubE
  refine Follows.ite (by rw [List.length_map, List.length_map]) (Follows.ok ?_) ?_
  · rw [zipWith_lift (· - ·) (· - ·) (fun _ _ => rfl)]
  refine Follows.ite (by rw [List.length_map]) (Follows.ok ?_) ?_
  · rw [getD_lift, List.map_map]
    show _ = List.map fin (List.map _ _)
    rw [List.map_map]
    rfl
  refine Follows.ite (by rw [List.length_map]) (Follows.ok ?_) (Follows.error _)
  rw [getD_lift, List.map_map]
  show _ = List.map fin (List.map _ _)
  rw [List.map_map]
  rfl

theorem vaddE_follows (a b : List K) : Follows lift1 (vadd a b) (vaddE (lift1 a) (lift1 b)) := by
  unfold vadd vaddE
  refine Follows.ite (by rw [List.length_map, List.length_map]) (Follows.ok ?_) (Follows.error _)
  rw [zipWith_lift (· + ·) (· + ·) (fun _ _ => rfl)]

theorem initialGuessCurveE_follows (nm : Num K) {C : CurveLike K} {E : CurveLike (Ext K)} (h : C.Extends E)
    (point : List K) :
    Follows fin (initialGuessCurve nm C point) (initialGuessCurveE nm E (lift1 point)) := by
  unfold initialGuessCurve initialGuessCurveE
  rw [h.numCtrl]
  dsimp only
  refine Follows.bind (Follows.get _ _) fun u0 => ?_
  refine Follows.bind (f := Prod.map fin fin) (Follows.forN rfl ?_) ?_
  · rintro k ⟨m, u0⟩
    dsimp only [Prod.map]
    refine Follows.bind (Follows.get _ _) fun x => ?_
    refine Follows.bind (h.singlePoint x) fun q => ?_
    refine Follows.bind (vsubE_follows _ _) fun r => ?_
    rw [normE_lift]
    exact Follows.ite (lt_lift _ _).symm (Follows.ok rfl) (Follows.ok rfl)
  · rintro ⟨m, u0⟩
    exact Follows.ok rfl

theorem clamp01E_lift (x : K) : clamp01E (fin x) = fin (clamp01 x) := by
  unfold clamp01E clamp01
  by_cases h0 : x < 0
  · rw [if_pos (by exact (lt_lift x 0).2 h0), if_pos h0]
    rfl
  · rw [if_neg (by exact fun hh => h0 ((lt_lift x 0).1 hh)), if_neg h0]
    by_cases h1 : 1 < x
    · rw [if_pos (by exact (lt_lift 1 x).2 h1), if_pos h1]
      rfl
    · rw [if_neg (by exact fun hh => h1 ((lt_lift 1 x).1 hh)), if_neg h1]

/-- A state of the loop with extended numbers. -/
def CurveState.lift (s : CurveState K) : CurveState (Ext K) := ⟨fin s.u, lift1 s.pt, lift1 s.du, lift1 s.duu⟩

theorem curveInfoE_follows {C : CurveLike K} {E : CurveLike (Ext K)} (h : C.Extends E) (u : K) :
    Follows CurveState.lift (curveInfo C u) (curveInfoE E (fin u)) := by
  unfold curveInfo curveInfoE
  refine Follows.bind (h.ders u) fun ders => ?_
  refine Follows.bind (Follows.get _ _) fun pt => ?_
  refine Follows.bind (Follows.get _ _) fun du => ?_
  refine Follows.bind (Follows.get _ _) fun duu => ?_
  exact Follows.ok rfl

theorem le_lift_decide (x y : K) : le (fin x) (fin y) = decide (x ≤ y) := by
  rw [Bool.eq_iff_iff, decide_eq_true_iff, le_lift]

theorem curveCond1E_follows (nm : Num K) {C : CurveLike K} {E : CurveLike (Ext K)} (h : C.Extends E)
    (point : List K) (eps1 u : K) :
    Follows id (curveCond1 nm C point eps1 u) (curveCond1E nm E (lift1 point) (fin eps1) (fin u)) := by
  unfold curveCond1 curveCond1E
  refine Follows.bind (h.singlePoint u) fun q => ?_
  refine Follows.bind (vsubE_follows _ _) fun r => ?_
  rw [normE_lift, le_lift_decide]
  exact Follows.ok rfl

end

section
variable {K : Type} [Field K] [LinearOrder K] [IsStrictOrderedRing K]

theorem ratioLe_lift (a b eps : K) : le (Ext.abs (fin a) / fin b) (fin eps) = ratioLe |a| b eps := by
  unfold ratioLe
  by_cases h : b = 0
  · rw [if_pos h]
    show le (if b = 0 then (if |a| = 0 then nan else inf (decide (|a| < 0))) else _) _ = _
    rw [if_pos h]
    by_cases ha : |a| = 0
    · rw [if_pos ha]
      rfl
    · rw [if_neg ha, decide_eq_false (not_lt.2 (abs_nonneg a))]
      rfl
  · rw [if_neg h]
    show le (fin |a| / fin b) _ = _
    rw [fin_div _ h, le_lift_decide]

theorem curveCond2E_follows (nm : Num K) (point : List K) (eps2 : K) (s : CurveState K) :
    Follows id (curveCond2 nm point eps2 s) (curveCond2E nm (lift1 point) (fin eps2) s.lift) := by
  unfold curveCond2 curveCond2E
  refine Follows.bind (vsubE_follows _ _) fun r => ?_
  refine Follows.bind (dotE_follows _ _) fun num => ?_
  refine Follows.ok ?_
  show le (Ext.abs (fin num) / (normE nm.norm (lift1 s.du) * normE nm.norm (lift1 r))) (fin eps2) = _
  rw [normE_lift, normE_lift]
  exact ratioLe_lift _ _ _

/-- The Newton step when the denominator is not zero, or the numerator is not. -/
theorem newtonE_lift (nm : Num K) (hz : ∀ a b, nm.zeroSign a b = decide (0 < a)) (u num denom : K)
    (h : denom ≠ 0 ∨ num ≠ 0) :
    ∃ x, newtonStep nm u num denom = .ok x ∧ clamp01E (fin u - fin num / fin denom) = fin x := by
  unfold newtonStep
  by_cases hd : denom = 0
  · have hn : num ≠ 0 := h.resolve_left fun h => h hd
    rw [if_pos hd, if_neg hn, hz]
    have e : (fin num / fin denom : Ext K) = inf (decide (num < 0)) := by
      show (if denom = 0 then (if num = 0 then nan else inf (decide (num < 0))) else _) = _
      rw [if_pos hd, if_neg hn]
    rw [e]
    rcases lt_or_gt_of_ne hn with h0 | h0
    · rw [decide_eq_true h0, decide_eq_false (not_lt.2 h0.le)]
      exact ⟨1, rfl, rfl⟩
    · rw [decide_eq_false (not_lt.2 h0.le), decide_eq_true h0]
      exact ⟨0, rfl, rfl⟩
  · rw [if_neg hd, fin_div _ hd]
    exact ⟨_, rfl, clamp01E_lift _⟩

theorem normE_nan (norm : List K → K) {l : List (Ext K)} (h : nan ∈ l) : normE norm l = nan := by
  unfold normE
  rw [if_pos]
  rw [List.any_eq_true]
  exact ⟨nan, h, by simp⟩

theorem mul_nan (x : Ext K) : x * nan = nan := by
  cases x <;> rfl

theorem le_nan_left (x : Ext K) : le nan x = false := by
  cases x <;> rfl

theorem pyGet_mem {α : Type} {l : List α} {i : ℤ} {x : α} (h : pyGet l i = .ok x) : x ∈ l := by
  unfold pyGet at h
  rcases h1 : pyIdx l.length i with e | k
  · rw [h1] at h; exact absurd h (by simp)
  rw [h1, ok_bind] at h
  rcases h2 : l[k]? with _ | y
  · rw [h2] at h; exact absurd h (by simp)
  · rw [h2] at h
    rw [← Except.ok.inj h]
    exact List.mem_of_getElem? h2

theorem curveInfo_du_mem {C : CurveLike K} {x : K} {s : CurveState K} (hi : curveInfo C x = .ok s) :
    ∃ ders, C.ders x = .ok ders ∧ s.du ∈ ders := by
  unfold curveInfo at hi
  rcases h1 : C.ders x with e | ders
  · rw [h1] at hi; exact absurd hi (by simp)
  rw [h1, ok_bind] at hi
  rcases h2 : pyGet ders 0 with e | pt
  · rw [h2] at hi; exact absurd hi (by simp)
  rw [h2, ok_bind] at hi
  rcases h3 : pyGet ders 1 with e | du
  · rw [h3] at hi; exact absurd hi (by simp)
  rw [h3, ok_bind] at hi
  rcases h4 : pyGet ders 2 with e | duu
  · rw [h4] at hi; exact absurd hi (by simp)
  rw [h4, ok_bind] at hi
  rw [← Except.ok.inj hi]
  exact ⟨ders, rfl, pyGet_mem h3⟩

theorem curveLoopE_follows (nm : Num K) (hz : ∀ a b, nm.zeroSign a b = decide (0 < a)) {C : CurveLike K}
    {E : CurveLike (Ext K)} (h : C.Extends E) (hrow : ∀ u ders, C.ders u = .ok ders → ∀ row ∈ ders, row ≠ [])
    (point : List K) (eps1 eps2 : K) (maxIter : ℤ) :
    ∀ fuel j s, s.du ≠ [] → Follows fin (curveLoop nm C point eps1 eps2 maxIter fuel j s)
      (curveLoopE nm E (lift1 point) (fin eps1) (fin eps2) maxIter fuel j s.lift) := by
  intro fuel
  induction fuel with
  | zero => intro j s _; exact Follows.error _
  | succ fuel ih =>
    intro j s hs
    unfold curveLoop curveLoopE
    refine Follows.bind (vsubE_follows _ _) fun r => ?_
    refine Follows.bind (dotE_follows _ _) fun num => ?_
    refine Follows.bind (dotE_follows _ _) fun d => ?_
    have en : fin d + normE nm.norm s.lift.du * normE nm.norm s.lift.du = fin (d + nm.norm s.du ^ 2) := by
      show fin d + normE nm.norm (lift1 s.du) * normE nm.norm (lift1 s.du) = _
      rw [normE_lift, sq]
      rfl
    rw [en]
    dsimp only
    by_cases hd : d + nm.norm s.du ^ 2 ≠ 0 ∨ num ≠ 0
    · obtain ⟨x, hx, hxE⟩ := newtonE_lift nm hz s.u num _ hd
      show Follows fin _ (if le (normE nm.norm (s.lift.du.map fun i =>
        i * (clamp01E (fin s.u - fin num / fin (d + nm.norm s.du ^ 2)) - s.lift.u))) _ = true then _ else _)
      rw [hx, ok_bind]
      show Follows fin _ (if le (normE nm.norm ((lift1 s.du).map fun i =>
        i * (clamp01E (fin s.u - fin num / fin (d + nm.norm s.du ^ 2)) - fin s.u))) _ = true then _ else _)
      have ed : s.lift.u = fin s.u := rfl
      rw [ed, hxE]
      refine Follows.ite ?_ (Follows.ok rfl) ?_
      · have e2 : ((lift1 s.du).map fun i => i * (fin x - fin s.u)) = lift1 (s.du.map fun i => i * (x - s.u)) := by
          rw [List.map_map]
          show _ = List.map fin (List.map _ _)
          rw [List.map_map]
          rfl
        rw [e2, normE_lift]
        exact (le_lift _ _).symm
      rcases hi : curveInfo C x with e | s'
      · have := curveInfoE_follows h x
        rw [hi] at this
        intro hne
        have hne' : (Except.error e : Py (CurveState K)) ≠ .error .nonfinite := fun he => hne (by rw [he]; rfl)
        rw [this hne']
        rfl
      · have := curveInfoE_follows h x
        rw [hi] at this
        rw [this (by simp)]
        show Follows fin (curveCond1 nm C point eps1 x >>= _) (curveCond1E nm E (lift1 point) (fin eps1) (fin x) >>= _)
        refine Follows.bind (curveCond1E_follows nm h point eps1 x) fun c1 => ?_
        refine Follows.ite Iff.rfl (Follows.ok rfl) ?_
        refine Follows.bind (curveCond2E_follows nm point eps2 s') fun c2 => ?_
        refine Follows.ite Iff.rfl (Follows.ok rfl) ?_
        refine Follows.ite Iff.rfl (Follows.ok rfl) (ih _ _ ?_)
        obtain ⟨ders, h1, h2⟩ := curveInfo_du_mem hi
        exact hrow x ders h1 _ h2
    · push Not at hd
      have e1 : newtonStep nm s.u num (d + nm.norm s.du ^ 2) = .error .valueError := by
        unfold newtonStep
        rw [if_pos hd.1, if_pos hd.2]
      rw [e1, hd.1, hd.2]
      have e2 : clamp01E (s.lift.u - fin 0 / fin 0) = (nan : Ext K) := by
        have : (fin 0 / fin 0 : Ext K) = nan := by
          show (if (0 : K) = 0 then (if (0 : K) = 0 then nan else _) else _) = _
          rw [if_pos rfl, if_pos rfl]
        rw [this]
        rfl
      rw [e2]
      have e3 : normE nm.norm (s.lift.du.map fun i => i * (nan - s.lift.u)) = nan := by
        refine normE_nan _ ?_
        obtain ⟨a, as, has⟩ := List.exists_cons_of_ne_nil hs
        have : s.lift.du = fin a :: lift1 as := by
          show lift1 s.du = _
          rw [has]
          rfl
        rw [this]
        exact List.mem_cons_self
      rw [e3, le_nan_left, if_neg (by simp)]
      have e4 : curveInfoE E nan = .error .valueError := by
        unfold curveInfoE
        rw [h.ders_nan]
        rfl
      rw [e4]
      exact Follows.error _

theorem curveInversionE_follows (nm : Num K) (hz : ∀ a b, nm.zeroSign a b = decide (0 < a)) {C : CurveLike K}
    {E : CurveLike (Ext K)} (h : C.Extends E) (hrow : ∀ u ders, C.ders u = .ok ders → ∀ row ∈ ders, row ≠ [])
    (fuel : ℕ) (point : List K) (eps1 eps2 : K) (maxIter : ℤ) :
    Follows fin (curveInversion fuel nm C point eps1 eps2 maxIter)
      (curveInversionE fuel nm E (lift1 point) (fin eps1) (fin eps2) maxIter) := by
  unfold curveInversion curveInversionE
  refine Follows.bind (initialGuessCurveE_follows nm h point) fun u0 => ?_
  have hf := curveInfoE_follows h u0
  rcases hi : curveInfo C u0 with e | s
  · rw [hi] at hf
    intro hne
    rw [hf fun he => hne (by rw [he]; rfl)]
    rfl
  · rw [hi] at hf
    rw [hf (by simp)]
    show Follows fin (curveCond1 nm C point eps1 u0 >>= _)
      (curveCond1E nm E (lift1 point) (fin eps1) (fin u0) >>= _)
    refine Follows.bind (curveCond1E_follows nm h point eps1 u0) fun c1 => ?_
    refine Follows.ite Iff.rfl (Follows.ok rfl) ?_
    refine Follows.bind (curveCond2E_follows nm point eps2 s) fun c2 => ?_
    refine Follows.ite Iff.rfl (Follows.ok rfl) ?_
    obtain ⟨ders, h1, h2⟩ := curveInfo_du_mem hi
    exact curveLoopE_follows nm hz h hrow point eps1 eps2 maxIter fuel 0 s (hrow u0 ders h1 _ h2)

theorem initialGuessSurfE_follows (nm : Num K) {S : SurfLike K} {E : SurfLike (Ext K)} (h : S.Extends E)
    (point : List K) :
    Follows (Prod.map fin fin) (initialGuessSurf nm S point) (initialGuessSurfE nm E (lift1 point)) := by
  unfold initialGuessSurf initialGuessSurfE
  rw [h.numU, h.numV]
  dsimp only
  refine Follows.bind (Follows.get _ _) fun u0 => ?_
  refine Follows.bind (Follows.get _ _) fun v0 => ?_
  refine Follows.bind (f := Prod.map fin (Prod.map fin fin)) (Follows.forN rfl fun a st => Follows.forN rfl ?_) ?_
  · rintro k ⟨m, best⟩
    dsimp only [Prod.map]
    refine Follows.bind (Follows.get _ _) fun x => ?_
    refine Follows.bind (Follows.get _ _) fun y => ?_
    refine Follows.bind (h.singlePoint x y) fun q => ?_
    refine Follows.bind (vsubE_follows _ _) fun r => ?_
    rw [normE_lift]
    exact Follows.ite (lt_lift _ _).symm (Follows.ok rfl) (Follows.ok rfl)
  · rintro ⟨m, best⟩
    exact Follows.ok rfl

/-- Derivative rows with extended numbers. -/
def SurfDers.lift (d : SurfDers K) : SurfDers (Ext K) :=
  ⟨lift1 d.du, lift1 d.dv, lift1 d.duu, lift1 d.dvv, lift1 d.duv⟩

theorem surfInfoE_follows {S : SurfLike K} {E : SurfLike (Ext K)} (h : S.Extends E) (u v : K) :
    Follows SurfDers.lift (surfInfo S u v) (surfInfoE E (fin u) (fin v)) := by
  unfold surfInfo surfInfoE
  refine Follows.bind (h.ders u v) fun ders => ?_
  refine Follows.bind (Follows.get _ _) fun a => ?_
  refine Follows.bind (Follows.get _ _) fun b => ?_
  refine Follows.bind (Follows.get _ _) fun c => ?_
  refine Follows.bind (Follows.get _ _) fun d => ?_
  refine Follows.bind (Follows.get _ _) fun e => ?_
  exact Follows.ok rfl

theorem surfCond1E_follows (nm : Num K) {S : SurfLike K} {E : SurfLike (Ext K)} (h : S.Extends E)
    (point : List K) (eps1 u v : K) :
    Follows id (surfCond1 nm S point eps1 u v)
      (surfCond1E nm E (lift1 point) (fin eps1) (fin u) (fin v)) := by
  unfold surfCond1 surfCond1E
  refine Follows.bind (h.singlePoint u v) fun q => ?_
  refine Follows.bind (vsubE_follows _ _) fun r => ?_
  rw [normE_lift, le_lift_decide]
  exact Follows.ok rfl

theorem surfCond2E_follows (nm : Num K) {S : SurfLike K} {E : SurfLike (Ext K)} (h : S.Extends E)
    (point : List K) (eps2 u v : K) (d : SurfDers K) :
    Follows id (surfCond2 nm S point eps2 u v d)
      (surfCond2E nm E (lift1 point) (fin eps2) (fin u) (fin v) d.lift) := by
  unfold surfCond2 surfCond2E
  refine Follows.bind (h.singlePoint u v) fun q => ?_
  refine Follows.bind (vsubE_follows _ _) fun r => ?_
  refine Follows.bind (dotE_follows _ _) fun a => ?_
  refine Follows.bind (dotE_follows _ _) fun b => ?_
  refine Follows.ok ?_
  show (le (Ext.abs (fin a) / (normE nm.norm (lift1 d.du) * normE nm.norm (lift1 r))) (fin eps2) &&
    le (Ext.abs (fin b) / (normE nm.norm (lift1 d.dv) * normE nm.norm (lift1 r))) (fin eps2)) = _
  rw [normE_lift, normE_lift, normE_lift]
  exact congrArg₂ _ (ratioLe_lift _ _ _) (ratioLe_lift _ _ _)

theorem surfStepE_follows (nm : Num K) {S : SurfLike K} {E : SurfLike (Ext K)} (h : S.Extends E)
    (point : List K) (u v : K) (d : SurfDers K) :
    Follows (Prod.map fin fin) (surfStep nm S point u v d)
      (surfStepE nm E (lift1 point) (fin u) (fin v) d.lift) := by
  unfold surfStep surfStepE
  refine Follows.bind (h.singlePoint u v) fun q => ?_
  refine Follows.bind (vsubE_follows _ _) fun r => ?_
  refine Follows.bind (dotE_follows _ _) fun f => ?_
  refine Follows.bind (dotE_follows _ _) fun g => ?_
  refine Follows.bind (dotE_follows _ _) fun ruu => ?_
  refine Follows.bind (dotE_follows _ _) fun uv => ?_
  refine Follows.bind (dotE_follows _ _) fun ruv => ?_
  refine Follows.bind (dotE_follows _ _) fun rvv => ?_
  have e1 : normE nm.norm d.lift.du = fin (nm.norm d.du) := normE_lift _ _
  have e2 : normE nm.norm d.lift.dv = fin (nm.norm d.dv) := normE_lift _ _
  rw [e1, e2]
  dsimp only
  rw [sq, sq]
  show Follows _ (if _ then _ else _) ((if _ then _ else _) >>= _)
  by_cases hd : (nm.norm d.du * nm.norm d.du + ruu) * (nm.norm d.dv * nm.norm d.dv + rvv) -
      (uv + ruv) * (uv + ruv) = 0
  · rw [if_pos hd, if_pos hd]
    exact Follows.error _
  · rw [if_neg hd, if_neg hd]
    refine Follows.ok ?_
    show (clamp01E (fin _), clamp01E (fin _)) = _
    rw [clamp01E_lift, clamp01E_lift]
    rfl

theorem surfLoopE_follows (nm : Num K) {S : SurfLike K} {E : SurfLike (Ext K)} (h : S.Extends E)
    (point : List K) (eps1 eps2 : K) (maxIter : ℤ) :
    ∀ fuel n u v d, Follows (Prod.map fin fin) (surfLoop nm S point eps1 eps2 maxIter fuel n u v d)
      (surfLoopE nm E (lift1 point) (fin eps1) (fin eps2) maxIter fuel n (fin u) (fin v) d.lift) := by
  intro fuel
  induction fuel with
  | zero => intro n u v d; exact Follows.error _
  | succ fuel ih =>
    intro n u v d
    unfold surfLoop surfLoopE
    refine Follows.bind (surfStepE_follows nm h point u v d) ?_
    rintro ⟨x, y⟩
    dsimp only [Prod.map]
    refine Follows.bind (f := lift1) ?_ fun w => ?_
    · have := vaddE_follows (d.du.map fun t => (x - u) * t) (d.dv.map fun t => (y - v) * t)
      unfold lift1 at this
      rw [List.map_map, List.map_map] at this
      show Follows lift1 _ (vaddE ((lift1 d.du).map _) ((lift1 d.dv).map _))
      rw [List.map_map, List.map_map]
      exact this
    refine Follows.ite (by rw [normE_lift]; exact (le_lift _ _).symm) (Follows.ok rfl) ?_
    refine Follows.bind (surfInfoE_follows h u v) fun d' => ?_
    refine Follows.bind (surfCond1E_follows nm h point eps1 x y) fun c1 => ?_
    refine Follows.ite Iff.rfl (Follows.ok rfl) ?_
    refine Follows.bind (surfCond2E_follows nm h point eps2 x y d') fun c2 => ?_
    refine Follows.ite Iff.rfl (Follows.ok rfl) ?_
    exact Follows.ite Iff.rfl (Follows.ok rfl) (ih _ _ _ _)

theorem surfaceInversionE_follows (nm : Num K) {S : SurfLike K} {E : SurfLike (Ext K)} (h : S.Extends E)
    (fuel : ℕ) (point : List K) (eps1 eps2 : K) (maxIter : ℤ) :
    Follows (Prod.map fin fin) (surfaceInversion fuel nm S point eps1 eps2 maxIter)
      (surfaceInversionE fuel nm E (lift1 point) (fin eps1) (fin eps2) maxIter) := by
  unfold surfaceInversion surfaceInversionE
  refine Follows.bind (initialGuessSurfE_follows nm h point) ?_
  rintro ⟨u, v⟩
  dsimp only [Prod.map]
  refine Follows.bind (surfInfoE_follows h u v) fun d => ?_
  refine Follows.bind (surfCond1E_follows nm h point eps1 u v) fun c1 => ?_
  refine Follows.ite Iff.rfl (Follows.ok rfl) ?_
  refine Follows.bind (surfCond2E_follows nm h point eps2 u v d) fun c2 => ?_
  exact Follows.ite Iff.rfl (Follows.ok rfl) (surfLoopE_follows nm h point eps1 eps2 maxIter fuel 0 u v d)

end

end PySpline
