import Verif.Props.IeeeCommitted
import Verif.Props.IeeeNewton
import Verif.Lemmas.IeeeSessionEval

/-!
# C201: the exception of the committed class in double precision
-/

set_option linter.unusedSectionVars false
set_option exponentiation.threshold 1100

namespace PySpline

open Spec Ext

section
variable {dot : List (Ext ℚ) → List (Ext ℚ) → Py (Ext ℚ)} {nrm norm : List (Ext ℚ) → Ext ℚ}
  {point : Curve (Ext ℚ) → Ext ℚ → Py (List (Ext ℚ))} {eps1 eps2 : Ext ℚ} {maxIter : ℤ} {fuelI : ℕ}

private theorem guess_returns {C : CurveLike (Ext ℚ)} {pt : List (Ext ℚ)} (hpt : pt.length = 3) (n1 : 1 ≤ C.numCtrl)
    (n2 : C.numCtrl ≤ 2 ^ 49)
    (hC : ∀ x, bin64 x = fin x → 0 ≤ x → x ≤ 1 → ∃ q, C.singlePoint (fin x) = .ok q ∧ q.length = 3) :
    Returns (initialGuessCurveA (ieeeArith bin64 norm) C pt) fun u => ∃ x, u = fin x ∧ bin64 x = fin x ∧ 0 ≤ x ∧ x ≤ 1 := by
  obtain ⟨m, hm⟩ : ∃ m, 2 * C.numCtrl = m + 1 := ⟨2 * C.numCtrl - 1, by omega⟩
  have hm1 : 1 ≤ m := by omega
  have hm2 : m ≤ 2 ^ 50 := by
    have : (2 : ℕ) ^ 50 = 2 * 2 ^ 49 := by norm_num
    omega
  have hg : ∀ i : ℕ, i ≤ m → pyGet (gridA (ieeeArith bin64 norm) (m + 1)) i = .ok (fin (vtkParam m i)) := by
    intro i hi
    rw [pyGet_nat _ _ i 0 rfl (by simp [gridA]; omega)]
    unfold gridA
    rw [List.getD_eq_getElem?_getD, List.getElem?_eq_getElem (by simp; omega), Option.getD_some, List.getElem_map,
      List.getElem_range, gridPoint_ieee hm1 hm2 hi]
  have hq : ∀ i : ℕ, i ≤ m → ∃ x, fin (vtkParam m i) = fin x ∧ bin64 x = fin x ∧ 0 ≤ x ∧ x ≤ 1 := fun i hi =>
    ⟨_, rfl, vtkParam_stored hm1 hm2 hi, ((vtk_param hm1 hm2).2.1 i hi).1, ((vtk_param hm1 hm2).2.1 i hi).2⟩
  unfold initialGuessCurveA
  dsimp only
  rw [hm, show (0 : ℤ) = ((0 : ℕ) : ℤ) from rfl, hg 0 (by omega), ok_bind]
  refine Returns.bind (Returns.forN (fun _ (st : Ext ℚ × Ext ℚ) => ∃ x, st.2 = fin x ∧ bin64 x = fin x ∧ 0 ≤ x ∧ x ≤ 1)
    (Nat.zero_le _) (hq 0 (by omega)) ?_) fun st hst => ⟨st.2, rfl, hst⟩
  rintro i ⟨mv, w⟩ - hi hw
  obtain ⟨x, ex, hx, h0, h1⟩ := hq i (by omega)
  obtain ⟨q, eq, lq⟩ := hC x hx h0 h1
  dsimp only
  rw [hg i (by omega), ok_bind, ex, eq, ok_bind]
  unfold vsubA
  rw [if_pos (by rw [hpt, lq]), ok_bind]
  split
  · exact ⟨_, rfl, x, rfl, hx, h0, h1⟩
  · exact ⟨_, rfl, hw⟩

/-- **C201.** In double precision `curve_inversion` raises the `ValueError` of `derivatives` on every clamped curve in space of
degree one to ten with well separated knots, for every point with three entries, NaN and infinities included, all tolerances and limits. -/
theorem curve_inversion_value_error_binary64 (hdot : ∀ a b, a.length = b.length → ∃ x, dot a b = .ok x)
    (hpoint : ∀ c u, (∃ q, Curve.PointR bin64 c u q) → ∃ q, point c u = .ok q ∧ Curve.PointR bin64 c u q) {p n : ℕ} {U : List ℚ}
    {P : List (List ℚ)} (hU : UnitKnots p n U) (hp : 1 ≤ p) (hp10 : p ≤ 10)
    (hgap : ∀ i, p ≤ i → i < n → 1 / 2 ^ 40 ≤ knotFn U (i + 1) - knotFn U i) (hlast : knotFn U (n - 1) ≤ 1 - 102 / 10 ^ 8)
    (hrep : ∀ x ∈ U, bin64 x = fin x) (hP : Shape P n 3) (hn : n ≤ 2 ^ 49) (hC : ∀ c < 3, ∀ i < n, |coord P c i| ≤ 2 ^ 1000)
    {pt : List (Ext ℚ)} (hpt : pt.length = 3) :
    curveInversionA fuelI (ieeeArith bin64 norm) ((Curve.mk p P U).lift.likeR bin64 dot nrm point) pt eps1 eps2 maxIter
      = .error .valueError := by
  have hl : (Curve.mk p P U).lift.ctrlpts.length = n := (shape_lift2 hP).1
  have hsz := hU.size
  obtain ⟨_, eg, x, rfl, hx, x0, x1⟩ := guess_returns (norm := norm) (C := (Curve.mk p P U).lift.likeR bin64 dot nrm point) hpt
    (by change 1 ≤ (Curve.mk p P U).lift.ctrlpts.length; omega)
    (by change (Curve.mk p P U).lift.ctrlpts.length ≤ _; omega) (fun x hx x0 x1 => by
      obtain ⟨hex, hall⟩ := single_point_binary64 hU.toClamped (fun i a b => le_trans
        (one_div_le_one_div_of_le (by norm_num) (pow_le_pow_right₀ (by norm_num) (by norm_num))) (hgap i a b)) hU.zero hU.one hlast hp
        hp10 hP le_rfl x0 x1 hrep hx hC le_rfl
      obtain ⟨q, eq, hq⟩ := hpoint _ _ hex
      obtain ⟨q', rfl, l', -⟩ := hall q hq
      exact ⟨_, eq, by rw [List.length_map, l']⟩)
  unfold curveInversionA
  rw [eg, ok_bind]
  unfold curveInfoE
  rw [show ((Curve.mk p P U).lift.likeR bin64 dot nrm point).ders (fin x) = _ from
    curve_derivatives_value_error_binary64 hdot nrm hU hp10 hgap hlast hrep hP x0 x1 hx 2 false]
  rfl

private theorem knotFit_value_error {ls : ℕ → List (List (Ext ℚ)) → List (Ext ℚ) → Py (List (Ext ℚ))}
    {inv : Curve (Ext ℚ) → List (Ext ℚ) → Py (Ext ℚ)} {c : Curve (Ext ℚ)} (hinv : ∀ pt, pt.length = 3 → inv c pt = .error .valueError)
    {data : List (List (Ext ℚ))} (hd : data ≠ []) (h3 : ∀ pt ∈ data, pt.length = 3) {fuel : ℕ} (hf : 0 < fuel) (m : ℤ)
    (r : Py (Curve (Ext ℚ))) : KnotFitR bin64 ls inv data m fuel c r ↔ r = .error .valueError := by
  obtain ⟨x, xs, rfl⟩ := List.exists_cons_of_ne_nil hd
  obtain ⟨f, rfl⟩ := Nat.exists_eq_add_of_le' hf
  have hpar : parameterizeCurveWithE (inv c) (x :: xs) = .error .valueError := by
    unfold parameterizeCurveWithE mapPy
    rw [hinv x (h3 x (List.mem_cons_self ..))]
    rfl
  unfold KnotFitR
  rw [hpar]
  constructor
  · rintro (⟨e, he, rfl⟩ | ⟨_, _, h, -⟩)
    · cases he; rfl
    · cases h
  · rintro rfl
    exact Or.inl ⟨_, rfl, rfl⟩

/-- **C201.** `BoundaryProblem.fit` with the committed class in double precision has exactly one outcome, `ValueError`: for both
methods, all solvers, data that are not empty with three entries each, and end points of doubles of size at most `2^900`. -/
theorem committed_boundary_value_error_binary64 (hdot : ∀ a b, a.length = b.length → ∃ x, dot a b = .ok x)
    (hpoint : ∀ c u, (∃ q, Curve.PointR bin64 c u q) → ∃ q, point c u = .ok q ∧ Curve.PointR bin64 c u q)
    {ls : ℕ → List (List (Ext ℚ)) → List (Ext ℚ) → Py (List (Ext ℚ))} {adaptive : Bool} {s e : List ℚ} (hs : s.length = 3)
    (he : e.length = 3) (hsB : ∀ x ∈ s, bin64 x = fin x ∧ |x| ≤ 2 ^ 900) (heB : ∀ x ∈ e, bin64 x = fin x ∧ |x| ≤ 2 ^ 900) {p n : ℕ}
    (hp : 1 ≤ p) (hp10 : p ≤ 10) (hpn : p < n) (hn : n ≤ 2 ^ 20) {data : List (List (Ext ℚ))} (hd : data ≠ [])
    (h3 : ∀ pt ∈ data, pt.length = 3) {fuel : ℕ} (hf : 0 < fuel) (r : Py (Fitted (Ext ℚ))) :
    BoundaryFitR bin64 fuel ls (fun c pt => curveInversionA fuelI (ieeeArith bin64 norm) (c.likeR bin64 dot nrm point) pt eps1 eps2
      maxIter) adaptive (lift1 s) (lift1 e) p n data r ↔ r = .error .valueError := by
  have hpow : ∀ a b : ℕ, a ≤ b → (2 : ℚ) ^ a ≤ 2 ^ b := fun a b h => pow_le_pow_right₀ (by norm_num) h
  -- the first curve that is inverted has `p + 1` control points
  have hknot : ∀ {s e : List ℚ} {B : ℚ}, s.length = 3 → e.length = 3 → 1 / 2 ^ 1000 ≤ B → B ≤ 2 ^ 999 →
      (∀ x ∈ s, bin64 x = fin x ∧ |x| ≤ B) → (∀ x ∈ e, bin64 x = fin x ∧ |x| ≤ B) →
      ∃ c, initializeCurveR bin64 (lift1 s) (lift1 e) p (p + 1) = .ok c ∧ ∀ (m : ℤ) res, KnotFitR bin64 ls
        (fun c pt => curveInversionA fuelI (ieeeArith bin64 norm) (c.likeR bin64 dot nrm point) pt eps1 eps2 maxIter) data m fuel c
          res ↔ res = .error .valueError := by
    intro s e B hs he hB0 hB1 hsB heB
    obtain ⟨⟨p', P, U⟩, h1, hdeg, hsh, hU, hst, -⟩ := initializeCurveR_bin64 hs he (Nat.lt_succ_self p) (by omega) (by omega) hB0
      (hB1.trans (hpow _ _ (by norm_num))) hsB heB
    dsimp only at hdeg hsh hU
    subst hdeg
    refine ⟨_, h1, fun m res => knotFit_value_error (fun pt hpt => ?_) hd h3 hf m res⟩
    have hK := uniform_double_unit (Nat.lt_succ_self _) (by omega) hU
    refine curve_inversion_value_error_binary64 hdot hpoint hK hp hp10 (fun i hi hi' => ?_) (uniform_double_last (Nat.lt_succ_self _) (by omega) hU) hst.knots hsh
      (by omega) (fun c hc i hi => ?_) hpt
    · have e1 := hK.left i (by omega)
      have e2 := hK.right (i + 1) (by omega) (by omega)
      rw [hK.zero] at e1
      rw [hK.one] at e2
      rw [e1, e2]
      norm_num
    refine ((coord_of_forall_mem hsh hst.pts hc hi).2).trans ?_
    have : (2 : ℚ) ^ 1000 = 2 * 2 ^ 999 := by rw [← pow_succ']
    rw [this]
    linarith
  have hsmall : ∀ k : ℕ, (1 : ℚ) / 2 ^ 1000 ≤ 2 ^ k := fun k =>
    ((div_le_one (by positivity)).2 (one_le_pow₀ (by norm_num))).trans (one_le_pow₀ (by norm_num))
  cases adaptive with
  | true =>
    obtain ⟨c, h1, hk⟩ := hknot hs he (hsmall 900) (hpow _ _ (by norm_num)) hsB heB
    unfold BoundaryFitR
    simp only [if_true]
    rw [h1]
    dsimp only
    simp only [hk, exists_eq_left]
  | false =>
    obtain ⟨⟨p', P, U⟩, h1, hdeg, hsh, -, hst, -⟩ := initializeCurveR_bin64 hs he hpn (by omega) hn (hsmall 900)
      (hpow _ _ (by norm_num)) hsB heB
    dsimp only at hdeg hsh
    subst hdeg
    have hrow : ∀ i < n, (P.getD i []).length = 3 ∧ ∀ x ∈ P.getD i [], bin64 x = fin x ∧ |x| ≤ 2 ^ 901 := fun i hi => by
      have hmem : P.getD i [] ∈ P := by
        rw [List.getD_eq_getElem?_getD, List.getElem?_eq_getElem (by rw [hsh.1]; exact hi), Option.getD_some]
        exact List.getElem_mem _
      refine ⟨hsh.2 _ hmem, fun x hx => ?_⟩
      have := hst.pts _ hmem x hx
      exact ⟨this.1, this.2.trans_eq (pow_succ' 2 900).symm⟩
    obtain ⟨c, h2, hk⟩ := hknot (hrow 0 (by omega)).1 (hrow (n - 1) (by omega)).1 (hsmall 901) (hpow _ _ (by norm_num))
      (hrow 0 (by omega)).2 (hrow (n - 1) (by omega)).2
    have hl : (lift2 P : List (List (Ext ℚ))).length = n := (shape_lift2 hsh).1
    have g0 : pyGet (lift2 P : List (List (Ext ℚ))) 0 = .ok (lift1 (P.getD 0 [])) := by
      rw [pyGet_nat _ (0 : ℤ) 0 [] rfl (by omega)]
      simp [lift2, lift1, List.getD_eq_getElem?_getD, List.getElem?_map, List.getElem?_eq_getElem (show 0 < P.length by rw [hsh.1]; omega)]
    have g1 : pyGet (lift2 P : List (List (Ext ℚ))) (-1) = .ok (lift1 (P.getD (n - 1) [])) := by
      rw [pyGet_neg_one (n := n - 1) (by omega) []]
      simp [lift2, lift1, List.getD_eq_getElem?_getD, List.getElem?_map,
        List.getElem?_eq_getElem (show n - 1 < P.length by rw [hsh.1]; omega)]
    unfold BoundaryFitR
    simp only [Bool.false_eq_true, if_false]
    rw [h1]
    dsimp only
    have hfix : ∀ res, FitCurveFixedR bin64 fuel ls (fun c pt => curveInversionA fuelI (ieeeArith bin64 norm)
        (c.likeR bin64 dot nrm point) pt eps1 eps2 maxIter) (Curve.mk p' P U).lift data res ↔ res = .error .valueError := fun res => by
      unfold FitCurveFixedR
      rw [show (Curve.mk p' P U).lift.ctrlpts = lift2 P from rfl, g0, ok_bind, g1, ok_bind]
      rw [show (Curve.mk p' P U).lift.degree = p' from rfl, h2]
      dsimp only
      simp only [hk, exists_eq_left]
    simp only [hfix, exists_eq_left]

end

/-! ## Concrete cases -/

/-- C201: evaluations as in the hypothesis exist. -/
example : ∃ point : Curve (Ext ℚ) → Ext ℚ → Py (List (Ext ℚ)), ∀ c u, (∃ q, Curve.PointR bin64 c u q) →
    ∃ q, point c u = .ok q ∧ Curve.PointR bin64 c u q := by
  classical
  refine ⟨fun c u => if h : ∃ q, Curve.PointR bin64 c u q then .ok h.choose else .error .valueError, fun c u h => ⟨h.choose, ?_,
    h.choose_spec⟩⟩
  exact dif_pos h

/-- C201: a boundary from the origin to `(1, 0, 0)` with four control points, fitted to one point with a NaN. -/
example (ls : ℕ → List (List (Ext ℚ)) → List (Ext ℚ) → Py (List (Ext ℚ))) (adaptive : Bool)
    (point : Curve (Ext ℚ) → Ext ℚ → Py (List (Ext ℚ)))
    (hpoint : ∀ c u, (∃ q, Curve.PointR bin64 c u q) → ∃ q, point c u = .ok q ∧ Curve.PointR bin64 c u q) :
    BoundaryFitR bin64 1 ls (fun c pt => curveInversionA 102 (ieeeArith bin64 (sumNormR bin64))
      (c.likeR bin64 (ieeeArith bin64 (sumNormR bin64)).inner (sumNormR bin64) point) pt (fin (1 / 10 ^ 5)) (fin (1 / 10 ^ 5)) 100)
        adaptive (lift1 [0, 0, 0]) (lift1 [1, 0, 0]) 2 4 [[nan, 0, 0]] (.error .valueError) := by
  refine (committed_boundary_value_error_binary64 (fun a b h => ?_) hpoint rfl rfl ?_ ?_ (by norm_num) (by norm_num) (by norm_num)
    (by norm_num) (by simp) (by simp) one_pos _).2 rfl
  · exact ⟨_, if_pos h⟩
  · have : bin64 0 = fin 0 := by decide +kernel
    simp [this]
  · have : bin64 0 = fin 0 := by decide +kernel
    have h1 : bin64 1 = fin 1 := by decide +kernel
    simp only [List.mem_cons, List.not_mem_nil, or_false, forall_eq_or_imp, forall_eq, this, h1, abs_one, abs_zero, true_and, and_self]
    exact ⟨one_le_pow₀ (by norm_num), by positivity⟩

end PySpline
