import Verif.Lemmas.GeometryAux
import Verif.Model.Geometry
import Verif.Props.Curve

/-!
# Properties of the curve objects: C67, C70, C71, C72, C74, C75
-/

set_option linter.unusedSectionVars false

namespace PySpline

open Spec

section
variable {K : Type} [Field K] [LinearOrder K] [IsStrictOrderedRing K]

/-- The call does not return: it raises, or (error `diverged`) it has not ended within the fuel. -/
def Raises {α : Type} (x : Py α) : Prop := ∃ e, x = .error e

theorem Raises.of_bind {α β : Type} {x : Py α} {f : α → Py β} (h : ∀ a, Raises (f a)) :
    Raises (x >>= f) := by
  cases x with
  | error e => exact ⟨e, rfl⟩
  | ok a => exact h a

theorem Raises.bind_left {α β : Type} {x : Py α} {f : α → Py β} (h : Raises x) :
    Raises (x >>= f) := by
  obtain ⟨e, rfl⟩ := h
  exact ⟨e, rfl⟩

/-! ## C71 -/

/-- C71: `BSplineCurve.derivatives` never returns: it raises for every curve, parameter, order
and value of `normalize`. -/
theorem curve_derivatives_raises (norm : List K → K) (c : Curve K) (u : K) (order : ℤ)
    (normalize : Bool) : Raises (c.derivatives norm u order normalize) := by
  unfold Curve.derivatives
  split
  · exact ⟨_, rfl⟩
  split
  · exact ⟨_, rfl⟩
  refine Raises.of_bind fun span => Raises.of_bind fun ders => ?_
  dsimp only
  rw [forN_succ_left (by omega)]
  refine Raises.bind_left ?_
  refine Raises.of_bind fun d1 => Raises.of_bind fun col1 => Raises.of_bind fun y =>
    Raises.of_bind fun col2 => Raises.of_bind fun z => ?_
  rw [show normalizeRow norm normalize ((0 : ℕ) == 0) [y, z] = .ok [y, z] by simp [normalizeRow],
    ok_bind, assignRow_two]
  exact ⟨_, rfl⟩

/-- C71: on a clamped curve in three dimensions the exception is the `ValueError` of the row
assignment, at every regular parameter and for every order. -/
theorem curve_derivatives_value_error (norm : List K → K) {p n : ℕ} {U : List K}
    {P : List (List K)} {u : K} (hU : Clamped p n U) (hP : Shape P n 3)
    (hr : Regular p n U u) (order : ℤ) (normalize : Bool) :
    Curve.derivatives norm ⟨p, P, U⟩ u order normalize = .error .valueError := by
  have hlen := hU.len
  have hPl := hP.1
  obtain ⟨m, hm, hpm, hmn, hb1, hb2, hs⟩ := findSpan_regular hU.toKnotVector hr
  unfold Curve.derivatives
  split
  · rfl
  split
  · rfl
  dsimp only
  rw [hPl, hm, ok_bind, basis_function_ders_derivatives hU.mono u hpm (by omega) hs, ok_bind,
    pySlice_nat P _ _ (m - p) (p + 1) [] (by omega) (by omega) (by omega), forN_succ_left (by omega)]
  have hc : ∀ c < 3, ∀ r < p + 1, c < (P.getD (m - p + r) []).length := fun c hc r hr => by
    rw [hP.row (by omega)]; omega
  have hcol : column ((List.range (p + 1)).map fun r => (List.range (min order.toNat p + 1)).map
      fun k => (deriv k (piece (knotFn U) m p (m - p + r))).eval u) ((0 : ℕ) : ℤ)
      = .ok ((List.range (p + 1)).map fun r => (deriv 0 (piece (knotFn U) m p (m - p + r))).eval u) := by
    unfold column
    rw [mapPy_eq_ok _ (fun row => row.getD 0 0), List.map_map]
    · congr 1
      refine List.map_congr_left fun r _ => ?_
      simp [List.getD_eq_getElem?_getD]
    · intro row hrow
      obtain ⟨r, -, rfl⟩ := List.mem_map.1 hrow
      exact pyGet_nat _ _ 0 0 rfl (by simp)
  rw [hcol, ok_bind, column_rows P _ _ 1 1 rfl (hc 1 (by omega)), ok_bind, dot_map_range, ok_bind,
    column_rows P _ _ 2 2 rfl (hc 2 (by omega)), ok_bind, dot_map_range, ok_bind]
  rw [show ∀ y z : K, normalizeRow norm normalize ((0 : ℕ) == 0) [y, z] = .ok [y, z] by
    simp [normalizeRow], ok_bind, assignRow_two]
  rfl

example : Curve.derivatives (K := ℚ) (fun _ => 1) ⟨2, exP, exU⟩ (3/8) 2 false
    = .error .valueError := by decide +kernel

/-! ## C70 -/

/-- C70: `insert_knot` raises `UnboundLocalError` for every object and argument. -/
theorem insert_knot_raises (c : ClassState K) (o : Obj K) (arg : K) :
    o.insertKnot c arg = .error .unboundLocalError := by
  rfl

/-! ## C72 -/

/-- The last entry of a non-empty shape. -/
def lastDim (a : Arr K) (d : ℕ) : Prop := ∃ pre, a.shape = pre ++ [d]

/-- What holds after every history (`D` is the dimension declared at construction). -/
structure ObjInv (D : ℤ) (o : Obj K) : Prop where
  dim : o.dimension = D
  noU : o.kvU = none
  noV : o.kvV = none
  ctrl : ∀ a, o.ctrl = some a → ∃ d, lastDim a d ∧ (d : ℤ) ≠ D
  deg : ∀ d, o.degree = some d → 1 ≤ d
  kv : ∀ k, o.kv = some k → ∃ p n : ℕ, 1 ≤ p ∧ checkKnotVector p k n = .ok true

theorem knot_vector_u_raises (o : Obj K) (k : List K) : Raises (o.setKvU k) := by
  unfold Obj.setKvU
  split
  · exact ⟨_, rfl⟩
  split
  · exact ⟨_, rfl⟩
  exact Raises.of_bind fun _ => ⟨_, rfl⟩

theorem knot_vector_v_raises (o : Obj K) (k : List K) : Raises (o.setKvV k) := by
  unfold Obj.setKvV
  split
  · exact ⟨_, rfl⟩
  split
  · exact ⟨_, rfl⟩
  exact Raises.of_bind fun _ => ⟨_, rfl⟩

theorem call_keeps_inv {D : ℤ} {o o' : Obj K} (h : ObjInv D o) (op : Op K)
    (ho : o.call .fresh op = .ok o') : ObjInv D o' := by
  cases op with
  | degree d =>
    simp only [Obj.call, Obj.setDegree] at ho
    split at ho <;> cases ho
    exact { h with deg := by intro d' hd'; cases hd'; omega }
  | degreeU d =>
    simp only [Obj.call, Obj.setDegreeU] at ho
    split at ho <;> cases ho
    exact { h with }
  | degreeV d =>
    simp only [Obj.call, Obj.setDegreeV] at ho
    split at ho <;> cases ho
    exact { h with }
  | numU d =>
    simp only [Obj.call, Obj.setNumU] at ho
    split at ho
    · cases ho
    split at ho <;> cases ho
    exact { h with }
  | numV d =>
    simp only [Obj.call, Obj.setNumV] at ho
    split at ho
    · cases ho
    split at ho <;> cases ho
    exact { h with }
  | ctrl x =>
    simp only [Obj.call, Obj.setCtrl, ClassState.fresh, Obj.propSetCtrl] at ho
    split at ho
    · cases ho
    split at ho
    · cases ho
    cases x with
    | noShape => cases ho
    | arr a =>
      dsimp only at ho
      cases hl : pyGet a.shape (-1) with
      | error e => rw [hl] at ho; cases ho
      | ok last =>
        rw [hl, ok_bind] at ho
        split at ho
        · cases ho
        · rename_i hne
          cases ho
          refine { h with ctrl := ?_ }
          intro b hb
          cases hb
          exact ⟨last, pyGet_last_inv hl, by rw [← h.dim]; exact not_not.1 hne⟩
  | kv k =>
    simp only [Obj.call, Obj.assignKv, ClassState.fresh, Obj.setKv] at ho
    split at ho
    · cases ho
    rename_i d hd
    split at ho
    · cases ho
    rename_i a ha
    unfold Obj.checkKv Obj.getDegree at ho
    rw [hd, ha] at ho
    dsimp only at ho
    rw [ok_bind] at ho
    cases hc : checkKnotVector d.toNat k (a.shape.headD 0) with
    | error e => rw [hc] at ho; cases ho
    | ok b =>
      rw [hc, ok_bind] at ho
      cases b with
      | false => cases ho; exact h
      | true =>
        cases ho
        refine ⟨h.dim, h.noU, h.noV, fun b hb => h.ctrl b (ha.trans hb), ?_, ?_⟩
        · intro d' hd'
          exact h.deg d' (hd.trans hd')
        · intro k' hk'
          cases hk'
          exact ⟨d.toNat, a.shape.headD 0, by have := h.deg d hd; omega, hc⟩
  | kvU k =>
    obtain ⟨e, he⟩ := knot_vector_u_raises o k
    simp only [Obj.call, he] at ho
    cases ho
  | kvV k =>
    obtain ⟨e, he⟩ := knot_vector_v_raises o k
    simp only [Obj.call, he] at ho
    cases ho
  | insertKnot u => simp only [Obj.call, insert_knot_raises] at ho; cases ho

/-- C72: after every history of calls (failed ones caught) on a new object, `knot_vector_u` and
`knot_vector_v` are still `None`, the stored control points never have the declared dimension,
the degree is unset or positive, and every stored knot vector passed the check once. -/
theorem history_invariant (k : Kwargs) (ops : List (Op K)) :
    ObjInv (k.dimension.getD 0) ((Obj.init k : Obj K).run .fresh ops) := by
  suffices H : ∀ (ops : List (Op K)) (o : Obj K), ObjInv (k.dimension.getD 0) o →
      ObjInv (k.dimension.getD 0) (o.run .fresh ops) from
    H ops _ ⟨rfl, rfl, rfl, by simp [Obj.init], by simp [Obj.init], by simp [Obj.init]⟩
  intro ops
  induction ops with
  | nil => exact fun o h => h
  | cons op ops ih =>
    intro o h
    refine ih (o.tryCall .fresh op) ?_
    unfold Obj.tryCall
    cases ho : o.call .fresh op with
    | ok o' => exact call_keeps_inv h op ho
    | error e => exact h

/-- C72: in every reachable state, assigning control points whose last dimension is the declared
dimension raises `ValueError`. -/
theorem right_dimension_rejected (k : Kwargs) (ops : List (Op K)) (a : Arr K) (d : ℕ)
    (ha : lastDim a d) (hd : (d : ℤ) = k.dimension.getD 0) :
    ((Obj.init k : Obj K).run .fresh ops).setCtrl .fresh (.arr a) = .error .valueError := by
  have hdim := (history_invariant k ops).dim
  generalize (Obj.init k : Obj K).run .fresh ops = o at hdim ⊢
  obtain ⟨pre, hpre⟩ := ha
  simp only [Obj.setCtrl, ClassState.fresh, Obj.propSetCtrl]
  split
  · rfl
  split
  · rfl
  rw [hpre, pyGet_last, ok_bind, if_pos]
  rw [not_not, hd]
  exact hdim.symm

/-- C72: with both degrees set, control points of any other last dimension are accepted. -/
theorem wrong_dimension_accepted (o : Obj K) (a : Arr K) (d : ℕ) (ha : lastDim a d)
    (hu : o.degreeU ≠ none) (hv : o.degreeV ≠ none) (hd : (d : ℤ) ≠ o.dimension) :
    o.setCtrl .fresh (.arr a) = .ok { o with ctrl := some a } := by
  obtain ⟨pre, hpre⟩ := ha
  obtain ⟨x, hx⟩ := Option.ne_none_iff_exists'.1 hu
  obtain ⟨y, hy⟩ := Option.ne_none_iff_exists'.1 hv
  simp only [Obj.setCtrl, ClassState.fresh, Obj.propSetCtrl]
  rw [hx, hy]
  simp only
  rw [hpre, pyGet_last, ok_bind, if_neg (not_not.2 hd)]

example : ((Obj.init { dimension := some 3 } : Obj ℚ).run .fresh
      [.degreeU 1, .degreeV 1, .ctrl (.arr ⟨[2, 2], [1, 2, 3, 4]⟩)]).ctrl
    = some ⟨[2, 2], [1, 2, 3, 4]⟩ := by decide +kernel

example : ((Obj.init { dimension := some 3 } : Obj ℚ).run .fresh
      [.degreeU 1, .degreeV 1, .ctrl (.arr ⟨[2, 3], [1, 2, 3, 4, 5, 6]⟩)]).ctrl
    = none := by decide +kernel

/-! ## C74: the degree keyword, and knots that no longer fit -/

/-- C74: the `degree` given to the constructor is not stored; reading it raises
`AttributeError`. -/
theorem degree_keyword_ignored (k : Kwargs) :
    (Obj.init k : Obj K).getDegree = .error .attributeError := rfl

/-- C74 (negative): the knots stored in an object need not fit its degree and control points:
the degree can be changed after the knots have been checked. -/
theorem stale_knots : ∃ ops : List (Op ℚ),
    let o := (Obj.init {} : Obj ℚ).run .fresh ops
    o.kv = some [0, 0, 1, 1] ∧ o.degree = some 2 ∧
      o.checkKv [0, 0, 1, 1] = .ok false :=
  ⟨[.degree 1, .degreeU 1, .degreeV 1, .ctrl (.arr ⟨[2, 3], [0, 0, 0, 1, 1, 1]⟩),
    .kv [0, 0, 1, 1], .degree 2], by decide +kernel⟩

/-! ## C67 -/

/-- C67: `from_dict` raises `ValueError` exactly when the key set is not
`{degree, knot_vector, control_points}`; so also when there are keys in excess. -/
theorem from_dict_value_error_iff (c : ClassState K) (d : List (String × Arr K)) :
    fromDict c d = .error .valueError ↔
      {s | s ∈ d.map Prod.fst} ≠ ({"degree", "knot_vector", "control_points"} : Set String) := by
  unfold fromDict
  dsimp only
  split
  · rename_i hm
    refine ⟨fun _ heq => hm ?_, fun _ => rfl⟩
    have hmem : ∀ s, s ∈ d.map Prod.fst ↔ s ∈ ["degree", "knot_vector", "control_points"] := by
      intro s
      have := Set.ext_iff.1 heq s
      simpa using this
    rw [List.append_eq_nil_iff, List.filter_eq_nil_iff, List.filter_eq_nil_iff]
    exact ⟨fun s hs => by simpa using (hmem s).2 hs, fun s hs => by simpa only [decide_eq_true_eq, not_not] using (hmem s).1 hs⟩
  · rename_i hm
    rw [not_not, List.append_eq_nil_iff, List.filter_eq_nil_iff, List.filter_eq_nil_iff] at hm
    have hmem : ∀ s, s ∈ d.map Prod.fst ↔ s ∈ ["degree", "knot_vector", "control_points"] :=
      fun s => ⟨fun hs => by simpa only [decide_eq_true_eq, not_not] using hm.2 s hs, fun hs => by
        have := hm.1 s hs
        simp only [decide_eq_true_eq, not_not] at this
        exact this⟩
    obtain ⟨v1, h1⟩ := lookup_isSome_of_mem d "degree" ((hmem _).2 (by simp))
    obtain ⟨v2, h2⟩ := lookup_isSome_of_mem d "knot_vector" ((hmem _).2 (by simp))
    obtain ⟨v3, h3⟩ := lookup_isSome_of_mem d "control_points" ((hmem _).2 (by simp))
    rw [h1, h2, h3]
    simp only [ok_bind]
    refine ⟨fun h => ?_, fun h => absurd ?_ h⟩
    · exfalso
      cases hs : pyGet v3.shape (-1) with
      | ok a => rw [hs] at h; cases h
      | error e =>
        rw [hs] at h
        unfold pyGet pyIdx at hs
        simp only [error_bind, Except.error.injEq] at h
        subst h
        split at hs
        · simp only [ok_bind] at hs
          split at hs <;> cases hs
        · split at hs
          · simp only [ok_bind] at hs
            split at hs <;> cases hs
          · cases hs
    · ext s
      have := hmem s
      simpa using this

/-- C75: a successful `from_dict` changes the *class*: afterwards `control_points` and `knot_vector`
of every object on which the names have not been assigned since read as the arrays of the
dictionary, whatever the object stores. -/
theorem from_dict_overwrites_class (c c' : ClassState K) (d : List (String × Arr K))
    (h : fromDict c d = .ok c') (o : Obj K) (ho : o.instCtrl = none) :
    (∃ a, d.lookup "control_points" = some a ∧ o.getCtrl c' = some (.arr a)) ∧
    (o.instKv = none → ∃ k, d.lookup "knot_vector" = some k ∧ o.getKv c' = .ok k) := by
  obtain ⟨a, k, ha, hk, rfl⟩ := from_dict_class c c' d h
  refine ⟨⟨a, ha, by simp [Obj.getCtrl, ho]⟩, fun hi => ⟨k, hk, ?_⟩⟩
  simp [Obj.getKv, hi]

/-- C75: after that the object's own control points and knots can no longer be set: every
assignment succeeds, it changes only what the name reads as, neither validates nor reaches
`_control_points` and `_knot_vector`, which evaluation reads. -/
theorem set_ctrl_after_from_dict (c c' : ClassState K) (d : List (String × Arr K))
    (h : fromDict c d = .ok c') (o : Obj K) (x : CtrlArg K) (k : List K) :
    (∃ o', o.setCtrl c' x = .ok o' ∧ o'.ctrl = o.ctrl ∧ o'.kv = o.kv ∧ o'.getCtrl c' = some x) ∧
    ∃ o', o.assignKv c' k = .ok o' ∧ o'.ctrl = o.ctrl ∧ o'.kv = o.kv ∧
      o'.getKv c' = .ok ⟨[k.length], k⟩ := by
  obtain ⟨a, b, -, -, rfl⟩ := from_dict_class c c' d h
  exact ⟨⟨_, rfl, rfl, rfl, rfl⟩, _, rfl, rfl, rfl, rfl⟩

def exDict : List (String × Arr ℚ) :=
  [("degree", ⟨[], [1]⟩), ("control_points", ⟨[2, 3], [0, 0, 0, 1, 1, 1]⟩),
   ("knot_vector", ⟨[4], [0, 0, 1, 1]⟩)]

example : fromDict .fresh exDict
    = .ok ⟨some ⟨[2, 3], [0, 0, 0, 1, 1, 1]⟩, some ⟨[4], [0, 0, 1, 1]⟩⟩ := by decide +kernel
example : fromDict .fresh (("name", ⟨[], []⟩) :: exDict) = .error .valueError := by decide +kernel
/-- Reading and assigning after `from_dict`: a knot vector that no curve can have is taken. -/
example : ∃ c', fromDict .fresh exDict = .ok c' ∧
    (Obj.init {} : Obj ℚ).getKv c' = .ok ⟨[4], [0, 0, 1, 1]⟩ ∧
    ∃ o', (Obj.init {} : Obj ℚ).call c' (.kv [3, 1]) = .ok o' ∧ o'.kv = none ∧
      o'.getKv c' = .ok ⟨[2], [3, 1]⟩ :=
  ⟨⟨some ⟨[2, 3], [0, 0, 0, 1, 1, 1]⟩, some ⟨[4], [0, 0, 1, 1]⟩⟩, by decide +kernel, by decide +kernel,
    _, rfl, by decide +kernel, by decide +kernel⟩
example : fromDict .fresh exDict.tail = .error .valueError := by decide +kernel

end

end PySpline
