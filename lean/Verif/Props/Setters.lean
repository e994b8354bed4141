import Verif.Props.Frame

/-!
# C151: what the setters of the problem objects do with values of other types

`boundary_set` and `interior_set` (C114) are about ints, arrays and strings of the documented kind.
Here are floats, NaN, infinities, `None`, lists, strings for numbers, arrays for numbers, and other
objects.
-/

namespace PySpline

section
variable {K : Type} [Field K] [LinearOrder K] [IsStrictOrderedRing K] [FloorRing K]

/-- A number that has no value as an `int`, or no comparison with `0`: `None`, strings, lists, other
objects. -/
inductive NoNumber : Val K → Prop
  | none : NoNumber .none
  | str (s : String) : NoNumber (.str s)
  | seq (r : Py (Arr K)) : NoNumber (.seq r)
  | other : NoNumber .other

/-- A float, or an array with one entry. -/
inductive FloatLike : Val K → K → Prop
  | float (x : K) : FloatLike (.float x) x
  | arr (shape : List ℕ) (x : K) : FloatLike (.arr ⟨shape, [x]⟩) x

omit [IsStrictOrderedRing K] in
private theorem trunc_bounds {x : K} (hx : 0 < x) : ((⌊x⌋ : ℤ) : K) ≤ x ∧ x < (⌊x⌋ : ℤ) + 1 ∧ 0 ≤ ⌊x⌋ :=
  ⟨Int.floor_le x, Int.lt_floor_add_one x, Int.floor_nonneg.2 hx.le⟩

omit [IsStrictOrderedRing K] in
private theorem toInt_floatLike {v : Val K} {x : K} (h : FloatLike v x) (f : Text → Py ℤ) :
    v.toInt f = .ok (pyTrunc x) := by
  cases h <;> rfl

omit [IsStrictOrderedRing K] [FloorRing K] in
private theorem leZero_floatLike {v : Val K} {x : K} (h : FloatLike v x) :
    v.leZero = .ok (decide (x ≤ 0)) := by
  cases h <;> rfl

omit [IsStrictOrderedRing K] in
private theorem many {a : Arr K} (h : 2 ≤ a.data.length) :
    (Val.arr a).leZero = .error .valueError ∧ ∀ f, (Val.arr a).toInt f = .error .typeError := by
  rcases a with ⟨s, _ | ⟨x, _ | ⟨y, l⟩⟩⟩
  · simp at h
  · simp at h
  · exact ⟨rfl, fun _ => rfl⟩

omit [IsStrictOrderedRing K] in
/-- **C151**, degrees.  `None`, strings, lists and other objects raise `TypeError`, NaN and minus
infinity `ValueError`, infinity `OverflowError`, an array with several entries `ValueError`; a float is
rejected if it is not positive and otherwise rounded down, so that one below `1` becomes degree `0`. -/
theorem degree_values (env : DataEnv K) (w : BWorld K) (i : IWorld K) :
    (∀ v, NoNumber v → BOp.run env (.degree v) w = (.error .typeError, w) ∧
      IOp.run env (.degree v) i = (.error .typeError, i)) ∧
    (BOp.run env (.degree .nan) w = (.error .valueError, w) ∧
      IOp.run env (.degree .nan) i = (.error .valueError, i)) ∧
    (BOp.run env (.degree (.inf true)) w = (.error .overflowError, w) ∧
      IOp.run env (.degree (.inf true)) i = (.error .overflowError, i)) ∧
    (BOp.run env (.degree (.inf false)) w = (.error .valueError, w) ∧
      IOp.run env (.degree (.inf false)) i = (.error .valueError, i)) ∧
    (∀ a : Arr K, 2 ≤ a.data.length → BOp.run env (.degree (.arr a)) w = (.error .valueError, w) ∧
      IOp.run env (.degree (.arr a)) i = (.error .valueError, i)) ∧
    ∀ v x, FloatLike v x →
      (x ≤ 0 → BOp.run env (.degree v) w = (.error .valueError, w) ∧
        IOp.run env (.degree v) i = (.error .valueError, i)) ∧
      (0 < x → ∃ z : ℤ, (z : K) ≤ x ∧ x < z + 1 ∧ 0 ≤ z ∧
        BOp.run env (.degree v) w = (.ok (), { w with self := { w.self with degree := some z } }) ∧
        IOp.run env (.degree v) i = (.ok (), { i with self := { i.self with degree := some z } })) := by
  refine ⟨?_, ⟨rfl, rfl⟩, ⟨rfl, rfl⟩, ⟨rfl, rfl⟩, ?_, ?_⟩
  · rintro v (_ | _ | _ | _) <;> exact ⟨rfl, rfl⟩
  · intro a ha
    have h := (many ha).1
    constructor
    · show BWorld.obj (Boundary.setDegree env (.arr a)) w = _
      unfold Boundary.setDegree
      rw [h]
      rfl
    · show IWorld.obj (Interior.setDegree env (.arr a)) i = _
      unfold Interior.setDegree
      rw [h]
      rfl
  · intro v x hv
    refine ⟨fun hx => ⟨?_, ?_⟩, fun hx => ⟨⌊x⌋, (trunc_bounds hx).1, (trunc_bounds hx).2.1, (trunc_bounds hx).2.2, ?_, ?_⟩⟩
    · show BWorld.obj (Boundary.setDegree env v) w = _
      unfold Boundary.setDegree
      rw [leZero_floatLike hv, decide_eq_true hx]
      rfl
    · show IWorld.obj (Interior.setDegree env v) i = _
      unfold Interior.setDegree
      rw [leZero_floatLike hv, decide_eq_true hx]
      rfl
    · show BWorld.obj (Boundary.setDegree env v) w = _
      unfold Boundary.setDegree
      rw [leZero_floatLike hv, decide_eq_false (not_le.2 hx), toInt_floatLike hv, pyTrunc, if_pos hx.le]
      rfl
    · show IWorld.obj (Interior.setDegree env v) i = _
      unfold Interior.setDegree
      rw [leZero_floatLike hv, decide_eq_false (not_le.2 hx), toInt_floatLike hv, pyTrunc, if_pos hx.le]
      rfl

private theorem trunc_le {x : K} {k : ℤ} (hk : 0 ≤ k) : k + 1 ≤ pyTrunc x ↔ ((k + 1 : ℤ) : K) ≤ x := by
  unfold pyTrunc
  split_ifs with h
  · exact Int.le_floor
  · have : 0 ≤ ⌊-x⌋ := Int.floor_nonneg.2 (by linarith [not_le.1 h])
    refine ⟨fun h' => by omega, fun h' => absurd h' (not_le.2 ?_)⟩
    have : (0 : K) ≤ ((k + 1 : ℤ) : K) := by exact_mod_cast (by omega : (0 : ℤ) ≤ k + 1)
    linarith [not_le.1 h]

omit [IsStrictOrderedRing K] in
private theorem trunc_pos {x : K} (h : 0 < x) : pyTrunc x = ⌊x⌋ := if_pos h.le

/-- **C151**, numbers of control points.  `None`, lists, other objects and arrays with several entries
raise `TypeError`, NaN `ValueError`, infinities `OverflowError`; a string counts as the int it denotes;
a float is rounded down and accepted from `4` (boundary) resp. `3` (interior) on. -/
theorem num_ctrlpts_values (env : DataEnv K) (w : BWorld K) (i : IWorld K) :
    (∀ v : Val K, v = .none ∨ (∃ r, v = .seq r) ∨ v = .other ∨ (∃ a, v = .arr a ∧ 2 ≤ a.data.length) →
      BOp.run env (.numCtrl v) w = (.error .typeError, w) ∧
      IOp.run env (.numCtrl v) i = (.error .typeError, i)) ∧
    (BOp.run env (.numCtrl .nan) w = (.error .valueError, w) ∧
      IOp.run env (.numCtrl .nan) i = (.error .valueError, i)) ∧
    (∀ s, BOp.run env (.numCtrl (.inf s)) w = (.error .overflowError, w) ∧
      IOp.run env (.numCtrl (.inf s)) i = (.error .overflowError, i)) ∧
    (∀ s z, env.fmt.parseInt s.toList = .ok z →
      BOp.run env (.numCtrl (.str s)) w = BOp.run env (.numCtrl (.int z)) w ∧
      IOp.run env (.numCtrl (.str s)) i = IOp.run env (.numCtrl (.int z)) i) ∧
    (∀ s e, env.fmt.parseInt s.toList = .error e →
      BOp.run env (.numCtrl (.str s)) w = (.error e, w) ∧
      IOp.run env (.numCtrl (.str s)) i = (.error e, i)) ∧
    ∀ v x, FloatLike v x →
      (x < 4 → BOp.run env (.numCtrl v) w = (.error .valueError, w)) ∧
      (4 ≤ x → ∃ z : ℤ, (z : K) ≤ x ∧ x < z + 1 ∧
        BOp.run env (.numCtrl v) w = (.ok (), { w with self := { w.self with numCtrl := some z } })) ∧
      (x < 3 → IOp.run env (.numCtrl v) i = (.error .valueError, i)) ∧
      (3 ≤ x → ∃ z : ℤ, (z : K) ≤ x ∧ x < z + 1 ∧
        IOp.run env (.numCtrl v) i = (.ok (), { i with self := { i.self with numCtrl := some z } })) := by
  have bad : ∀ (v : Val K) e, v.toInt env.fmt.parseInt = .error e →
      BOp.run env (.numCtrl v) w = (.error e, w) ∧ IOp.run env (.numCtrl v) i = (.error e, i) := by
    intro v e h
    constructor
    · show BWorld.obj (Boundary.setNumCtrl env v) w = _
      unfold Boundary.setNumCtrl
      rw [h]
      rfl
    · show IWorld.obj (Interior.setNumCtrl env v) i = _
      unfold Interior.setNumCtrl
      rw [h]
      rfl
  refine ⟨?_, bad _ _ rfl, fun s => bad _ _ rfl, fun s z h => ?_, fun s e h => bad _ _ h, fun v x hv => ?_⟩
  · rintro v (rfl | ⟨r, rfl⟩ | rfl | ⟨a, rfl, ha⟩)
    · exact bad _ _ rfl
    · exact bad _ _ rfl
    · exact bad _ _ rfl
    · exact bad _ _ ((many ha).2 _)
  · constructor
    · show BWorld.obj (Boundary.setNumCtrl env (.str s)) w = BWorld.obj (Boundary.setNumCtrl env (.int z)) w
      unfold Boundary.setNumCtrl
      rw [show (Val.str s : Val K).toInt env.fmt.parseInt = (Val.int z : Val K).toInt env.fmt.parseInt from h]
    · show IWorld.obj (Interior.setNumCtrl env (.str s)) i = IWorld.obj (Interior.setNumCtrl env (.int z)) i
      unfold Interior.setNumCtrl
      rw [show (Val.str s : Val K).toInt env.fmt.parseInt = (Val.int z : Val K).toInt env.fmt.parseInt from h]
  · have h3 : (4 : ℤ) ≤ pyTrunc x ↔ (4 : K) ≤ x := by
      have := trunc_le (x := x) (k := 3) (by omega)
      push_cast at this
      exact this
    have h2 : (3 : ℤ) ≤ pyTrunc x ↔ (3 : K) ≤ x := by
      have := trunc_le (x := x) (k := 2) (by omega)
      push_cast at this
      exact this
    have hB : BOp.run env (.numCtrl v) w = BOp.run env (.numCtrl (.int (pyTrunc x))) w := by
      show BWorld.obj (Boundary.setNumCtrl env v) w = BWorld.obj (Boundary.setNumCtrl env (.int _)) w
      unfold Boundary.setNumCtrl
      rw [toInt_floatLike hv]
      rfl
    have hI : IOp.run env (.numCtrl v) i = IOp.run env (.numCtrl (.int (pyTrunc x))) i := by
      show IWorld.obj (Interior.setNumCtrl env v) i = IWorld.obj (Interior.setNumCtrl env (.int _)) i
      unfold Interior.setNumCtrl
      rw [toInt_floatLike hv]
      rfl
    rw [hB, hI, (boundary_set env w).2.1, (interior_set env i).2.1]
    refine ⟨fun h => if_neg (by rw [h3]; exact not_le.2 h), fun h => ⟨⌊x⌋, Int.floor_le x, Int.lt_floor_add_one x, ?_⟩,
      fun h => if_neg (by rw [h2]; exact not_le.2 h), fun h => ⟨⌊x⌋, Int.floor_le x, Int.lt_floor_add_one x, ?_⟩⟩
    · rw [if_pos (h3.2 h), trunc_pos (by linarith)]
    · rw [if_pos (h2.2 h), trunc_pos (by linarith)]

omit [IsStrictOrderedRing K] in
/-- **C151**, the other setters: a fit method that is no string is a `TypeError`; a number, `None`, a
string or another object as data, start or end is an array without axes, a `ValueError`; a boundary is a
`TypeError`, except an object of the class `Boundary`, which has no attribute `fit_curve`, an
`AttributeError`. -/
theorem other_values (env : DataEnv K) (w : BWorld K) (i : IWorld K) :
    (∀ v : Val K, (∀ s, v ≠ .str s) → BOp.run env (.fitMethod v) w = (.error .typeError, w)) ∧
    (∀ v : Val K, (∀ a, v ≠ .arr a) → (∀ r, v ≠ .seq r) →
      BOp.run env (.data v) w = (.error .valueError, w) ∧ BOp.run env (.start v) w = (.error .valueError, w) ∧
      BOp.run env (.fin v) w = (.error .valueError, w) ∧ IOp.run env (.data v) i = (.error .valueError, i)) ∧
    (∀ e, BOp.run env (.data (.seq (.error e))) w = (.error e, w) ∧
      BOp.run env (.start (.seq (.error e))) w = (.error e, w) ∧
      BOp.run env (.fin (.seq (.error e))) w = (.error e, w) ∧
      IOp.run env (.data (.seq (.error e))) i = (.error e, i)) ∧
    (∀ a, BOp.run env (.data (.seq (.ok a))) w = BOp.run env (.data (.arr a)) w ∧
      BOp.run env (.start (.seq (.ok a))) w = BOp.run env (.start (.arr a)) w ∧
      BOp.run env (.fin (.seq (.ok a))) w = BOp.run env (.fin (.arr a)) w ∧
      IOp.run env (.data (.seq (.ok a))) i = IOp.run env (.data (.arr a)) i) ∧
    (∀ b : BoundaryObj K, IOp.run env (.top (.boundary b)) i = (.error .attributeError, i) ∧
      IOp.run env (.bottom (.boundary b)) i = (.error .attributeError, i)) ∧
    ∀ a : BoundaryArg K, (∀ b, a ≠ .boundary b) → IOp.run env (.top a) i = (.error .typeError, i) ∧
      IOp.run env (.bottom a) i = (.error .typeError, i) := by
  refine ⟨?_, ?_, fun e => ⟨rfl, rfl, rfl, rfl⟩, fun a => ⟨rfl, rfl, rfl, rfl⟩, fun b => ⟨rfl, rfl⟩, ?_⟩
  · intro v h
    cases v with
    | str s => exact absurd rfl (h s)
    | _ => rfl
  · intro v h h'
    cases v with
    | arr a => exact absurd rfl (h a)
    | seq r => exact absurd rfl (h' r)
    | _ => exact ⟨rfl, rfl, rfl, rfl⟩
  · intro a h
    cases a with
    | boundary b => exact absurd rfl (h b)
    | _ => exact ⟨rfl, rfl⟩

end

/-- Non-vacuity: five and a half control points are five; a degree of one half is degree zero. -/
example :
    (Boundary.setNumCtrl exDataEnv (.float (11/2)) Boundary.new).2.numCtrl = some 5 ∧
    (Boundary.setDegree exDataEnv (.float (1/2)) Boundary.new).2.degree = some 0 ∧
    (Boundary.setDegree exDataEnv .none Boundary.new).1 = .error .typeError ∧
    (Interior.setNumCtrl exDataEnv (.inf false) Interior.new).1 = .error .overflowError := by
  decide +kernel

end PySpline
