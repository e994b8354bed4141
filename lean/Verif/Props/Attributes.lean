import Verif.Lemmas.AttributesAux
import Verif.Props.Geometry

/-!
# C92: sizes and stored values in histories of a spline object
-/

set_option linter.unusedSectionVars false

namespace PySpline

open Spec

section
variable {K : Type} [Field K] [LinearOrder K] [IsStrictOrderedRing K]

/-- **C92.** In every history of an object whose constructor was given no degree below 1, both degrees
are at least 1 and the numbers of control points at least 2. -/
theorem sizes_at_least_two (k : Kwargs) (hu : ∀ d, k.degreeU = some d → 1 ≤ d)
    (hv : ∀ d, k.degreeV = some d → 1 ≤ d) (ops : List (Op K)) :
    (∀ d, ((Obj.init k : Obj K).run .fresh ops).degreeU = some d → 1 ≤ d) ∧
    (∀ d, ((Obj.init k : Obj K).run .fresh ops).degreeV = some d → 1 ≤ d) ∧
    (∀ n, ((Obj.init k : Obj K).run .fresh ops).numU = some n → 2 ≤ n) ∧
    (∀ n, ((Obj.init k : Obj K).run .fresh ops).numV = some n → 2 ≤ n) := by
  refine run_keeps (I := fun o => (∀ d, o.degreeU = some d → 1 ≤ d) ∧
    (∀ d, o.degreeV = some d → 1 ≤ d) ∧ (∀ n, o.numU = some n → 2 ≤ n) ∧
    (∀ n, o.numV = some n → 2 ≤ n)) (P := fun _ => True) ?_ ops (fun _ _ => trivial) _
    ⟨hu, hv, by simp [Obj.init], by simp [Obj.init]⟩
  rintro o o' op - ⟨i1, i2, i3, i4⟩ hc
  obtain ⟨e1, e2, e3, e4, -⟩ := call_effect hc
  refine ⟨fun d hd => ?_, fun d hd => ?_, fun n hn => ?_, fun n hn => ?_⟩
  · rcases e1 with e | ⟨d', -, h1, e⟩
    · exact i1 d (e ▸ hd)
    · rw [e] at hd; cases hd; exact h1
  · rcases e2 with e | ⟨d', -, h1, e⟩
    · exact i2 d (e ▸ hd)
    · rw [e] at hd; cases hd; exact h1
  · rcases e3 with e | ⟨n', d, -, hd, h1, e⟩
    · exact i3 n (e ▸ hn)
    · rw [e] at hn; cases hn; have := i1 d hd; omega
  · rcases e4 with e | ⟨n', d, -, hd, h1, e⟩
    · exact i4 n (e ▸ hn)
    · rw [e] at hn; cases hn; have := i2 d hd; omega

/-- **C92.** A number of control points accepted after the last assignment to the degree of its
direction exceeds that degree. -/
theorem sizes_exceed_degree (o : Obj K) (ops : List (Op K)) :
    (o.numU = none → (∀ d, Op.degreeU d ∉ ops) → ∀ n, (o.run .fresh ops).numU = some n →
      ∃ d, (o.run .fresh ops).degreeU = some d ∧ d < n) ∧
    (o.numV = none → (∀ d, Op.degreeV d ∉ ops) → ∀ n, (o.run .fresh ops).numV = some n →
      ∃ d, (o.run .fresh ops).degreeV = some d ∧ d < n) := by
  refine ⟨fun h0 hno => ?_, fun h0 hno => ?_⟩
  · refine run_keeps (I := fun o => ∀ n, o.numU = some n → ∃ d, o.degreeU = some d ∧ d < n)
      (P := fun op => ∀ d, op ≠ .degreeU d) ?_ ops (fun op hop d e => hno d (e ▸ hop)) o
      (fun n hn => by rw [h0] at hn; cases hn)
    intro o o' op hP i hc n hn
    obtain ⟨e1, -, e3, -⟩ := call_effect hc
    have e1 : o'.degreeU = o.degreeU := e1.resolve_right fun ⟨d, e, _⟩ => hP d e
    rw [e1]
    rcases e3 with e | ⟨n', d, -, hd, h1, e⟩
    · exact i n (e ▸ hn)
    · rw [e] at hn; cases hn; exact ⟨d, hd, h1⟩
  · refine run_keeps (I := fun o => ∀ n, o.numV = some n → ∃ d, o.degreeV = some d ∧ d < n)
      (P := fun op => ∀ d, op ≠ .degreeV d) ?_ ops (fun op hop d e => hno d (e ▸ hop)) o
      (fun n hn => by rw [h0] at hn; cases hn)
    intro o o' op hP i hc n hn
    obtain ⟨-, e1, -, e3, -⟩ := call_effect hc
    have e1 : o'.degreeV = o.degreeV := e1.resolve_right fun ⟨d, e, _⟩ => hP d e
    rw [e1]
    rcases e3 with e | ⟨n', d, -, hd, h1, e⟩
    · exact i n (e ▸ hn)
    · rw [e] at hn; cases hn; exact ⟨d, hd, h1⟩

/-- **C92.** The control points read from an object of the class as defined are those of the last
accepted assignment, whatever other calls are made afterwards. -/
theorem control_points_read_back (o o' : Obj K) (a : Arr K)
    (h : o.call .fresh (.ctrl (.arr a)) = .ok o') (ops : List (Op K))
    (hops : ∀ x, Op.ctrl x ∉ ops) : (o'.run .fresh ops).getCtrl .fresh = some (.arr a) := by
  refine run_keeps (I := fun o => o.getCtrl .fresh = some (.arr a)) (P := fun op => ∀ x, op ≠ .ctrl x) ?_ ops
    (fun op hop x e => hops x (e ▸ hop)) o' ?_
  · intro o o' op hP i hc
    obtain ⟨-, -, -, -, e⟩ := call_effect hc
    have e : o'.ctrl = o.ctrl := e.resolve_right fun ⟨a, e, _⟩ => hP _ e
    simpa [Obj.getCtrl, ClassState.fresh, e] using i
  · simp only [Obj.call] at h
    obtain ⟨b, hb, rfl⟩ := setCtrl_fresh h
    cases hb
    rfl

/-- **C92.** All other values can be set: for degrees at least 1, sizes above them and an array whose
last dimension is not the declared one, the five assignments are accepted and read back. -/
theorem attributes_settable (k : Kwargs) (du dv nu nv : ℤ) (hu : 1 ≤ du) (hv : 1 ≤ dv) (hnu : du < nu)
    (hnv : dv < nv) (s : List ℕ) (m : ℕ) (data : List K) (hm : (m : ℤ) ≠ k.dimension.getD 0) :
    let o := (Obj.init k : Obj K).run .fresh
      [.degreeU du, .degreeV dv, .numU nu, .numV nv, .ctrl (.arr ⟨s ++ [m], data⟩)]
    o.degreeU = some du ∧ o.degreeV = some dv ∧ o.numU = some nu ∧ o.numV = some nv ∧
      o.getCtrl .fresh = some (.arr ⟨s ++ [m], data⟩) := by
  have e : pyGet (s ++ [m]) (-1) = .ok m := by
    rw [pyGet_neg _ _ s.length 0 (by simp) (by simp)]
    simp
  simp [Obj.run, Obj.tryCall, Obj.call, Obj.init, Obj.setDegreeU, Obj.setDegreeV, Obj.setNumU,
    Obj.setNumV, Obj.setCtrl, ClassState.fresh, Obj.propSetCtrl, Obj.getCtrl, e, ok_bind, hm,
    not_lt.2 hu, not_lt.2 hv, not_lt.2 (Int.add_one_le_of_lt hnu), not_lt.2 (Int.add_one_le_of_lt hnv)]

/-- **C92.** A size can fall to the degree or below it: the degree is not checked against the size. -/
theorem size_below_degree : ∃ ops : List (Op ℚ),
    ((Obj.init {} : Obj ℚ).run .fresh ops).numU = some 2 ∧
    ((Obj.init {} : Obj ℚ).run .fresh ops).degreeU = some 5 :=
  ⟨[.degreeU 1, .numU 2, .degreeU 5], by decide +kernel⟩

/-- **C92.** The degree keywords of the constructor are not checked: a negative number of control
points is accepted after a negative degree. -/
theorem negative_size : ((Obj.init { degreeU := some (-3) } : Obj ℚ).run .fresh [.numU (-2)]).numU
    = some (-2) := by decide +kernel

/-- **C129.** Degrees and sizes: which assignments are accepted, what they change, and which exception the others raise. -/
theorem assign_numbers (c : ClassState K) (o : Obj K) (x : ℤ) :
    (1 ≤ x → o.call c (.degree x) = .ok { o with degree := some x } ∧
      o.call c (.degreeU x) = .ok { o with degreeU := some x } ∧
      o.call c (.degreeV x) = .ok { o with degreeV := some x }) ∧
    (x ≤ 0 → o.call c (.degree x) = .error .valueError ∧ o.call c (.degreeU x) = .error .valueError ∧
      o.call c (.degreeV x) = .error .valueError) ∧
    (∀ d, o.degreeU = some d → (d < x → o.call c (.numU x) = .ok { o with numU := some x }) ∧
      (x ≤ d → o.call c (.numU x) = .error .valueError)) ∧
    (∀ d, o.degreeV = some d → (d < x → o.call c (.numV x) = .ok { o with numV := some x }) ∧
      (x ≤ d → o.call c (.numV x) = .error .valueError)) ∧
    (o.degreeU = none → o.call c (.numU x) = .error .typeError) ∧
    (o.degreeV = none → o.call c (.numV x) = .error .typeError) := by
  refine ⟨fun h => ?_, fun h => ?_, fun d e => ⟨fun h => ?_, fun h => ?_⟩, fun d e => ⟨fun h => ?_, fun h => ?_⟩,
    fun e => ?_, fun e => ?_⟩
  · simp [Obj.call, Obj.setDegree, Obj.setDegreeU, Obj.setDegreeV, not_lt.2 h]
  · have h : x < 1 := by omega
    simp [Obj.call, Obj.setDegree, Obj.setDegreeU, Obj.setDegreeV, h]
  · have h : ¬ x < d + 1 := by omega
    simp [Obj.call, Obj.setNumU, e, h]
  · have h : x < d + 1 := by omega
    simp [Obj.call, Obj.setNumU, e, h]
  · have h : ¬ x < d + 1 := by omega
    simp [Obj.call, Obj.setNumV, e, h]
  · have h : x < d + 1 := by omega
    simp [Obj.call, Obj.setNumV, e, h]
  · simp [Obj.call, Obj.setNumU, e]
  · simp [Obj.call, Obj.setNumV, e]

/-- **C129.** Control points, while the class is as defined: a `ValueError` without both surface degrees (also for a curve)
or when the last dimension of the array is the declared one, an `AttributeError` for something that is no array, an
`IndexError` for an array without dimensions; everything else is stored. -/
theorem assign_control_points (o : Obj K) :
    (o.degreeU = none ∨ o.degreeV = none → ∀ x, o.call .fresh (.ctrl x) = .error .valueError) ∧
    (∀ p q, o.degreeU = some p → o.degreeV = some q →
      o.call .fresh (.ctrl .noShape) = .error .attributeError ∧
      (∀ data, o.call .fresh (.ctrl (.arr ⟨[], data⟩)) = .error .indexError) ∧
      ∀ s m data, ((m : ℕ) = o.dimension → o.call .fresh (.ctrl (.arr ⟨s ++ [m], data⟩)) = .error .valueError) ∧
        ((m : ℕ) ≠ o.dimension → o.call .fresh (.ctrl (.arr ⟨s ++ [m], data⟩))
          = .ok { o with ctrl := some ⟨s ++ [m], data⟩ })) := by
  have e : ∀ (s : List ℕ) m, pyGet (s ++ [m]) (-1) = .ok m := fun s m => pyGet_last s m
  refine ⟨fun h x => ?_, fun p q hp hq => ⟨?_, fun data => ?_, fun s m data => ⟨fun h => ?_, fun h => ?_⟩⟩⟩
  · rcases h with h | h
    · simp [Obj.call, Obj.setCtrl, ClassState.fresh, Obj.propSetCtrl, h]
    · simp only [Obj.call, Obj.setCtrl, ClassState.fresh, Obj.propSetCtrl, h]
      cases o.degreeU <;> rfl
  · simp [Obj.call, Obj.setCtrl, ClassState.fresh, Obj.propSetCtrl, hp, hq]
  · simp only [Obj.call, Obj.setCtrl, ClassState.fresh, Obj.propSetCtrl, hp, hq]
    rfl
  · simp [Obj.call, Obj.setCtrl, ClassState.fresh, Obj.propSetCtrl, hp, hq, e, ok_bind, h]
  · simp [Obj.call, Obj.setCtrl, ClassState.fresh, Obj.propSetCtrl, hp, hq, e, ok_bind, h]

/-- **C129.** Knot vectors.  `knot_vector`, while the class has that property: `AttributeError` without a degree, `ValueError` without control points; with
both it stores the knots if `check_knot_vector` accepts them for the number of rows of the control points, and else ignores
the assignment without an exception.  `knot_vector_u`, `knot_vector_v`: `ValueError` without the degree or control points, with
both an `AttributeError`, whatever the knots.  `insert_knot` raises `UnboundLocalError`. -/
theorem assign_knots (c : ClassState K) (o : Obj K) (k : List K) :
    (c.kv = none → o.degree = none → o.call c (.kv k) = .error .attributeError) ∧
    (∀ d, c.kv = none → o.degree = some d → o.ctrl = none → o.call c (.kv k) = .error .valueError) ∧
    (∀ d m s data, c.kv = none → o.degree = some d → o.ctrl = some ⟨m :: s, data⟩ →
      (checkKnotVector d.toNat k m = .ok true → o.call c (.kv k) = .ok { o with kv := some k }) ∧
      (checkKnotVector d.toNat k m = .ok false → o.call c (.kv k) = .ok o) ∧
      ∀ e, checkKnotVector d.toNat k m = .error e → o.call c (.kv k) = .error e) ∧
    (o.degreeU = none ∨ o.ctrl = none → o.call c (.kvU k) = .error .valueError) ∧
    (o.degreeU ≠ none → o.ctrl ≠ none → o.call c (.kvU k) = .error .attributeError) ∧
    (o.degreeV = none ∨ o.ctrl = none → o.call c (.kvV k) = .error .valueError) ∧
    (o.degreeV ≠ none → o.ctrl ≠ none → o.call c (.kvV k) = .error .attributeError) ∧
    ∀ u, o.call c (.insertKnot u) = .error .unboundLocalError := by
  refine ⟨fun hc h => ?_, fun d hc h h' => ?_, fun d m s data hc h h' => ⟨fun e => ?_, fun e => ?_, fun x e => ?_⟩,
    fun h => ?_, fun h h' => ?_, fun h => ?_, fun h h' => ?_, fun u => rfl⟩
  · simp [Obj.call, Obj.assignKv, hc, Obj.setKv, h]
  · simp [Obj.call, Obj.assignKv, hc, Obj.setKv, h, h']
  · simp [Obj.call, Obj.assignKv, hc, Obj.setKv, Obj.checkKv, Obj.getDegree, h, h', e, ok_bind]
  · simp [Obj.call, Obj.assignKv, hc, Obj.setKv, Obj.checkKv, Obj.getDegree, h, h', e, ok_bind]
  · simp only [Obj.call, Obj.assignKv, hc, Obj.setKv, Obj.checkKv, Obj.getDegree, h, h', ok_bind, List.headD_cons, e]
    rfl
  · simp only [Obj.call, Obj.setKvU]
    rcases h with h | h <;> cases hd : o.degreeU <;> simp_all
  · simp only [Obj.call, Obj.setKvU]
    cases hd : o.degreeU <;> cases hc : o.ctrl <;> simp_all
    rfl
  · simp only [Obj.call, Obj.setKvV]
    rcases h with h | h <;> cases hd : o.degreeV <;> simp_all
  · simp only [Obj.call, Obj.setKvV]
    cases hd : o.degreeV <;> cases hc : o.ctrl <;> simp_all
    rfl

/-- A curve set up in the documented order, and knots that do not fit are ignored silently. -/
example : ((Obj.init {} : Obj ℚ).run .fresh [.degree 2, .degreeU 1, .degreeV 1, .ctrl (.arr ⟨[3, 3], [0, 0, 0, 1, 1, 0, 2, 0, 0]⟩),
    .kv [0, 0, 0, 1, 1, 1], .kv [0, 0, 1, 1]]).kv = some [0, 0, 0, 1, 1, 1] := by decide +kernel
/-- Without the surface degrees a curve takes no control points. -/
example : ((Obj.init {} : Obj ℚ).run .fresh [.degree 2, .ctrl (.arr ⟨[3, 3], [0, 0, 0, 1, 1, 0, 2, 0, 0]⟩)]).ctrl = none := by
  decide +kernel

/-- The smallest size is accepted, the next smaller one is not. -/
example : ((Obj.init {} : Obj ℚ).run .fresh [.degreeU 3, .numU 4, .numU 3]).numU = some 4 := by
  decide +kernel
example : ((Obj.init { dimension := some 3 } : Obj ℚ).run .fresh [.degreeU 1, .degreeV 1,
    .ctrl (.arr ⟨[2, 2], [1, 2, 3, 4]⟩), .ctrl .noShape, .numU 2, .insertKnot 0]).getCtrl .fresh
    = some (.arr ⟨[2, 2], [1, 2, 3, 4]⟩) := by decide +kernel

end

end PySpline
