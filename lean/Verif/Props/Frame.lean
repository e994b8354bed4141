import Verif.Lemmas.FrameAux
import Verif.Props.Data
import Verif.Props.KnotFit

/-!
# C114, C115: what the calls on the problem objects assign; planar problems
-/

set_option linter.unusedSectionVars false

namespace PySpline

open Spec
section

variable {K : Type} [Field K] [LinearOrder K] [IsStrictOrderedRing K] [FloorRing K]

/-! ## C114: which attributes a call can change -/

/-- **C114.** Which attributes and files a call on a `BoundaryProblem` can change, whether it raises or
not: a setter its own attribute, `set_init_curve` the initial curve, `parameterize` the initial curve
and the parameterized data, `fit` these, the number of control points and the fitted curve, `save` and
`load` nothing. -/
theorem boundary_frame (env : DataEnv K) (op : BOp K) (w : BWorld K) :
    (op.run env w).2.fs = w.fs ∧
    match op with
    | .degree _ => ∃ x, (op.run env w).2.self = { w.self with degree := x }
    | .data _ => ∃ x, (op.run env w).2.self = { w.self with data := x }
    | .start _ => ∃ x, (op.run env w).2.self = { w.self with start := x }
    | .fin _ => ∃ x, (op.run env w).2.self = { w.self with fin := x }
    | .numCtrl _ => ∃ x, (op.run env w).2.self = { w.self with numCtrl := x }
    | .fitMethod _ => ∃ x, (op.run env w).2.self = { w.self with fitMethod := x }
    | .setInitCurve => ∃ x, (op.run env w).2.self = { w.self with initCurve := x }
    | .parameterize => ∃ ic pd, (op.run env w).2.self
        = { w.self with initCurve := ic, paramData := pd }
    | .fit => ∃ ic nc fc pd, (op.run env w).2.self
        = { w.self with initCurve := ic, numCtrl := nc, fitCurve := fc, paramData := pd }
    | .save _ => (op.run env w).2.self = w.self
    | .load _ => (op.run env w).2.self = w.self := by
  have asg : ∀ {α : Type} (t : Boundary K) (f : α → Boundary K), (∃ x, t = f x) →
      ∀ {m : Meth (Boundary K) Unit}, Meth.Keeps (fun s => ∃ x, s = f x) m → ∃ x, (m t).2 = f x :=
    fun t f h m hm => hm t h
  have arr : ∀ (x : Py (Arr K)) (n : ℕ) (i : ℤ) (f : Option (Arr K) → Boundary K)
      (g : Arr K → Boundary K → Boundary K), (∀ a x, g a (f x) = f (some a)) →
      Meth.Keeps (fun s : Boundary K => ∃ x, s = f x)
        ((Meth.lift x : Meth (Boundary K) _) >>= fun a =>
          if a.shape.length ≠ n then Meth.raise .valueError
          else ((Meth.lift (pyGet a.shape i) : Meth (Boundary K) _) >>= fun last =>
            if ¬ (last = 2 ∨ last = 3) then Meth.raise .valueError else Meth.assign (g a))) := by
    intro x n i f g hg
    refine Meth.Keeps.lift_bind fun a _ => ?_
    split
    · exact Meth.Keeps.raise _
    · refine Meth.Keeps.lift_bind fun last hl => ?_
      split
      · exact Meth.Keeps.raise _
      · refine Meth.Keeps.assign ?_
        rintro _ ⟨x, rfl⟩
        exact ⟨some a, hg a x⟩
  cases op with
  | degree v =>
    refine ⟨rfl, asg w.self (fun x => { w.self with degree := x }) ⟨w.self.degree, rfl⟩
      (m := Boundary.setDegree env v) ?_⟩
    refine Meth.Keeps.lift_bind fun b _ => ?_
    cases b with
    | true => exact Meth.Keeps.raise _
    | false =>
      refine Meth.Keeps.lift_bind fun z _ => Meth.Keeps.assign ?_
      rintro _ ⟨x, rfl⟩
      exact ⟨some z, rfl⟩
  | data v => exact ⟨rfl, asg w.self (fun x => { w.self with data := x }) ⟨w.self.data, rfl⟩
      (m := Boundary.setData v) (arr _ _ _ _ _ fun _ _ => rfl)⟩
  | start v => exact ⟨rfl, asg w.self (fun x => { w.self with start := x }) ⟨w.self.start, rfl⟩
      (m := Boundary.setStart v) (arr _ _ _ _ _ fun _ _ => rfl)⟩
  | fin v => exact ⟨rfl, asg w.self (fun x => { w.self with fin := x }) ⟨w.self.fin, rfl⟩
      (m := Boundary.setEnd v) (arr _ _ _ _ _ fun _ _ => rfl)⟩
  | numCtrl v =>
    refine ⟨rfl, asg w.self (fun x => { w.self with numCtrl := x }) ⟨w.self.numCtrl, rfl⟩
      (m := Boundary.setNumCtrl env v) ?_⟩
    refine Meth.Keeps.lift_bind fun z _ => ?_
    split
    · exact Meth.Keeps.raise _
    · refine Meth.Keeps.assign ?_
      rintro _ ⟨x, rfl⟩
      exact ⟨some z, rfl⟩
  | fitMethod v =>
    refine ⟨rfl, asg w.self (fun x => { w.self with fitMethod := x }) ⟨w.self.fitMethod, rfl⟩
      (m := Boundary.setFitMethod v) ?_⟩
    unfold Boundary.setFitMethod
    split
    · split
      · exact Meth.Keeps.raise _
      · refine Meth.Keeps.assign ?_
        rintro _ ⟨x, rfl⟩
        exact ⟨_, rfl⟩
    · exact Meth.Keeps.raise _
  | setInitCurve =>
    refine ⟨rfl, asg w.self (fun x => { w.self with initCurve := x }) ⟨w.self.initCurve, rfl⟩
      (m := Boundary.setInitCurve) ?_⟩
    refine Meth.Keeps.bind (Meth.Keeps.read _) fun _ => Meth.Keeps.lift_bind fun c _ =>
      Meth.Keeps.assign ?_
    rintro _ ⟨x, rfl⟩
    exact ⟨some c, rfl⟩
  | parameterize => exact ⟨rfl, parameterize_frame env w.self⟩
  | fit => exact ⟨rfl, fit_frame env w.self⟩
  | save name =>
    obtain ⟨e, he⟩ := (boundary_save_load env name w).2.2.1
    have h : (BOp.run env (.save name) w).2 = w := congrArg Prod.snd he
    exact ⟨congrArg BWorld.fs h, congrArg BWorld.self h⟩
  | load name =>
    obtain ⟨e, he⟩ := (boundary_save_load env name w).2.2.2
    have h : (BOp.run env (.load name) w).2 = w := congrArg Prod.snd he
    exact ⟨congrArg BWorld.fs h, congrArg BWorld.self h⟩

/-- **C114.** What the setters of a `BoundaryProblem` do with ints, arrays and strings: a value of the
accepted kind is stored in its attribute and nothing else happens, any other such value raises
`ValueError` and changes nothing. -/
theorem boundary_set (env : DataEnv K) (w : BWorld K) :
    (∀ z : ℤ, BOp.run env (.degree (.int z)) w =
      if 1 ≤ z then (.ok (), { w with self := { w.self with degree := some z } })
      else (.error .valueError, w)) ∧
    (∀ z : ℤ, BOp.run env (.numCtrl (.int z)) w =
      if 4 ≤ z then (.ok (), { w with self := { w.self with numCtrl := some z } })
      else (.error .valueError, w)) ∧
    (∀ m : String, BOp.run env (.fitMethod (.str m)) w =
      if m = "fixed" ∨ m = "adaptive" then
        (.ok (), { w with self := { w.self with fitMethod := m } })
      else (.error .valueError, w)) ∧
    (∀ a : Arr K, BOp.run env (.data (.arr a)) w =
      if a.shape.length = 2 ∧ (a.shape.getD 1 0 = 2 ∨ a.shape.getD 1 0 = 3) then
        (.ok (), { w with self := { w.self with data := some a } })
      else (.error .valueError, w)) ∧
    (∀ a : Arr K, BOp.run env (.start (.arr a)) w =
      if a.shape = [2] ∨ a.shape = [3] then
        (.ok (), { w with self := { w.self with start := some a } })
      else (.error .valueError, w)) ∧
    (∀ a : Arr K, BOp.run env (.fin (.arr a)) w =
      if a.shape = [2] ∨ a.shape = [3] then
        (.ok (), { w with self := { w.self with fin := some a } })
      else (.error .valueError, w)) := by
  have hobj : ∀ (m : Meth (Boundary K) Unit), BWorld.obj m w
      = ((m w.self).1, { w with self := (m w.self).2 }) := fun m => rfl
  have pt : ∀ (a : Arr K) (g : Boundary K → Boundary K),
      (if a.shape.length ≠ 1 then (Meth.raise .valueError : Meth (Boundary K) Unit)
        else ((Meth.lift (pyGet a.shape 0) : Meth (Boundary K) _) >>= fun last =>
            if ¬ (last = 2 ∨ last = 3) then Meth.raise .valueError else Meth.assign g)) w.self
      = if a.shape = [2] ∨ a.shape = [3] then (.ok (), g w.self) else (.error .valueError, w.self) := by
    intro a g
    rcases a with ⟨_ | ⟨x, _ | ⟨y, l⟩⟩, d⟩
    · rfl
    · show (if ¬ (x = 2 ∨ x = 3) then (Meth.raise .valueError : Meth (Boundary K) Unit)
        else Meth.assign g) w.self = _
      by_cases hx : x = 2 ∨ x = 3
      · rw [if_neg (not_not.2 hx), if_pos (by simpa using hx)]
        rfl
      · rw [if_pos hx, if_neg (by simpa using hx)]
        rfl
    · rw [if_pos (by simp), if_neg (by simp)]
      rfl
  refine ⟨fun z => ?_, fun z => ?_, fun m => ?_, fun a => ?_, fun a => ?_, fun a => ?_⟩
  · by_cases hz : 1 ≤ z
    · have h0 : (Val.int z : Val K).leZero = .ok false := by
        show Except.ok (decide (z ≤ 0)) = _
        rw [decide_eq_false (by omega)]
      rw [if_pos hz]
      show BWorld.obj (Boundary.setDegree env (.int z)) w = _
      rw [hobj]
      unfold Boundary.setDegree
      rw [h0]
      rfl
    · have h0 : (Val.int z : Val K).leZero = .ok true := by
        show Except.ok (decide (z ≤ 0)) = _
        rw [decide_eq_true (by omega)]
      rw [if_neg hz]
      show BWorld.obj (Boundary.setDegree env (.int z)) w = _
      rw [hobj]
      unfold Boundary.setDegree
      rw [h0]
      rfl
  · show BWorld.obj (Boundary.setNumCtrl env (.int z)) w = _
    rw [hobj]
    have : Boundary.setNumCtrl env (.int z) w.self = if 4 ≤ z then
        (.ok (), { w.self with numCtrl := some z }) else (.error .valueError, w.self) := by
      show (if z ≤ 3 then (Meth.raise .valueError : Meth (Boundary K) Unit) else _) w.self = _
      by_cases hz : 4 ≤ z
      · rw [if_neg (by omega), if_pos hz]
        rfl
      · rw [if_pos (by omega), if_neg hz]
        rfl
    rw [this]
    split <;> rfl
  · show BWorld.obj (Boundary.setFitMethod (.str m)) w = _
    rw [hobj]
    have : Boundary.setFitMethod (.str m) w.self = if m = "fixed" ∨ m = "adaptive" then
        (.ok (), { w.self with fitMethod := m }) else (.error .valueError, w.self) := by
      show (if ¬ (m = "fixed" ∨ m = "adaptive") then (Meth.raise .valueError : Meth (Boundary K) Unit)
        else _) w.self = _
      by_cases hz : m = "fixed" ∨ m = "adaptive"
      · rw [if_neg (not_not.2 hz), if_pos hz]
        rfl
      · rw [if_pos hz, if_neg hz]
        rfl
    rw [this]
    split <;> rfl
  · show BWorld.obj (Boundary.setData (.arr a)) w = _
    rw [hobj]
    have : Boundary.setData (.arr a) w.self =
        if a.shape.length = 2 ∧ (a.shape.getD 1 0 = 2 ∨ a.shape.getD 1 0 = 3) then
        (.ok (), { w.self with data := some a }) else (.error .valueError, w.self) := by
      rcases a with ⟨_ | ⟨x, _ | ⟨y, _ | ⟨z, l⟩⟩⟩, d⟩
      · rw [if_neg (by simp)]; rfl
      · rw [if_neg (by simp)]; rfl
      · show (if ¬ (y = 2 ∨ y = 3) then (Meth.raise .valueError : Meth (Boundary K) Unit)
          else _) w.self = _
        by_cases hy : y = 2 ∨ y = 3
        · rw [if_neg (not_not.2 hy), if_pos (by simpa using hy)]
          rfl
        · rw [if_pos hy, if_neg (by simpa using hy)]
          rfl
      · rw [if_neg (by simp)]
        unfold Boundary.setData
        show ((Meth.lift (Except.ok ⟨x :: y :: z :: l, d⟩) : Meth (Boundary K) (Arr K)) >>= _) w.self = _
        rw [Meth.lift_ok_bind, if_pos (by simp)]
        rfl
    rw [this]
    split <;> rfl
  · show BWorld.obj (Boundary.setStart (.arr a)) w = _
    rw [hobj]
    have : Boundary.setStart (.arr a) w.self = if a.shape = [2] ∨ a.shape = [3] then
        (.ok (), { w.self with start := some a }) else (.error .valueError, w.self) :=
      pt a fun s => { s with start := some a }
    rw [this]
    split <;> rfl
  · show BWorld.obj (Boundary.setEnd (.arr a)) w = _
    rw [hobj]
    have : Boundary.setEnd (.arr a) w.self = if a.shape = [2] ∨ a.shape = [3] then
        (.ok (), { w.self with fin := some a }) else (.error .valueError, w.self) :=
      pt a fun s => { s with fin := some a }
    rw [this]
    split <;> rfl

/-- **C114.** An attribute of a `BoundaryProblem` keeps its value over every history that does not
assign it again: the degree, the data, the ends and the fit method are changed by their setters only,
the number of control points by its setter and by `fit`. -/
theorem boundary_readback (env : DataEnv K) (w : BWorld K) (ops : List (BOp K × FS)) :
    ((∀ o ∈ ops, ∀ v, o.1 ≠ .degree v) →
      (Boundary.history env w ops).self.degree = w.self.degree) ∧
    ((∀ o ∈ ops, ∀ v, o.1 ≠ .data v) → (Boundary.history env w ops).self.data = w.self.data) ∧
    ((∀ o ∈ ops, ∀ v, o.1 ≠ .start v) → (Boundary.history env w ops).self.start = w.self.start) ∧
    ((∀ o ∈ ops, ∀ v, o.1 ≠ .fin v) → (Boundary.history env w ops).self.fin = w.self.fin) ∧
    ((∀ o ∈ ops, ∀ v, o.1 ≠ .fitMethod v) →
      (Boundary.history env w ops).self.fitMethod = w.self.fitMethod) ∧
    ((∀ o ∈ ops, o.1 ≠ .fit ∧ ∀ v, o.1 ≠ .numCtrl v) →
      (Boundary.history env w ops).self.numCtrl = w.self.numCtrl) := by
  have fr := fun (op : BOp K) w => (boundary_frame env op w).2
  refine ⟨fun h => ?_, fun h => ?_, fun h => ?_, fun h => ?_, fun h => ?_, fun h => ?_⟩
  · refine Boundary.history_const Boundary.degree env ops (fun o ho w => ?_) w
    have := fr o.1 w
    have hn := h o ho
    generalize o.1 = op at this hn ⊢
    cases op <;> first
      | exact absurd rfl (hn _)
      | (dsimp only at this; obtain ⟨a, b, c, d, this⟩ := this; rw [this])
      | (dsimp only at this; obtain ⟨a, b, this⟩ := this; rw [this])
      | (dsimp only at this; obtain ⟨a, this⟩ := this; rw [this])
      | (dsimp only at this; rw [this])
  · refine Boundary.history_const Boundary.data env ops (fun o ho w => ?_) w
    have := fr o.1 w
    have hn := h o ho
    generalize o.1 = op at this hn ⊢
    cases op <;> first
      | exact absurd rfl (hn _)
      | (dsimp only at this; obtain ⟨a, b, c, d, this⟩ := this; rw [this])
      | (dsimp only at this; obtain ⟨a, b, this⟩ := this; rw [this])
      | (dsimp only at this; obtain ⟨a, this⟩ := this; rw [this])
      | (dsimp only at this; rw [this])
  · refine Boundary.history_const Boundary.start env ops (fun o ho w => ?_) w
    have := fr o.1 w
    have hn := h o ho
    generalize o.1 = op at this hn ⊢
    cases op <;> first
      | exact absurd rfl (hn _)
      | (dsimp only at this; obtain ⟨a, b, c, d, this⟩ := this; rw [this])
      | (dsimp only at this; obtain ⟨a, b, this⟩ := this; rw [this])
      | (dsimp only at this; obtain ⟨a, this⟩ := this; rw [this])
      | (dsimp only at this; rw [this])
  · refine Boundary.history_const Boundary.fin env ops (fun o ho w => ?_) w
    have := fr o.1 w
    have hn := h o ho
    generalize o.1 = op at this hn ⊢
    cases op <;> first
      | exact absurd rfl (hn _)
      | (dsimp only at this; obtain ⟨a, b, c, d, this⟩ := this; rw [this])
      | (dsimp only at this; obtain ⟨a, b, this⟩ := this; rw [this])
      | (dsimp only at this; obtain ⟨a, this⟩ := this; rw [this])
      | (dsimp only at this; rw [this])
  · refine Boundary.history_const Boundary.fitMethod env ops (fun o ho w => ?_) w
    have := fr o.1 w
    have hn := h o ho
    generalize o.1 = op at this hn ⊢
    cases op <;> first
      | exact absurd rfl (hn _)
      | (dsimp only at this; obtain ⟨a, b, c, d, this⟩ := this; rw [this])
      | (dsimp only at this; obtain ⟨a, b, this⟩ := this; rw [this])
      | (dsimp only at this; obtain ⟨a, this⟩ := this; rw [this])
      | (dsimp only at this; rw [this])
  · refine Boundary.history_const Boundary.numCtrl env ops (fun o ho w => ?_) w
    have := fr o.1 w
    have hn := h o ho
    generalize o.1 = op at this hn ⊢
    cases op <;> first
      | exact absurd rfl hn.1
      | exact absurd rfl (hn.2 _)
      | (dsimp only at this; obtain ⟨a, b, this⟩ := this; rw [this])
      | (dsimp only at this; obtain ⟨a, this⟩ := this; rw [this])
      | (dsimp only at this; rw [this])

/-- **C114.** `set_init_curve` stores a curve whose control points are equally spaced from the start
point to the end point: `num_ctrlpts` many for the method `"fixed"`, `degree + 1` many for
`"adaptive"`. -/
theorem boundary_set_init_curve (env : DataEnv K) (w : BWorld K) {a b : Arr K} {d : ℕ}
    (hs : w.self.start = some a) (he : w.self.fin = some b) (ha : a.data.length = 3)
    (hb : b.data.length = 3) (hd : w.self.degree = some (d : ℤ)) (h1 : 1 ≤ d) (n : ℕ)
    (hn : if w.self.fitMethod = "adaptive" then n = d + 1 else
      w.self.numCtrl = some (n : ℤ) ∧ d < n) :
    ∃ c : Curve K, BOp.run env .setInitCurve w
        = (.ok (), { w with self := { w.self with initCurve := some c } }) ∧
      initializeCurve a.data b.data d n = .ok c ∧ c.degree = d ∧ Shape c.ctrlpts n 3 ∧ (∀ k < 3, ∀ i < n, coord c.ctrlpts k i
        = a.data.getD k 0 + (i : K) / ((n : K) - 1) * (b.data.getD k 0 - a.data.getD k 0)) := by
  have hdn : d < n := by split at hn <;> omega
  obtain ⟨c, hc, hcd, hcs, hcv, -⟩ := initialize_curve_points ha hb hdn (by omega)
  refine ⟨c, ?_, hc, hcd, hcs, hcv⟩
  have key : initCurveOf w.self.start w.self.fin w.self.degree (some (n : ℤ)) = .ok c := by
    rw [hs, he, hd]
    show (if ¬ (n : ℤ) ≥ d then .error .valueError else
      initializeCurve a.data b.data (d : ℤ).toNat (n : ℤ).toNat) = _
    rw [if_neg (by omega), Int.toNat_natCast, Int.toNat_natCast, hc]
  have : Boundary.setInitCurve w.self = (.ok (), { w.self with initCurve := some c }) := by
    unfold Boundary.setInitCurve
    rw [Meth.read_bind]
    have : (if (id w.self).fitMethod = "adaptive" then
        initCurveOf (id w.self).start (id w.self).fin (id w.self).degree
          ((id w.self).degree.map (· + 1))
      else initCurveOf (id w.self).start (id w.self).fin (id w.self).degree (id w.self).numCtrl)
        = .ok c := by
      show (if w.self.fitMethod = "adaptive" then
        initCurveOf w.self.start w.self.fin w.self.degree (w.self.degree.map (· + 1))
      else initCurveOf w.self.start w.self.fin w.self.degree w.self.numCtrl) = .ok c
      split at hn
      · rename_i hm
        rw [if_pos hm, ← key, hd, hn]
        rfl
      · rename_i hm
        rw [if_neg hm, ← key, hn.1]
    rw [this]
    rfl
  show ((Boundary.setInitCurve w.self).1, ({ w with self := (Boundary.setInitCurve w.self).2 }
    : BWorld K)) = _
  rw [this]

/-! ## C114 for `InteriorProblem` -/

/-- **C114.** The setters of an `InteriorProblem`. -/
theorem interior_set (env : DataEnv K) (w : IWorld K) :
    (∀ z : ℤ, IOp.run env (.degree (.int z)) w =
      if 1 ≤ z then (.ok (), { w with self := { w.self with degree := some z } })
      else (.error .valueError, w)) ∧
    (∀ z : ℤ, IOp.run env (.numCtrl (.int z)) w =
      if 3 ≤ z then (.ok (), { w with self := { w.self with numCtrl := some z } })
      else (.error .valueError, w)) ∧
    (∀ a : Arr K, IOp.run env (.data (.arr a)) w =
      if a.shape.length = 2 ∧ (a.shape.getD 1 0 = 2 ∨ a.shape.getD 1 0 = 3) then
        (.ok (), { w with self := { w.self with data := some a } })
      else (.error .valueError, w)) := by
  have hobj : ∀ (m : Meth (Interior K) Unit), IWorld.obj m w
      = ((m w.self).1, { w with self := (m w.self).2 }) := fun m => rfl
  refine ⟨fun z => ?_, fun z => ?_, fun a => ?_⟩
  · by_cases hz : 1 ≤ z
    · have h0 : (Val.int z : Val K).leZero = .ok false := by
        show Except.ok (decide (z ≤ 0)) = _
        rw [decide_eq_false (by omega)]
      rw [if_pos hz]
      show IWorld.obj (Interior.setDegree env (.int z)) w = _
      rw [hobj]
      unfold Interior.setDegree
      rw [h0]
      rfl
    · have h0 : (Val.int z : Val K).leZero = .ok true := by
        show Except.ok (decide (z ≤ 0)) = _
        rw [decide_eq_true (by omega)]
      rw [if_neg hz]
      show IWorld.obj (Interior.setDegree env (.int z)) w = _
      rw [hobj]
      unfold Interior.setDegree
      rw [h0]
      rfl
  · show IWorld.obj (Interior.setNumCtrl env (.int z)) w = _
    rw [hobj]
    have : Interior.setNumCtrl env (.int z) w.self = if 3 ≤ z then
        (.ok (), { w.self with numCtrl := some z }) else (.error .valueError, w.self) := by
      show (if z < 3 then (Meth.raise .valueError : Meth (Interior K) Unit) else _) w.self = _
      by_cases hz : 3 ≤ z
      · rw [if_neg (by omega), if_pos hz]
        rfl
      · rw [if_pos (by omega), if_neg hz]
        rfl
    rw [this]
    split <;> rfl
  · show IWorld.obj (Interior.setData (.arr a)) w = _
    rw [hobj]
    have : Interior.setData (.arr a) w.self =
        if a.shape.length = 2 ∧ (a.shape.getD 1 0 = 2 ∨ a.shape.getD 1 0 = 3) then
        (.ok (), { w.self with data := some a }) else (.error .valueError, w.self) := by
      rcases a with ⟨_ | ⟨x, _ | ⟨y, _ | ⟨z, l⟩⟩⟩, d⟩
      · rw [if_neg (by simp)]; rfl
      · rw [if_neg (by simp)]; rfl
      · show (if ¬ (y = 2 ∨ y = 3) then (Meth.raise .valueError : Meth (Interior K) Unit)
          else _) w.self = _
        by_cases hy : y = 2 ∨ y = 3
        · rw [if_neg (not_not.2 hy), if_pos (by simpa using hy)]
          rfl
        · rw [if_pos hy, if_neg (by simpa using hy)]
          rfl
      · rw [if_neg (by simp)]
        unfold Interior.setData
        show ((Meth.lift (Except.ok ⟨x :: y :: z :: l, d⟩) : Meth (Interior K) (Arr K)) >>= _) w.self = _
        rw [Meth.lift_ok_bind, if_pos (by simp)]
        rfl
    rw [this]
    split <;> rfl

/-- **C114.** Which attributes a setter of an `InteriorProblem` can change: its own. -/
theorem interior_frame (env : DataEnv K) (v : Val K) (w : IWorld K) :
    (∃ x, (IOp.run env (.degree v) w).2 = { w with self := { w.self with degree := x } }) ∧
    (∃ x, (IOp.run env (.data v) w).2 = { w with self := { w.self with data := x } }) ∧
    (∃ x, (IOp.run env (.numCtrl v) w).2 = { w with self := { w.self with numCtrl := x } }) := by
  have asg : ∀ {α : Type} (f : α → Interior K), (∃ x, w.self = f x) →
      ∀ {m : Meth (Interior K) Unit}, Meth.Keeps (fun s => ∃ x, s = f x) m →
      ∃ x, (IWorld.obj m w).2 = { w with self := f x } := by
    intro α f h m hm
    obtain ⟨x, hx⟩ := hm w.self h
    refine ⟨x, ?_⟩
    show ({ w with self := (m w.self).2 } : IWorld K) = _
    rw [hx]
  refine ⟨?_, ?_, ?_⟩
  · refine asg (fun x => { w.self with degree := x }) ⟨w.self.degree, rfl⟩
      (m := Interior.setDegree env v) ?_
    refine Meth.Keeps.lift_bind fun b _ => ?_
    cases b with
    | true => exact Meth.Keeps.raise _
    | false =>
      refine Meth.Keeps.lift_bind fun z _ => Meth.Keeps.assign ?_
      rintro _ ⟨x, rfl⟩
      exact ⟨some z, rfl⟩
  · refine asg (fun x => { w.self with data := x }) ⟨w.self.data, rfl⟩ (m := Interior.setData v) ?_
    refine Meth.Keeps.lift_bind fun a _ => ?_
    split
    · exact Meth.Keeps.raise _
    · refine Meth.Keeps.lift_bind fun last hl => ?_
      split
      · exact Meth.Keeps.raise _
      · refine Meth.Keeps.assign ?_
        rintro _ ⟨x, rfl⟩
        exact ⟨some a, rfl⟩
  · refine asg (fun x => { w.self with numCtrl := x }) ⟨w.self.numCtrl, rfl⟩
      (m := Interior.setNumCtrl env v) ?_
    refine Meth.Keeps.lift_bind fun z _ => ?_
    split
    · exact Meth.Keeps.raise _
    · refine Meth.Keeps.assign ?_
      rintro _ ⟨x, rfl⟩
      exact ⟨some z, rfl⟩

/-- **C114.** In every history of an `InteriorProblem` the degree, the data and the number of control
points change by their own setters only. -/
theorem interior_readback (env : DataEnv K) (w : IWorld K) (hw : InteriorInv w.self)
    (ops : List (IOp K × FS)) :
    ((∀ o ∈ ops, ∀ v, o.1 ≠ .degree v) →
      (Interior.history env w ops).self.degree = w.self.degree) ∧
    ((∀ o ∈ ops, ∀ v, o.1 ≠ .data v) → (Interior.history env w ops).self.data = w.self.data) ∧
    ((∀ o ∈ ops, ∀ v, o.1 ≠ .numCtrl v) →
      (Interior.history env w ops).self.numCtrl = w.self.numCtrl) := by
  have con : ∀ {α : Type} (f : Interior K → α) (ops : List (IOp K × FS)),
      (∀ o ∈ ops, ∀ w : IWorld K, InteriorInv w.self → f (o.1.run env w).2.self = f w.self) →
      ∀ w : IWorld K, InteriorInv w.self → f (Interior.history env w ops).self = f w.self := by
    intro α f ops
    induction ops with
    | nil => exact fun _ w _ => rfl
    | cons o ops ih =>
      intro h w hw
      show f (Interior.history env (o.1.run env { w with fs := o.2 }).2 ops).self = _
      exact (ih (fun o' ho' => h o' (List.mem_cons_of_mem _ ho')) _
        (IOp.step env o.1 { w with fs := o.2 } hw).1).trans
        (h o List.mem_cons_self { w with fs := o.2 } hw)
  have act : ∀ {α : Type} (f : Interior K → α) (op : IOp K) (w : IWorld K), InteriorInv w.self →
      op.isAction = true → f (op.run env w).2.self = f w.self := by
    intro α f op w hw h
    obtain ⟨e, he⟩ := (IOp.step env op w hw).2.2 h
    rw [he]
  refine ⟨fun h => con Interior.degree ops (fun o ho w hw => ?_) w hw,
    fun h => con Interior.data ops (fun o ho w hw => ?_) w hw,
    fun h => con Interior.numCtrl ops (fun o ho w hw => ?_) w hw⟩
  · have hn := h o ho
    generalize o.1 = op at hn ⊢
    cases op with
    | degree v => exact absurd rfl (hn v)
    | data v => obtain ⟨x, hx⟩ := (interior_frame env v w).2.1; rw [hx]
    | numCtrl v => obtain ⟨x, hx⟩ := (interior_frame env v w).2.2; rw [hx]
    | _ => exact act Interior.degree _ w hw rfl
  · have hn := h o ho
    generalize o.1 = op at hn ⊢
    cases op with
    | data v => exact absurd rfl (hn v)
    | degree v => obtain ⟨x, hx⟩ := (interior_frame env v w).1; rw [hx]
    | numCtrl v => obtain ⟨x, hx⟩ := (interior_frame env v w).2.2; rw [hx]
    | _ => exact act Interior.data _ w hw rfl
  · have hn := h o ho
    generalize o.1 = op at hn ⊢
    cases op with
    | numCtrl v => exact absurd rfl (hn v)
    | degree v => obtain ⟨x, hx⟩ := (interior_frame env v w).1; rw [hx]
    | data v => obtain ⟨x, hx⟩ := (interior_frame env v w).2.1; rw [hx]
    | _ => exact act Interior.numCtrl _ w hw rfl

/-! ## C115: planar problems -/

/-- A point attribute that is missing or has fewer than three coordinates. -/
def Planar (p : Option (Arr K)) : Prop := ∀ a, p = some a → a.data.length < 3

theorem initCurveOf_planar {st fi : Option (Arr K)} (h : Planar st ∨ Planar fi) (d n : Option ℤ) :
    ∃ e, initCurveOf st fi d n = .error e := by
  cases hc : initCurveOf st fi d n with
  | error e => exact ⟨e, rfl⟩
  | ok c =>
    exfalso
    unfold initCurveOf at hc
    obtain ⟨d', -, hc⟩ := bind_eq_ok hc
    obtain ⟨n', -, hc⟩ := bind_eq_ok hc
    split at hc
    · cases hc
    obtain ⟨s, hs, hc⟩ := bind_eq_ok hc
    obtain ⟨e, he, hc⟩ := bind_eq_ok hc
    have hl := initializeCurve_space hc
    rcases h with h | h
    · cases st with
      | none => cases hs
      | some a => cases hs; exact absurd (h a rfl) (by omega)
    · cases fi with
      | none => cases he
      | some a => cases he; exact absurd (h a rfl) (by omega)

theorem setInitCurve_planar {s : Boundary K} (h : Planar s.start ∨ Planar s.fin) :
    ∃ e, Boundary.setInitCurve s = (.error e, s) := by
  unfold Boundary.setInitCurve
  rw [Meth.read_bind]
  show ∃ e, ((Meth.lift (if s.fitMethod = "adaptive" then
      initCurveOf s.start s.fin s.degree (s.degree.map (· + 1))
    else initCurveOf s.start s.fin s.degree s.numCtrl) : Meth (Boundary K) _) >>= _) s = _
  split
  · obtain ⟨e, he⟩ := initCurveOf_planar h s.degree (s.degree.map (· + 1))
    rw [he]
    exact ⟨e, rfl⟩
  · obtain ⟨e, he⟩ := initCurveOf_planar h s.degree s.numCtrl
    rw [he]
    exact ⟨e, rfl⟩

/-- The state of a problem one of whose ends is in the plane and that was never initialised. -/
structure PlanarState (s : Boundary K) : Prop where
  init : s.initCurve = none
  fitted : s.fitCurve = none
  param : s.paramData = none

theorem planar_refuses (env : DataEnv K) {s : Boundary K} (h : Planar s.start ∨ Planar s.fin)
    (hs : PlanarState s) :
    (∃ e, Boundary.setInitCurve s = (.error e, s)) ∧ (∃ e, Boundary.parameterize env s = (.error e, s)) ∧
    (∃ e, Boundary.fit env s = (.error e, s)) := by
  obtain ⟨e, he⟩ := setInitCurve_planar h
  refine ⟨⟨e, he⟩, ⟨e, ?_⟩, ⟨e, ?_⟩⟩
  · unfold Boundary.parameterize
    rw [Meth.read_bind, if_pos (by exact ⟨hs.init, hs.fitted⟩)]
    have : ((do
        Boundary.setInitCurve
        let s ← Meth.read id
        Meth.lift (curveOf s.initCurve) : Meth (Boundary K) (Curve K)) s) = (.error e, s) :=
      Meth.bind_error he _
    rw [Meth.bind_error this]
  · unfold Boundary.fit
    rw [Meth.read_bind, if_pos (by exact hs.init), Meth.bind_error he]

/-- **C115.** The setters of `start` and `end` accept points of the plane, but a problem whose start
point (or whose end point) is only ever set to such points is never initialised: in every history there
is no initial curve, no parameterized data and no fitted curve, and `set_init_curve`, `parameterize` and
`fit` raise and change nothing. -/
theorem planar_ends_never_fit (env : DataEnv K) (fs : FS) (ops : List (BOp K × FS))
    (h : (∀ o ∈ ops, ∀ v a, o.1 = .start v → v.toArray = .ok a → a.data.length < 3) ∨
      (∀ o ∈ ops, ∀ v a, o.1 = .fin v → v.toArray = .ok a → a.data.length < 3)) :
    let w := Boundary.history env ⟨Boundary.new, fs⟩ ops
    w.self.initCurve = none ∧ w.self.paramData = none ∧ w.self.fitCurve = none ∧
    (∀ op : BOp K, (op = .setInitCurve ∨ op = .parameterize ∨ op = .fit) →
      ∃ e, op.run env w = (.error e, w)) := by
  -- a setter that succeeds stores the array of its argument
  have hset : ∀ (v : Val K) (s : Boundary K), ((Boundary.setStart v s).2.start = s.start ∨
      ∃ a, v.toArray = .ok a ∧ (Boundary.setStart v s).2.start = some a) := by
    intro v s
    unfold Boundary.setStart
    cases hv : v.toArray with
    | error e => exact Or.inl rfl
    | ok a =>
      rw [Meth.lift_ok_bind]
      split
      · exact Or.inl rfl
      · cases hl : pyGet a.shape 0 with
        | error e => exact Or.inl rfl
        | ok l =>
          rw [Meth.lift_ok_bind]
          split
          · exact Or.inl rfl
          · exact Or.inr ⟨a, rfl, rfl⟩
  have hend : ∀ (v : Val K) (s : Boundary K), ((Boundary.setEnd v s).2.fin = s.fin ∨
      ∃ a, v.toArray = .ok a ∧ (Boundary.setEnd v s).2.fin = some a) := by
    intro v s
    unfold Boundary.setEnd
    cases hv : v.toArray with
    | error e => exact Or.inl rfl
    | ok a =>
      rw [Meth.lift_ok_bind]
      split
      · exact Or.inl rfl
      · cases hl : pyGet a.shape 0 with
        | error e => exact Or.inl rfl
        | ok l =>
          rw [Meth.lift_ok_bind]
          split
          · exact Or.inl rfl
          · exact Or.inr ⟨a, rfl, rfl⟩
  -- the invariant
  have hrun : ∀ (b : Bool) (op : BOp K) (w : BWorld K),
      (b = true → ∀ v a, op = .start v → v.toArray = .ok a → a.data.length < 3) →
      (b = false → ∀ v a, op = .fin v → v.toArray = .ok a → a.data.length < 3) →
      PlanarState w.self → (if b then Planar w.self.start else Planar w.self.fin) →
      PlanarState (op.run env w).2.self ∧
        (if b then Planar (op.run env w).2.self.start else Planar (op.run env w).2.self.fin) := by
    intro b op w h1 h2 hp hq
    have hor : Planar w.self.start ∨ Planar w.self.fin := by
      cases b
      · exact Or.inr hq
      · exact Or.inl hq
    have ref := planar_refuses env hor hp
    have same : ∀ {m : Meth (Boundary K) Unit}, (∃ e, m w.self = (.error e, w.self)) →
        (BWorld.obj m w).2.self = w.self := by
      rintro m ⟨e, he⟩
      show (m w.self).2 = _
      rw [he]
    have fr := (boundary_frame env op w).2
    cases op with
    | degree v | data v | numCtrl v | fitMethod v =>
      obtain ⟨x, hx⟩ := fr
      rw [hx]
      exact ⟨⟨hp.1, hp.2, hp.3⟩, hq⟩
    | start v =>
      obtain ⟨x, hx⟩ := fr
      refine ⟨by rw [hx]; exact ⟨hp.1, hp.2, hp.3⟩, ?_⟩
      cases b with
      | false => rw [hx]; exact hq
      | true =>
        show Planar (Boundary.setStart v w.self).2.start
        rcases hset v w.self with he | ⟨a, ha, he⟩
        · rw [he]; exact hq
        · rw [he]
          intro a' ha'
          cases ha'
          exact h1 rfl v a rfl ha
    | fin v =>
      obtain ⟨x, hx⟩ := fr
      refine ⟨by rw [hx]; exact ⟨hp.1, hp.2, hp.3⟩, ?_⟩
      cases b with
      | true => rw [hx]; exact hq
      | false =>
        show Planar (Boundary.setEnd v w.self).2.fin
        rcases hend v w.self with he | ⟨a, ha, he⟩
        · rw [he]; exact hq
        · rw [he]
          intro a' ha'
          cases ha'
          exact h2 rfl v a rfl ha
    | setInitCurve =>
      have := same ref.1
      show PlanarState (BWorld.obj Boundary.setInitCurve w).2.self ∧
        (if b then Planar (BWorld.obj Boundary.setInitCurve w).2.self.start
          else Planar (BWorld.obj Boundary.setInitCurve w).2.self.fin)
      rw [this]
      exact ⟨hp, hq⟩
    | parameterize =>
      have := same ref.2.1
      show PlanarState (BWorld.obj (Boundary.parameterize env) w).2.self ∧
        (if b then Planar (BWorld.obj (Boundary.parameterize env) w).2.self.start
          else Planar (BWorld.obj (Boundary.parameterize env) w).2.self.fin)
      rw [this]
      exact ⟨hp, hq⟩
    | fit =>
      have := same ref.2.2
      show PlanarState (BWorld.obj (Boundary.fit env) w).2.self ∧
        (if b then Planar (BWorld.obj (Boundary.fit env) w).2.self.start
          else Planar (BWorld.obj (Boundary.fit env) w).2.self.fin)
      rw [this]
      exact ⟨hp, hq⟩
    | save name | load name =>
      rw [fr]
      exact ⟨hp, hq⟩
  have hhist : ∀ (b : Bool) (ops : List (BOp K × FS)),
      (b = true → ∀ o ∈ ops, ∀ v a, o.1 = .start v → v.toArray = .ok a → a.data.length < 3) →
      (b = false → ∀ o ∈ ops, ∀ v a, o.1 = .fin v → v.toArray = .ok a → a.data.length < 3) →
      ∀ w : BWorld K, PlanarState w.self →
        (if b then Planar w.self.start else Planar w.self.fin) →
        PlanarState (Boundary.history env w ops).self ∧
        (if b then Planar (Boundary.history env w ops).self.start
          else Planar (Boundary.history env w ops).self.fin) := by
    intro b ops
    induction ops with
    | nil => exact fun _ _ w hp hq => ⟨hp, hq⟩
    | cons o ops ih =>
      intro h1 h2 w hp hq
      have := hrun b o.1 { w with fs := o.2 } (fun hb => h1 hb o List.mem_cons_self)
        (fun hb => h2 hb o List.mem_cons_self) hp hq
      exact ih (fun hb o' ho' => h1 hb o' (List.mem_cons_of_mem _ ho'))
        (fun hb o' ho' => h2 hb o' (List.mem_cons_of_mem _ ho')) _ this.1 this.2
  obtain ⟨hp, hq⟩ : PlanarState (Boundary.history env ⟨Boundary.new, fs⟩ ops).self ∧
      (Planar (Boundary.history env ⟨Boundary.new, fs⟩ ops).self.start ∨
        Planar (Boundary.history env ⟨Boundary.new, fs⟩ ops).self.fin) := by
    have h0 : PlanarState (⟨Boundary.new, fs⟩ : BWorld K).self := ⟨rfl, rfl, rfl⟩
    have hn : Planar (K := K) none := fun a ha => by cases ha
    rcases h with h | h
    · have := hhist true ops (fun _ => h) (fun hb => by cases hb) _ h0 hn
      exact ⟨this.1, Or.inl this.2⟩
    · have := hhist false ops (fun hb => by cases hb) (fun _ => h) _ h0 hn
      exact ⟨this.1, Or.inr this.2⟩
  refine ⟨hp.1, hp.3, hp.2, fun op hop => ?_⟩
  have ref := planar_refuses env hq hp
  have lift : ∀ {m : Meth (Boundary K) Unit} {w : BWorld K}, (∃ e, m w.self = (.error e, w.self)) →
      ∃ e, BWorld.obj m w = (.error e, w) := by
    rintro m w ⟨e, he⟩
    refine ⟨e, ?_⟩
    show ((m w.self).1, ({ w with self := (m w.self).2 } : BWorld K)) = _
    rw [he]
  rcases hop with rfl | rfl | rfl
  · exact lift ref.1
  · exact lift ref.2.1
  · exact lift ref.2.2

/-- The data is unset or a non-empty array of points of the plane, and nothing has been fitted. -/
structure PlanarData (s : Boundary K) : Prop where
  data : ∀ a, s.data = some a → ∃ m, a.shape = [m, 2] ∧ 0 < m
  fitted : s.fitCurve = none
  param : s.paramData = none

theorem planarData_setInitCurve : Meth.Keeps PlanarData (Boundary.setInitCurve (K := K)) :=
  Meth.Keeps.bind (Meth.Keeps.read _) fun _ => Meth.Keeps.lift_bind fun _ _ =>
    Meth.Keeps.assign fun _ hs => ⟨hs.1, hs.2, hs.3⟩

/-- In such a state `parameterize` raises. -/
theorem planarData_parameterize (env : DataEnv K) {s : Boundary K} (hs : PlanarData s) :
    Raises (Boundary.parameterize env s).1 ∧ PlanarData (Boundary.parameterize env s).2 := by
  have tail : ∀ (c : Curve K) (t : Boundary K), PlanarData t →
      ∃ e, ((Meth.read id : Meth (Boundary K) _) >>= fun s =>
        (Meth.lift (rowsOf s.data) : Meth (Boundary K) _) >>= fun rows =>
        (Meth.lift (parameterizeCurve env.fit.num (env.fit.curveLike c) rows) :
          Meth (Boundary K) _) >>= fun pd =>
        Meth.assign fun s => { s with paramData := some pd }) t = (.error e, t) := by
    intro c t ht
    rw [Meth.read_bind]
    show ∃ e, ((Meth.lift (rowsOf t.data) : Meth (Boundary K) _) >>= _) t = _
    cases hd : t.data with
    | none => exact ⟨_, rfl⟩
    | some a =>
      obtain ⟨m, ha, hm⟩ := ht.data a hd
      obtain ⟨e, he⟩ := parameterizeCurve_planar env.fit.num (env.fit.curveLike c) ha hm
      show ∃ e, ((Meth.lift (parameterizeCurve env.fit.num (env.fit.curveLike c) a.rows) :
        Meth (Boundary K) _) >>= _) t = _
      rw [he]
      exact ⟨e, rfl⟩
  unfold Boundary.parameterize
  rw [Meth.read_bind, Meth.bind_apply]
  have hk : Meth.Keeps PlanarData (if (id s).initCurve = none ∧ (id s).fitCurve = none then do
      Boundary.setInitCurve
      let s ← Meth.read id
      Meth.lift (curveOf s.initCurve)
    else if (id s).fitCurve = none then Meth.lift (curveOf (id s).initCurve)
    else Meth.lift (curveOf (id s).fitCurve)) := by
    split
    · exact Meth.Keeps.bind planarData_setInitCurve fun _ => Meth.Keeps.bind (Meth.Keeps.read _)
        fun _ => Meth.Keeps.lift _
    · split <;> exact Meth.Keeps.lift _
  have hk' := hk s hs
  split
  · rename_i c t he
    rw [he] at hk'
    obtain ⟨e, h⟩ := tail c t hk'
    rw [h]
    exact ⟨⟨e, rfl⟩, hk'⟩
  · rename_i e t he
    rw [he] at hk'
    exact ⟨⟨e, rfl⟩, hk'⟩

/-- In such a state `fit` raises. -/
theorem planarData_fit (env : DataEnv K) {s : Boundary K} (hs : PlanarData s) :
    Raises (Boundary.fit env s).1 ∧ PlanarData (Boundary.fit env s).2 := by
  unfold Boundary.fit
  rw [Meth.read_bind, Meth.bind_apply]
  have hk : Meth.Keeps PlanarData (if (id s).initCurve = none then Boundary.setInitCurve (K := K)
      else Meth.pure ()) := by
    split
    · exact planarData_setInitCurve
    · exact Meth.Keeps.pure _
  have hk' := hk s hs
  split
  · rename_i t he
    rw [he] at hk'
    obtain ⟨e, h⟩ := finalFit_planar env hk'.data
    rw [Meth.read_bind]
    show Raises ((Meth.lift (finalFit env t) >>= _ : Meth (Boundary K) Unit) t).1 ∧
      PlanarData ((Meth.lift (finalFit env t) >>= _ : Meth (Boundary K) Unit) t).2
    rw [h]
    exact ⟨⟨e, rfl⟩, hk'⟩
  · rename_i e t he
    rw [he] at hk'
    exact ⟨⟨e, rfl⟩, hk'⟩

/-- **C115.** The setter of `data` accepts arrays of points of the plane, but a problem whose data is
only ever set to (non-empty) such arrays is never fitted: in every history there is no fitted curve and
no parameterized data, and `parameterize` and `fit` raise.  This holds for every numerical environment,
also with derivatives that work. -/
theorem planar_data_never_fits (env : DataEnv K) (fs : FS) (ops : List (BOp K × FS))
    (h : ∀ o ∈ ops, ∀ v a, o.1 = .data v → v.toArray = .ok a →
      ∀ m c, a.shape = [m, c] → 0 < m ∧ c = 2) :
    let w := Boundary.history env ⟨Boundary.new, fs⟩ ops
    w.self.fitCurve = none ∧ w.self.paramData = none ∧
    Raises (BOp.run env .parameterize w).1 ∧ Raises (BOp.run env .fit w).1 := by
  have hrun : ∀ (op : BOp K) (w : BWorld K),
      (∀ v a, op = .data v → v.toArray = .ok a → ∀ m c, a.shape = [m, c] → 0 < m ∧ c = 2) →
      PlanarData w.self → PlanarData (op.run env w).2.self := by
    intro op w ho hw
    have fr := (boundary_frame env op w).2
    cases op with
    | degree v | start v | fin v | numCtrl v | fitMethod v | setInitCurve =>
      obtain ⟨x, hx⟩ := fr
      rw [hx]
      exact ⟨hw.1, hw.2, hw.3⟩
    | save name | load name => rw [fr]; exact hw
    | parameterize => exact (planarData_parameterize env hw).2
    | fit => exact (planarData_fit env hw).2
    | data v =>
      refine BWorld.keeps_obj ?_ w hw
      refine Meth.Keeps.lift_bind fun a ha => ?_
      split
      · exact Meth.Keeps.raise _
      · rename_i h2
        refine Meth.Keeps.lift_bind fun _ _ => ?_
        split
        · exact Meth.Keeps.raise _
        · refine Meth.Keeps.assign fun s hs => ⟨fun a' ha' => ?_, hs.2, hs.3⟩
          cases ha'
          obtain ⟨m, c, hmc⟩ : ∃ m c, a.shape = [m, c] :=
            List.length_eq_two.1 (not_not.1 h2)
          obtain ⟨hm, rfl⟩ := ho v a rfl ha m c hmc
          exact ⟨m, hmc, hm⟩
  have gen : ∀ (ops : List (BOp K × FS)) (w : BWorld K),
      (∀ o ∈ ops, ∀ v a, o.1 = .data v → v.toArray = .ok a →
        ∀ m c, a.shape = [m, c] → 0 < m ∧ c = 2) → PlanarData w.self →
      PlanarData (Boundary.history env w ops).self := by
    intro ops
    induction ops with
    | nil => exact fun w _ hw => hw
    | cons o ops ih =>
      exact fun w ho hw => ih _ (fun o' h' => ho o' (List.mem_cons_of_mem _ h'))
        (hrun o.1 _ (ho o List.mem_cons_self) hw)
  have hp := gen ops ⟨Boundary.new, fs⟩ h ⟨fun _ e => (by cases e), rfl, rfl⟩
  exact ⟨hp.2, hp.3, (planarData_parameterize env hp).1, (planarData_fit env hp).1⟩

end

/-! ## Examples -/

/-- A problem in the plane: every assignment is accepted. -/
def exPlanar : List (BOp ℚ × FS) :=
  [(.degree (.int 2), exNoFiles), (.numCtrl (.int 4), exNoFiles),
   (.data (.arr ⟨[3, 2], [1/4, 1, 1/2, 2, 3/4, 1]⟩), exNoFiles),
   (.start (.arr ⟨[2], [0, 0]⟩), exNoFiles), (.fin (.arr ⟨[2], [1, 0]⟩), exNoFiles)]

example :
    (Boundary.history exDataEnv ⟨Boundary.new, exNoFiles⟩ exPlanar).self
      = ⟨some 2, some ⟨[3, 2], [1/4, 1, 1/2, 2, 3/4, 1]⟩, some ⟨[2], [0, 0]⟩, some ⟨[2], [1, 0]⟩,
          some 4, "fixed", none, none, none⟩ := by decide +kernel

example : (BOp.run exDataEnv .fit
    (Boundary.history exDataEnv ⟨Boundary.new, exNoFiles⟩ exPlanar)).1 = .error .indexError := by
  decide +kernel

/-- Points of the plane as data with ends in space. -/
example : (BOp.run exDataEnv .fit (Boundary.history exDataEnv ⟨Boundary.new, exNoFiles⟩
    (exPlanar ++ [(.start (.arr ⟨[3], [0, 0, 0]⟩), exNoFiles),
      (.fin (.arr ⟨[3], [1, 0, 0]⟩), exNoFiles)]))).1 = .error .valueError := by decide +kernel

/-- `set_init_curve` runs from `start` to `end`. -/
example : (((BOp.run exDataEnv .setInitCurve (Boundary.history exDataEnv ⟨Boundary.new, exNoFiles⟩
    (exPlanar ++ [(.start (.arr ⟨[3], [0, 0, 0]⟩), exNoFiles),
      (.fin (.arr ⟨[3], [3, 6, 9]⟩), exNoFiles)]))).2.self.initCurve.map (fun c : Curve ℚ => c.ctrlpts)))
      = some [[0, 0, 0], [1, 2, 3], [2, 4, 6], [3, 6, 9]] := by decide +kernel

/-- The setters of an `InteriorProblem`. -/
example : (Interior.history exDataEnv ⟨(Interior.new : Interior ℚ), exNoFiles⟩
    [(.degree (.int 2), exNoFiles), (.data (.arr exPts), exNoFiles), (.numCtrl (.int 3), exNoFiles),
     (.fit, exNoFiles), (.degree (.int 0), exNoFiles)]).self
      = { (Interior.new : Interior ℚ) with degree := some 2, data := some exPts, numCtrl := some 3 } := by
  decide +kernel

end PySpline
