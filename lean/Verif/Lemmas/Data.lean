import Verif.SpecData
import Verif.Lemmas.Meth
import Verif.Props.KnotFit

/-!
# Lemmas about the methods of the problem objects
-/

set_option linter.unusedSectionVars false

namespace PySpline

open Spec

section
variable {K : Type} [Field K] [LinearOrder K] [IsStrictOrderedRing K] [FloorRing K]

theorem toInt_nonneg {pi : Text → Py ℤ} {v : Val K} {z : ℤ} (h0 : v.leZero = .ok false)
    (h : v.toInt pi = .ok z) : 0 ≤ z := by
  have key : ∀ x : K, ¬ x ≤ 0 → 0 ≤ pyTrunc x := by
    intro x hx
    have hx0 : 0 ≤ x := (lt_of_not_ge hx).le
    unfold pyTrunc
    rw [if_pos hx0]
    exact Int.floor_nonneg.2 hx0
  unfold Val.leZero at h0
  unfold Val.toInt at h
  cases v with
  | int z' => cases h; have := of_decide_eq_false (Except.ok.inj h0); omega
  | float x => cases h; exact key _ (of_decide_eq_false (Except.ok.inj h0))
  | arr a =>
    obtain ⟨sh, d⟩ := a
    match d, h0, h with
    | [x], h0, h => cases h; exact key _ (of_decide_eq_false (Except.ok.inj h0))
    | [], h0, h => cases h
    | _ :: _ :: _, h0, h => cases h
  | none => cases h
  | nan => cases h
  | inf => cases h
  | str => cases h0
  | seq => cases h
  | other => cases h

theorem shape2_of_checks {a : Arr K} {last : ℕ} (h2 : ¬ a.shape.length ≠ 2)
    (hl : pyGet a.shape (-1) = .ok last) (h : ¬¬(last = 2 ∨ last = 3)) :
    ∃ m, a.shape = [m, 2] ∨ a.shape = [m, 3] := by
  obtain ⟨shape, d⟩ := a
  match shape, h2 with
  | [m, c], _ =>
    cases hl
    rcases not_not.1 h with h | h
    · exact ⟨m, Or.inl (by simpa using h)⟩
    · exact ⟨m, Or.inr (by simpa using h)⟩
  | [], h2 => simp at h2
  | [_], h2 => simp at h2
  | _ :: _ :: _ :: _, h2 => simp at h2

theorem shape1_of_checks {a : Arr K} {len : ℕ} (h1 : ¬ a.shape.length ≠ 1)
    (hl : pyGet a.shape 0 = .ok len) (h : ¬¬(len = 2 ∨ len = 3)) :
    a.shape = [2] ∨ a.shape = [3] := by
  obtain ⟨shape, d⟩ := a
  match shape, h1 with
  | [m], _ =>
    cases hl
    rcases not_not.1 h with h | h
    · exact Or.inl (by simpa using h)
    · exact Or.inr (by simpa using h)
  | [], h1 => simp at h1
  | _ :: _ :: _, h1 => simp at h1

namespace Boundary

theorem keeps_setDegree (env : DataEnv K) (v : Val K) :
    Meth.Keeps BoundaryInv (setDegree env v) := by
  refine Meth.Keeps.lift_bind fun b hb => ?_
  cases b with
  | true => exact Meth.Keeps.raise _
  | false =>
    refine Meth.Keeps.lift_bind fun z hz => Meth.Keeps.assign fun s hs => ?_
    exact ⟨hs.data, hs.start, hs.fin, hs.numCtrl, hs.fitMethod,
      fun d hd => by cases hd; exact toInt_nonneg hb hz⟩

theorem keeps_setData (v : Val K) : Meth.Keeps BoundaryInv (setData v) := by
  refine Meth.Keeps.lift_bind fun a _ => ?_
  split
  · exact Meth.Keeps.raise _
  · rename_i h2
    refine Meth.Keeps.lift_bind fun last hl => ?_
    split
    · exact Meth.Keeps.raise _
    · rename_i h3
      exact Meth.Keeps.assign fun s hs => ⟨fun a' ha => by cases ha; exact shape2_of_checks h2 hl h3,
        hs.start, hs.fin, hs.numCtrl, hs.fitMethod, hs.degree⟩

theorem keeps_setStart (v : Val K) : Meth.Keeps BoundaryInv (setStart v) := by
  refine Meth.Keeps.lift_bind fun a _ => ?_
  split
  · exact Meth.Keeps.raise _
  · rename_i h2
    refine Meth.Keeps.lift_bind fun last hl => ?_
    split
    · exact Meth.Keeps.raise _
    · rename_i h3
      exact Meth.Keeps.assign fun s hs => ⟨hs.data,
        fun a' ha => by cases ha; exact shape1_of_checks h2 hl h3, hs.fin, hs.numCtrl, hs.fitMethod,
        hs.degree⟩

theorem keeps_setEnd (v : Val K) : Meth.Keeps BoundaryInv (setEnd v) := by
  refine Meth.Keeps.lift_bind fun a _ => ?_
  split
  · exact Meth.Keeps.raise _
  · rename_i h2
    refine Meth.Keeps.lift_bind fun last hl => ?_
    split
    · exact Meth.Keeps.raise _
    · rename_i h3
      exact Meth.Keeps.assign fun s hs => ⟨hs.data, hs.start,
        fun a' ha => by cases ha; exact shape1_of_checks h2 hl h3, hs.numCtrl, hs.fitMethod,
        hs.degree⟩

theorem keeps_setNumCtrl (env : DataEnv K) (v : Val K) :
    Meth.Keeps BoundaryInv (setNumCtrl env v) := by
  refine Meth.Keeps.lift_bind fun z _ => ?_
  split
  · exact Meth.Keeps.raise _
  · rename_i h
    exact Meth.Keeps.assign fun s hs => ⟨hs.data, hs.start, hs.fin,
      fun n hn => by cases hn; omega, hs.fitMethod, hs.degree⟩

theorem keeps_setFitMethod (v : Val K) : Meth.Keeps BoundaryInv (setFitMethod v) := by
  unfold setFitMethod
  split
  · split
    · exact Meth.Keeps.raise _
    · rename_i h
      exact Meth.Keeps.assign fun s hs => ⟨hs.data, hs.start, hs.fin, hs.numCtrl, not_not.1 h, hs.degree⟩
  · exact Meth.Keeps.raise _

theorem keeps_setInitCurve : Meth.Keeps BoundaryInv (setInitCurve (K := K)) :=
  Meth.Keeps.bind (Meth.Keeps.read _) fun _ => Meth.Keeps.lift_bind fun _ _ =>
    Meth.Keeps.assign fun _ hs => ⟨hs.data, hs.start, hs.fin, hs.numCtrl, hs.fitMethod, hs.degree⟩

theorem keeps_parameterize (env : DataEnv K) : Meth.Keeps BoundaryInv (parameterize env) := by
  refine Meth.Keeps.bind (Meth.Keeps.read _) fun s => Meth.Keeps.bind ?_ fun c =>
    Meth.Keeps.bind (Meth.Keeps.read _) fun s => Meth.Keeps.lift_bind fun _ _ =>
    Meth.Keeps.lift_bind fun _ _ =>
    Meth.Keeps.assign fun _ hs => ⟨hs.data, hs.start, hs.fin, hs.numCtrl, hs.fitMethod, hs.degree⟩
  split
  · exact Meth.Keeps.bind keeps_setInitCurve fun _ => Meth.Keeps.bind (Meth.Keeps.read _) fun _ =>
      Meth.Keeps.lift _
  · split
    · exact Meth.Keeps.lift _
    · exact Meth.Keeps.lift _

theorem keeps_fit (env : DataEnv K) : Meth.Keeps BoundaryInv (Boundary.fit env) := by
  refine Meth.Keeps.bind (Meth.Keeps.read _) fun s => Meth.Keeps.bind ?_ fun _ =>
    Meth.Keeps.bind (Meth.Keeps.read _) fun s => Meth.Keeps.lift_bind fun _ _ =>
    Meth.Keeps.lift_bind fun _ _ => Meth.Keeps.bind (Meth.Keeps.assign fun _ hs =>
      ⟨hs.data, hs.start, hs.fin, hs.numCtrl, hs.fitMethod, hs.degree⟩) fun _ =>
    Meth.Keeps.bind (keeps_setNumCtrl env _) fun _ => keeps_parameterize env
  split
  · exact keeps_setInitCurve
  · exact Meth.Keeps.pure _

end Boundary

theorem BWorld.keeps_obj {α : Type} {I : Boundary K → Prop} {m : Meth (Boundary K) α}
    (h : Meth.Keeps I m) (w : BWorld K) (hw : I w.self) : I (BWorld.obj m w).2.self := h w.self hw

theorem save_self (env : DataEnv K) (name : String) (w : BWorld K) :
    (Boundary.save env name w).2.self = w.self := by
  unfold Boundary.save
  rw [Meth.read_bind]
  cases w.self.fitCurve <;> rfl

theorem load_self (env : DataEnv K) (name : String) (w : BWorld K) :
    (Boundary.load env name w).2.self = w.self := by
  unfold Boundary.load
  rw [Meth.read_bind]
  cases w.self.fitCurve with
  | some c => rfl
  | none =>
    show ((BWorld.files (readCurve env.fmt name) >>= fun _ => Meth.raise Err.attributeError :
      Meth (BWorld K) Unit) w).2.self = w.self
    rw [Meth.bind_apply]
    split
    · rename_i h
      have := congrArg (fun r => r.2.self) h
      exact this.symm
    · rename_i h
      have := congrArg (fun r => r.2.self) h
      exact this.symm

theorem BOp.keeps (env : DataEnv K) (op : BOp K) (w : BWorld K) (hw : BoundaryInv w.self) :
    BoundaryInv (op.run env w).2.self := by
  cases op with
  | degree v => exact BWorld.keeps_obj (Boundary.keeps_setDegree env v) w hw
  | data v => exact BWorld.keeps_obj (Boundary.keeps_setData v) w hw
  | start v => exact BWorld.keeps_obj (Boundary.keeps_setStart v) w hw
  | fin v => exact BWorld.keeps_obj (Boundary.keeps_setEnd v) w hw
  | numCtrl v => exact BWorld.keeps_obj (Boundary.keeps_setNumCtrl env v) w hw
  | fitMethod v => exact BWorld.keeps_obj (Boundary.keeps_setFitMethod v) w hw
  | setInitCurve => exact BWorld.keeps_obj Boundary.keeps_setInitCurve w hw
  | parameterize => exact BWorld.keeps_obj (Boundary.keeps_parameterize env) w hw
  | fit => exact BWorld.keeps_obj (Boundary.keeps_fit env) w hw
  | save name => show BoundaryInv (Boundary.save env name w).2.self; rw [save_self]; exact hw
  | load name => show BoundaryInv (Boundary.load env name w).2.self; rw [load_self]; exact hw

theorem atomic_arr {σ : Type} (x : Py (Arr K)) (n : ℕ) (i : ℤ) (g : Arr K → σ → σ) :
    Meth.Atomic ((Meth.lift x : Meth σ _) >>= fun a =>
          if a.shape.length ≠ n then Meth.raise .valueError
          else ((Meth.lift (pyGet a.shape i) : Meth σ _) >>= fun last =>
            if ¬ (last = 2 ∨ last = 3) then Meth.raise .valueError else Meth.assign (g a))) := by
  refine Meth.Atomic.lift_bind fun a _ => ?_
  split
  · exact Meth.Atomic.raise _
  · refine Meth.Atomic.lift_bind fun last hl => ?_
    split
    · exact Meth.Atomic.raise _
    · exact Meth.Atomic.assign _

theorem BWorld.atomic_obj {α : Type} {m : Meth (Boundary K) α} (h : Meth.Atomic m) :
    Meth.Atomic (BWorld.obj m) := fun w e he => by
  have := h w.self e he
  show ({ w with self := (m w.self).2 } : BWorld K) = w
  rw [this]

theorem readCurve_fs (fm : Fmt K) (name : String) (fs : FS) : (readCurve fm name fs).2 = fs := by
  unfold readCurve
  rw [Meth.bind_apply]
  unfold openRead
  cases fs name with
  | none => rfl
  | some t => rfl

/-- What `parameterize` does once there is a fit curve. -/
theorem parameterize_fitted {env : DataEnv K} {s : Boundary K} {c : Curve K}
    (h : s.fitCurve = some c) :
    Boundary.parameterize env s = match rowsOf s.data >>= fun rows =>
        parameterizeCurve env.fit.num (env.fit.curveLike c) rows with
      | .ok pd => (.ok (), { s with paramData := some pd })
      | .error e => (.error e, s) := by
  unfold Boundary.parameterize
  rw [Meth.read_bind]
  have h1 : ¬ ((id s).initCurve = none ∧ (id s).fitCurve = none) := by
    rintro ⟨-, h2⟩; exact absurd (h.symm.trans h2) (by simp)
  have h2 : ¬ (id s).fitCurve = none := by
    intro h2; exact absurd (h.symm.trans h2) (by simp)
  rw [if_neg h1, if_neg h2]
  show ((Meth.lift (curveOf s.fitCurve) : Meth (Boundary K) _) >>= _) s = _
  rw [h]
  show ((Meth.lift (rowsOf s.data) : Meth (Boundary K) _) >>= _) s = _
  cases rowsOf s.data with
  | error e => rfl
  | ok rows =>
    rw [Meth.lift_ok_bind, ok_bind]
    cases parameterizeCurve env.fit.num (env.fit.curveLike c) rows with
    | error e => rfl
    | ok pd => rw [← h]; rfl

/-- What `fit` does once there is an initial curve. -/
theorem fit_eq {env : DataEnv K} {s : Boundary K} (h : s.initCurve ≠ none) :
    Boundary.fit env s = match finalFit env s with
      | .error e => (.error e, s)
      | .ok c =>
        match s.degree with
        | none => (.error .typeError, s)
        | some d =>
          if (c.kv.length : ℤ) - d - 1 ≤ 3 then (.error .valueError, { s with fitCurve := some c })
          else match rowsOf s.data >>= fun rows =>
              parameterizeCurve env.fit.num (env.fit.curveLike c) rows with
            | .ok pd => (.ok (), { s with
                fitCurve := some c
                paramData := some pd
                numCtrl := some ((c.kv.length : ℤ) - d - 1) })
            | .error e => (.error e, { s with
                fitCurve := some c
                numCtrl := some ((c.kv.length : ℤ) - d - 1) }) := by
  obtain ⟨deg, dat, st, fi, nc, fm, ic, pd0, fc⟩ := s
  dsimp only at h ⊢
  set s : Boundary K := ⟨deg, dat, st, fi, nc, fm, ic, pd0, fc⟩ with hs
  unfold Boundary.fit
  rw [Meth.read_bind, if_neg (show ¬ (id s).initCurve = none from h)]
  show ((Meth.lift (finalFit env s) : Meth (Boundary K) _) >>= _) s = _
  cases finalFit env s with
  | error e => rfl
  | ok c =>
    rw [Meth.lift_ok_bind]
    cases deg with
    | none => rfl
    | some d =>
      have hd : (id s).degree = some d := rfl
      rw [hd, Meth.lift_ok_bind, Meth.assign_bind]
      dsimp only
      set t : Boundary K := { s with fitCurve := some c } with ht
      have hn : Boundary.setNumCtrl env (.int ((c.kv.length : ℤ) - d - 1)) t
          = if (c.kv.length : ℤ) - d - 1 ≤ 3 then (.error .valueError, t)
            else (.ok (), { t with numCtrl := some ((c.kv.length : ℤ) - d - 1) }) := by
        show (if (c.kv.length : ℤ) - d - 1 ≤ 3 then (Meth.raise .valueError : Meth (Boundary K) Unit)
          else _) t = _
        split <;> rfl
      by_cases hle : (c.kv.length : ℤ) - d - 1 ≤ 3
      · rw [if_pos hle] at hn ⊢
        rw [Meth.bind_error hn]
      · rw [if_neg hle] at hn ⊢
        rw [Meth.bind_ok hn, parameterize_fitted (c := c) rfl]

/-- The loop with a larger target that the result still meets takes the same path. -/
theorem knotFitLoop_target {env : FitEnv K} {data : List (List K)} {N M : ℤ} {fuel : ℕ} :
    ∀ {c c' : Curve K}, knotFitLoop env data N fuel c = .ok c' → N ≤ M →
      M ≤ c'.ctrlpts.length → knotFitLoop env data M fuel c = .ok c' := by
  induction fuel with
  | zero => intro c c' h; cases h
  | succ fuel ih =>
    intro c c' h hNM hM
    unfold knotFitLoop at h ⊢
    obtain ⟨rows, hr, h⟩ := bind_eq_ok h
    obtain ⟨c1, h1, h⟩ := bind_eq_ok h
    rw [hr, ok_bind, h1, ok_bind]
    split at h
    · cases h
      rw [if_pos hM]
    · rename_i hN
      rw [if_neg (by omega)]
      obtain ⟨ks, hks, h⟩ := bind_eq_ok h
      obtain ⟨c2, h2, h⟩ := bind_eq_ok h
      rw [hks, ok_bind, h2, ok_bind]
      exact ih h hNM hM

theorem ruledSurface_none (b : Option (Fitted K)) (d n : Option ℤ) :
    ruledSurface none b d n = .error .attributeError := rfl

theorem setInitSurface_inv {s : Interior K} (h : InteriorInv s) :
    Interior.setInitSurface s = (.error .attributeError, s) := by
  unfold Interior.setInitSurface
  rw [Meth.read_bind]
  show ((Meth.lift (ruledSurface s.top s.bottom s.degree s.numCtrl) : Meth (Interior K) _) >>= _) s = _
  rw [h.top]
  rfl

theorem interior_fit_inv (env : DataEnv K) {s : Interior K} (h : InteriorInv s) :
    Interior.fit env s = (.error .attributeError, s) := by
  unfold Interior.fit
  rw [Meth.read_bind, if_pos (by exact h.initSurface), Meth.bind_error (setInitSurface_inv h)]

theorem interior_parameterize_inv (env : DataEnv K) {s : Interior K} (h : InteriorInv s) :
    Interior.parameterize env s = (.error .attributeError, s) := by
  unfold Interior.parameterize
  rw [Meth.read_bind, if_pos (by exact ⟨h.initSurface, h.fitSurface⟩)]
  have : ((do
      Interior.setInitSurface
      let s ← Meth.read id
      Meth.lift (attrOf s.initSurface) : Meth (Interior K) (Surface K)) s)
      = (.error .attributeError, s) := Meth.bind_error (setInitSurface_inv h) _
  rw [Meth.bind_error this]

theorem interior_vtk_none (f : K → K → Py (List K)) (hf : ∀ u v, f u v = .error .attributeError) :
    vtkSamples f 100 = .error .attributeError := by
  have hne : ((100 : ℤ) : K) ≠ 0 := by norm_num
  have hd : pyDiv (1 : K) ((100 : ℤ) : K) = .ok (1 / 100) := by
    unfold pyDiv
    rw [if_neg hne]
    norm_num
  unfold vtkSamples
  rw [hd, ok_bind]
  have ha : ∃ l : List K, arange (0 : K) (1 + 1 / 100) (1 / 100) = 0 :: l := by
    unfold arange
    have : ⌈((1 + 1 / 100 : K) - 0) / (1 / 100)⌉ = 101 := by
      rw [show ((1 + 1 / 100 : K) - 0) / (1 / 100) = ((101 : ℤ) : K) by norm_num, Int.ceil_intCast]
    rw [this]
    rw [show (101 : ℤ).toNat = 100 + 1 from rfl, List.range_succ_eq_map, List.map_cons]
    exact ⟨_, by rw [Nat.cast_zero, zero_mul, add_zero]⟩
  obtain ⟨l, hl⟩ := ha
  dsimp only
  rw [hl]
  have inner : ∀ (st : List (List K) × ℕ) (u : K), forL (0 :: l) st (fun v x => do
      let q ← f u v
      let row := q ++ [u, v]
      let _ ← (if row.length = 5 then .ok () else .error .valueError : Py Unit)
      let spts ← pySet x.1 (x.2 : ℤ) row
      Except.ok (spts, x.2 + 1)) = .error .attributeError := by
    intro st u
    unfold forL
    rw [List.foldlM_cons]
    simp only [hf]
    rfl
  have outer : ∀ (st : List (List K) × ℕ), forL (0 :: l) st (fun u st => forL (0 :: l) st
      (fun v x => do
        let q ← f u v
        let row := q ++ [u, v]
        let _ ← (if row.length = 5 then .ok () else .error .valueError : Py Unit)
        let spts ← pySet x.1 (x.2 : ℤ) row
        Except.ok (spts, x.2 + 1))) = .error .attributeError := by
    intro st
    rw [forL, List.foldlM_cons, inner]
    rfl
  erw [outer]
  rfl

theorem IOp.step (env : DataEnv K) (op : IOp K) (w : IWorld K) (hw : InteriorInv w.self) :
    InteriorInv (op.run env w).2.self ∧ (op.run env w).2.fs = w.fs ∧
      (op.isAction = true → ∃ e, op.run env w = (.error e, w)) := by
  have obj : ∀ {m : Meth (Interior K) Unit}, Meth.Keeps InteriorInv m →
      InteriorInv (IWorld.obj m w).2.self ∧ (IWorld.obj m w).2.fs = w.fs := fun h => ⟨h _ hw, rfl⟩
  have act : ∀ {m : Meth (IWorld K) Unit} {e : Err}, m w = (.error e, w) →
      InteriorInv (m w).2.self ∧ (m w).2.fs = w.fs ∧ (true = true → ∃ e, m w = (.error e, w)) := by
    intro m e h
    rw [h]
    exact ⟨hw, rfl, fun _ => ⟨e, rfl⟩⟩
  have zoom : ∀ {m : Meth (Interior K) Unit} {e : Err}, m w.self = (.error e, w.self) →
      IWorld.obj m w = (.error e, w) := by
    intro m e h
    show ((m w.self).1, ({ w with self := (m w.self).2 } : IWorld K)) = _
    rw [h]
  cases op with
  | degree v =>
    have : Meth.Keeps InteriorInv (Interior.setDegree env v) := by
      refine Meth.Keeps.lift_bind fun b _ => ?_
      cases b with
      | true => exact Meth.Keeps.raise _
      | false => exact Meth.Keeps.lift_bind fun z _ =>
          Meth.Keeps.assign fun _ h => ⟨h.1, h.2, h.3, h.4, h.5⟩
    exact ⟨(obj this).1, (obj this).2, fun h => by cases h⟩
  | data v =>
    have : Meth.Keeps InteriorInv (Interior.setData v) := by
      refine Meth.Keeps.lift_bind fun a _ => ?_
      split
      · exact Meth.Keeps.raise _
      · refine Meth.Keeps.lift_bind fun last hl => ?_
        split
        · exact Meth.Keeps.raise _
        · exact Meth.Keeps.assign fun _ h => ⟨h.1, h.2, h.3, h.4, h.5⟩
    exact ⟨(obj this).1, (obj this).2, fun h => by cases h⟩
  | numCtrl v =>
    have : Meth.Keeps InteriorInv (Interior.setNumCtrl env v) := by
      refine Meth.Keeps.lift_bind fun z _ => ?_
      split
      · exact Meth.Keeps.raise _
      · exact Meth.Keeps.assign fun _ h => ⟨h.1, h.2, h.3, h.4, h.5⟩
    exact ⟨(obj this).1, (obj this).2, fun h => by cases h⟩
  | top a =>
    refine act (e := if a.isBoundary then .attributeError else .typeError) (zoom ?_)
    cases a <;> rfl
  | bottom a =>
    refine act (e := if a.isBoundary then .attributeError else .typeError) (zoom ?_)
    cases a <;> rfl
  | setInitSurface => exact act (zoom (setInitSurface_inv hw))
  | parameterize => exact act (zoom (interior_parameterize_inv env hw))
  | fit => exact act (zoom (interior_fit_inv env hw))
  | save name =>
    refine act (e := .valueError) ?_
    show Interior.save env name w = _
    unfold Interior.save
    rw [Meth.read_bind, hw.fitSurface]
    rfl
  | load name =>
    have hf : (IWorld.files (readCurve env.fmt name) w).2 = w := by
      show ({ w with fs := (readCurve env.fmt name w.fs).2 } : IWorld K) = w
      rw [readCurve_fs]
    have : ∃ e, Interior.load env name w = (.error e, w) := by
      unfold Interior.load
      rw [Meth.read_bind, hw.fitSurface]
      show ∃ e, (_ >>= fun _ => Meth.raise Err.attributeError : Meth (IWorld K) Unit) w = (.error e, w)
      rw [Meth.bind_apply]
      cases hr : IWorld.files (readCurve env.fmt name) w with
      | mk r s =>
        rw [hr] at hf
        subst hf
        cases r with
        | ok a => exact ⟨_, rfl⟩
        | error e => exact ⟨_, rfl⟩
    obtain ⟨e, he⟩ := this
    exact act he
  | vtk name =>
    refine act (e := .attributeError) ?_
    show Interior.vtk env name w = _
    unfold Interior.vtk surfToVtk
    rw [Meth.read_bind, interior_vtk_none _ fun u v => by rw [hw.fitSurface]; rfl]
    rfl

theorem initializeCurve_ok {s e : List K} {p n : ℕ} {c : Curve K}
    (h : initializeCurve s e p n = .ok c) :
    c.degree = p ∧ c.ctrlpts.length = n ∧ generateUniform p c.ctrlpts.length = .ok c.kv := by
  unfold initializeCurve at h
  split at h
  · cases h
  obtain ⟨_, -, h⟩ := bind_eq_ok h
  obtain ⟨_, -, h⟩ := bind_eq_ok h
  obtain ⟨xs, hx, h⟩ := bind_eq_ok h
  obtain ⟨_, -, h⟩ := bind_eq_ok h
  obtain ⟨_, -, h⟩ := bind_eq_ok h
  obtain ⟨ys, hy, h⟩ := bind_eq_ok h
  obtain ⟨_, -, h⟩ := bind_eq_ok h
  obtain ⟨_, -, h⟩ := bind_eq_ok h
  obtain ⟨zs, hz, h⟩ := bind_eq_ok h
  obtain ⟨pts, hp, h⟩ := bind_eq_ok h
  obtain ⟨kv, hk, h⟩ := bind_eq_ok h
  cases h
  have hl : xs.length = n := by
    unfold linspace at hx
    split at hx
    · cases hx
    · split at hx
      · cases hx
        simp
        omega
      · cases hx
        simp
  unfold columnStack3 at hp
  split at hp
  · cases hp
    exact ⟨rfl, by simp [hl], hk⟩
  · cases hp

end

end PySpline
