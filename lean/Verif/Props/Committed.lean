import Verif.Props.Data
import Verif.Props.Parameterize

/-!
# C91: no fit succeeds with the committed curve class
-/

set_option linter.unusedSectionVars false

namespace PySpline

open Spec

section
variable {K : Type} [Field K] [LinearOrder K] [IsStrictOrderedRing K]

/-- The fitting functions evaluate curves with the committed `BSplineCurve` class. -/
def FitEnv.Committed (env : FitEnv K) : Prop := ∃ norm : List K → K, ∀ c, env.curveLike c = c.like norm

theorem parameterize_committed {env : FitEnv K} (h : env.Committed) (c : Curve K)
    {data : List (List K)} (hd : data ≠ []) :
    Raises (parameterizeCurve env.num (env.curveLike c) data) := by
  obtain ⟨norm, hn⟩ := h
  rw [hn]
  exact parameterize_curve_bspline_raises _ _ _ _ hd

/-- **C91.** `fit_curve_knot_insertion` never returns a curve for non-empty data. -/
theorem fit_curve_knot_insertion_committed (fuel : ℕ) {env : FitEnv K} (h : env.Committed) (c : Curve K)
    {data : List (List K)} (hd : data ≠ []) (numPts : ℤ) :
    Raises (fitCurveKnotInsertion fuel env c data numPts) := by
  unfold fitCurveKnotInsertion
  cases fuel with
  | zero => exact ⟨_, rfl⟩
  | succ fuel =>
    unfold knotFitLoop
    exact Raises.bind_left (parameterize_committed h c hd)

/-- **C91.** `fit_curve_fixed_ctrlpts` never returns a curve for non-empty data. -/
theorem fit_curve_fixed_committed (fuel : ℕ) {env : FitEnv K} (h : env.Committed) (c : Curve K)
    {data : List (List K)} (hd : data ≠ []) : Raises (fitCurveFixed fuel env c data) := by
  unfold fitCurveFixed
  exact Raises.of_bind fun _ => Raises.of_bind fun _ => Raises.of_bind fun _ =>
    Raises.bind_left (fit_curve_knot_insertion_committed fuel h _ hd _)

end

section
variable {K : Type} [Field K] [LinearOrder K] [IsStrictOrderedRing K] [FloorRing K]

theorem final_fit_committed {env : DataEnv K} (h : env.fit.Committed) {s : Boundary K}
    (hs : ∀ a, s.data = some a → a.rows ≠ []) : Raises (finalFit env s) := by
  unfold finalFit
  refine Raises.of_bind fun c => ?_
  cases hd : s.data with
  | none => exact ⟨_, rfl⟩
  | some a =>
    have ha := hs a hd
    show Raises (if s.fitMethod = "adaptive" then knotInsertionOf env c a.rows s.numCtrl
      else fitCurveFixed env.fuel env.fit c a.rows)
    split
    · cases s.numCtrl with
      | some n => exact fit_curve_knot_insertion_committed _ h c ha n
      | none => exact Raises.bind_left (parameterize_committed h c ha)
    · exact fit_curve_fixed_committed _ h c ha

/-- Nothing has been fitted and the data is not empty. -/
def Unfitted (s : Boundary K) : Prop :=
  (∀ a, s.data = some a → a.rows ≠ []) ∧ s.fitCurve = none ∧ s.paramData = none

theorem Meth.Keeps.read_bind {σ α β : Type} {I : σ → Prop} {g : σ → α} {f : α → Meth σ β}
    (h : ∀ s, I s → I (f (g s) s).2) : Meth.Keeps I (Meth.read g >>= f) := fun s hs => h s hs

theorem unfitted_setInitCurve : Meth.Keeps Unfitted (Boundary.setInitCurve (K := K)) :=
  Meth.Keeps.bind (Meth.Keeps.read _) fun _ => Meth.Keeps.lift_bind fun _ _ =>
    Meth.Keeps.assign fun _ hs => hs

theorem unfitted_fit {env : DataEnv K} (h : env.fit.Committed) :
    Meth.Keeps Unfitted (Boundary.fit env) := by
  unfold Boundary.fit
  refine Meth.Keeps.bind (Meth.Keeps.read _) fun s => Meth.Keeps.bind ?_ fun _ =>
    Meth.Keeps.read_bind fun s hs => ?_
  · split
    · exact unfitted_setInitCurve
    · exact Meth.Keeps.pure _
  · obtain ⟨e, he⟩ := final_fit_committed h hs.1
    show Unfitted ((Meth.lift (finalFit env s) >>= _ : Meth (Boundary K) Unit) s).2
    rw [he]
    exact hs

theorem unfitted_parameterize {env : DataEnv K} (h : env.fit.Committed) :
    Meth.Keeps Unfitted (Boundary.parameterize env) := by
  unfold Boundary.parameterize
  refine Meth.Keeps.bind (Meth.Keeps.read _) fun s => Meth.Keeps.bind ?_ fun c =>
    Meth.Keeps.read_bind fun s hs => ?_
  · split
    · exact Meth.Keeps.bind unfitted_setInitCurve fun _ => Meth.Keeps.bind (Meth.Keeps.read _) fun _ =>
        Meth.Keeps.lift _
    · split <;> exact Meth.Keeps.lift _
  · cases hd : s.data with
    | none =>
      show Unfitted ((Meth.lift (rowsOf s.data) >>= _ : Meth (Boundary K) Unit) s).2
      rw [hd]
      exact hs
    | some a =>
      obtain ⟨e, he⟩ := parameterize_committed h c (hs.1 a hd)
      show Unfitted ((Meth.lift (rowsOf s.data) >>= _ : Meth (Boundary K) Unit) s).2
      rw [hd]
      show Unfitted ((Meth.lift (parameterizeCurve env.fit.num (env.fit.curveLike c) a.rows) >>= _ :
        Meth (Boundary K) Unit) s).2
      rw [he]
      exact hs

theorem unfitted_op {env : DataEnv K} (h : env.fit.Committed) (op : BOp K)
    (hop : ∀ v a, op = .data v → v.toArray = .ok a → a.rows ≠ []) (w : BWorld K)
    (hw : Unfitted w.self) : Unfitted ((op.run env) w).2.self := by
  cases op with
  | degree v =>
    refine BWorld.keeps_obj ?_ w hw
    refine Meth.Keeps.lift_bind fun b _ => ?_
    split
    · exact Meth.Keeps.raise _
    · exact Meth.Keeps.lift_bind fun _ _ => Meth.Keeps.assign fun _ hs => hs
  | data v =>
    refine BWorld.keeps_obj ?_ w hw
    refine Meth.Keeps.lift_bind fun a ha => ?_
    split
    · exact Meth.Keeps.raise _
    · refine Meth.Keeps.lift_bind fun _ _ => ?_
      split
      · exact Meth.Keeps.raise _
      · exact Meth.Keeps.assign fun _ hs => ⟨fun a' e => by cases e; exact hop v a rfl ha, hs.2⟩
  | start v =>
    refine BWorld.keeps_obj ?_ w hw
    refine Meth.Keeps.lift_bind fun a ha => ?_
    split
    · exact Meth.Keeps.raise _
    · refine Meth.Keeps.lift_bind fun _ _ => ?_
      split
      · exact Meth.Keeps.raise _
      · exact Meth.Keeps.assign fun _ hs => hs
  | fin v =>
    refine BWorld.keeps_obj ?_ w hw
    refine Meth.Keeps.lift_bind fun a ha => ?_
    split
    · exact Meth.Keeps.raise _
    · refine Meth.Keeps.lift_bind fun _ _ => ?_
      split
      · exact Meth.Keeps.raise _
      · exact Meth.Keeps.assign fun _ hs => hs
  | numCtrl v =>
    refine BWorld.keeps_obj ?_ w hw
    refine Meth.Keeps.lift_bind fun a ha => ?_
    split
    · exact Meth.Keeps.raise _
    · exact Meth.Keeps.assign fun _ hs => hs
  | fitMethod v =>
    refine BWorld.keeps_obj ?_ w hw
    unfold Boundary.setFitMethod
    split
    · split
      · exact Meth.Keeps.raise _
      · exact Meth.Keeps.assign fun _ hs => hs
    · exact Meth.Keeps.raise _
  | setInitCurve => exact BWorld.keeps_obj unfitted_setInitCurve w hw
  | parameterize => exact BWorld.keeps_obj (unfitted_parameterize h) w hw
  | fit => exact BWorld.keeps_obj (unfitted_fit h) w hw
  | save name => show Unfitted (Boundary.save env name w).2.self; rw [save_self]; exact hw
  | load name => show Unfitted (Boundary.load env name w).2.self; rw [load_self]; exact hw

/-- **C91.** In every history of calls in which no empty data array is assigned, no fitted curve and
no parameterized data ever exists. -/
theorem boundary_never_fits (env : DataEnv K) (h : env.fit.Committed) (fs : FS)
    (ops : List (BOp K × FS))
    (hops : ∀ o ∈ ops, ∀ v a, o.1 = .data v → v.toArray = .ok a → a.rows ≠ []) :
    (Boundary.history env ⟨Boundary.new, fs⟩ ops).self.fitCurve = none ∧
    (Boundary.history env ⟨Boundary.new, fs⟩ ops).self.paramData = none := by
  have gen : ∀ (ops : List (BOp K × FS)) (w : BWorld K),
      (∀ o ∈ ops, ∀ v a, o.1 = .data v → v.toArray = .ok a → a.rows ≠ []) → Unfitted w.self →
      Unfitted (Boundary.history env w ops).self := by
    intro ops
    induction ops with
    | nil => exact fun w _ hw => hw
    | cons o ops ih =>
      exact fun w ho hw => ih _ (fun o' h' => ho o' (List.mem_cons_of_mem _ h'))
        (unfitted_op h o.1 (ho o List.mem_cons_self) _ hw)
  exact (gen ops _ hops ⟨fun _ e => (by cases e), rfl, rfl⟩).2

/-- **C91.** `BoundaryProblem.fit` raises in every state whose data is unset or not empty. -/
theorem boundary_fit_raises (env : DataEnv K) (h : env.fit.Committed) (s : Boundary K)
    (hs : ∀ a, s.data = some a → a.rows ≠ []) : Raises (Boundary.fit env s).1 := by
  unfold Boundary.fit
  rw [Meth.read_bind, Meth.bind_apply]
  have hd : ((if (id s).initCurve = none then Boundary.setInitCurve else Meth.pure ()) s).2.data
      = s.data := by
    have k : Meth.Keeps (fun t : Boundary K => t.data = s.data)
        (if (id s).initCurve = none then Boundary.setInitCurve else Meth.pure ()) := by
      split
      · exact Meth.Keeps.bind (Meth.Keeps.read _) fun _ => Meth.Keeps.lift_bind fun _ _ =>
          Meth.Keeps.assign fun _ hs => hs
      · exact Meth.Keeps.pure _
    exact k s rfl
  split
  · rename_i s' he
    rw [he] at hd
    obtain ⟨e, hf⟩ := final_fit_committed h (s := s') (by rw [hd]; exact hs)
    rw [Meth.read_bind]
    show Raises ((Meth.lift (finalFit env s') >>= _ : Meth (Boundary K) Unit) s').1
    rw [hf]
    exact ⟨_, rfl⟩
  · exact ⟨_, rfl⟩

end

/-- The environment of the examples with the committed curve class. -/
def exCommitted : DataEnv ℚ :=
  { exDataEnv with fit := { exDataEnv.fit with curveLike := fun c => c.like exNum.norm } }

theorem exCommitted_committed : exCommitted.fit.Committed := ⟨_, fun _ => rfl⟩

/-- The history that fits with working derivatives; with the committed class `fit` raises. -/
example :
    let w := Boundary.history exCommitted ⟨Boundary.new, exNoFiles⟩ exSetup
    w.self.data.isSome = true ∧ (Boundary.fit exCommitted w.self).1 = .error .valueError ∧
      (Boundary.fit exDataEnv w.self).1 = .ok () := by decide +kernel

end PySpline
