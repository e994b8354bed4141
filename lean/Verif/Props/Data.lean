import Verif.Lemmas.Data
import Mathlib.Data.Rat.Floor
/-!
# The problem objects: C60–C63, C82–C88
-/

set_option linter.unusedSectionVars false

namespace PySpline

open Spec
section

variable {K : Type} [Field K] [LinearOrder K] [IsStrictOrderedRing K] [FloorRing K]

/-! ## C60, C62 -/

/-- **C60.** After every history of calls with arbitrary arguments, successful or not, with files
changing in between: the data is unset or 2-D with 2 or 3 columns, the end points are unset or in R2
or R3, the number of control points is unset or greater than 3, the method is one of the two. -/
theorem boundary_invariant (env : DataEnv K) (fs : FS) (ops : List (BOp K × FS)) :
    BoundaryInv (Boundary.history env ⟨Boundary.new, fs⟩ ops).self := by
  have gen : ∀ (ops : List (BOp K × FS)) (w : BWorld K), BoundaryInv w.self →
      BoundaryInv (Boundary.history env w ops).self := by
    intro ops
    induction ops with
    | nil => exact fun w hw => hw
    | cons o ops ih => exact fun w hw => ih _ (o.1.keeps env _ hw)
  refine gen ops _ ⟨?_, ?_, ?_, ?_, Or.inl rfl, ?_⟩ <;> (intro _ h; cases h)

/-- **C62.** If every degree assigned in a history is an `int`, the degree is unset or at least 1. -/
theorem boundary_degree_pos (env : DataEnv K) (fs : FS) (ops : List (BOp K × FS))
    (hops : ∀ o ∈ ops, ∀ v, o.1 = .degree v → ∃ z, v = .int z) :
    ∀ d, (Boundary.history env ⟨Boundary.new, fs⟩ ops).self.degree = some d → 1 ≤ d := by
  have kI : ∀ {f : Boundary K → Boundary K}, (∀ s, (f s).degree = s.degree) →
      Meth.Keeps (fun s : Boundary K => ∀ d, s.degree = some d → 1 ≤ d) (Meth.assign f) :=
    fun h => Meth.Keeps.assign fun s hs d hd => hs d ((h s).symm.trans hd)
  have kInit : Meth.Keeps (fun s : Boundary K => ∀ d, s.degree = some d → 1 ≤ d)
      Boundary.setInitCurve :=
    Meth.Keeps.bind (Meth.Keeps.read _) fun _ => Meth.Keeps.lift_bind fun _ _ => kI fun _ => rfl
  have kNum : ∀ v, Meth.Keeps (fun s : Boundary K => ∀ d, s.degree = some d → 1 ≤ d)
      (Boundary.setNumCtrl env v) := by
    intro v
    refine Meth.Keeps.lift_bind fun z _ => ?_
    split
    · exact Meth.Keeps.raise _
    · exact kI fun _ => rfl
  have kPar : Meth.Keeps (fun s : Boundary K => ∀ d, s.degree = some d → 1 ≤ d)
      (Boundary.parameterize env) := by
    refine Meth.Keeps.bind (Meth.Keeps.read _) fun s => Meth.Keeps.bind ?_ fun c =>
      Meth.Keeps.bind (Meth.Keeps.read _) fun s => Meth.Keeps.lift_bind fun _ _ =>
      Meth.Keeps.lift_bind fun _ _ => kI fun _ => rfl
    split
    · exact Meth.Keeps.bind kInit fun _ => Meth.Keeps.bind (Meth.Keeps.read _) fun _ =>
        Meth.Keeps.lift _
    · split
      · exact Meth.Keeps.lift _
      · exact Meth.Keeps.lift _
  have kFit : Meth.Keeps (fun s : Boundary K => ∀ d, s.degree = some d → 1 ≤ d)
      (Boundary.fit env) := by
    refine Meth.Keeps.bind (Meth.Keeps.read _) fun s => Meth.Keeps.bind ?_ fun _ =>
      Meth.Keeps.bind (Meth.Keeps.read _) fun s => Meth.Keeps.lift_bind fun _ _ =>
      Meth.Keeps.lift_bind fun _ _ => Meth.Keeps.bind (kI fun _ => rfl) fun _ =>
      Meth.Keeps.bind (kNum _) fun _ => kPar
    split
    · exact kInit
    · exact Meth.Keeps.pure _
  have kArr : ∀ (x : Py (Arr K)) (n : ℕ) (i : ℤ) (g : Arr K → Boundary K → Boundary K),
      (∀ a s, (g a s).degree = s.degree) →
      Meth.Keeps (fun s : Boundary K => ∀ d, s.degree = some d → 1 ≤ d)
        ((Meth.lift x : Meth (Boundary K) _) >>= fun a =>
          if a.shape.length ≠ n then Meth.raise .valueError
          else ((Meth.lift (pyGet a.shape i) : Meth (Boundary K) _) >>= fun last =>
            if ¬ (last = 2 ∨ last = 3) then Meth.raise .valueError else Meth.assign (g a))) := by
    intro x n i g hg
    refine Meth.Keeps.lift_bind fun a _ => ?_
    split
    · exact Meth.Keeps.raise _
    · refine Meth.Keeps.lift_bind fun last hl => ?_
      split
      · exact Meth.Keeps.raise _
      · exact kI (hg a)
  have step : ∀ (op : BOp K) (w : BWorld K), (∀ v, op = .degree v → ∃ z, v = .int z) →
      (∀ d, w.self.degree = some d → 1 ≤ d) → ∀ d, (op.run env w).2.self.degree = some d → 1 ≤ d := by
    intro op w hop hw
    cases op with
    | degree v =>
      obtain ⟨z, rfl⟩ := hop v rfl
      refine BWorld.keeps_obj (I := fun s => ∀ d, s.degree = some d → 1 ≤ d) ?_ w hw
      refine Meth.Keeps.lift_bind fun b hb => ?_
      cases b with
      | true => exact Meth.Keeps.raise _
      | false =>
        refine Meth.Keeps.lift_bind fun z' hz => Meth.Keeps.assign fun s hs d hd => ?_
        cases hd
        cases hz
        have : ¬ z ≤ 0 := of_decide_eq_false (Except.ok.inj hb)
        omega
    | data v => exact BWorld.keeps_obj (kArr v.toArray 2 (-1) (fun a s => { s with data := some a })
        fun _ _ => rfl) w hw
    | start v => exact BWorld.keeps_obj (kArr v.toArray 1 0 (fun a s => { s with start := some a })
        fun _ _ => rfl) w hw
    | fin v => exact BWorld.keeps_obj (kArr v.toArray 1 0 (fun a s => { s with fin := some a })
        fun _ _ => rfl) w hw
    | numCtrl v => exact BWorld.keeps_obj (kNum v) w hw
    | fitMethod v =>
      refine BWorld.keeps_obj (I := fun s => ∀ d, s.degree = some d → 1 ≤ d) ?_ w hw
      unfold Boundary.setFitMethod
      split
      · split
        · exact Meth.Keeps.raise _
        · exact kI fun _ => rfl
      · exact Meth.Keeps.raise _
    | setInitCurve => exact BWorld.keeps_obj kInit w hw
    | parameterize => exact BWorld.keeps_obj kPar w hw
    | fit => exact BWorld.keeps_obj kFit w hw
    | save name => intro d hd; exact hw d ((congrArg _ (save_self env name w)).symm.trans hd)
    | load name => intro d hd; exact hw d ((congrArg _ (load_self env name w)).symm.trans hd)
  have gen : ∀ (ops : List (BOp K × FS)) (w : BWorld K),
      (∀ o ∈ ops, ∀ v, o.1 = .degree v → ∃ z, v = .int z) →
      (∀ d, w.self.degree = some d → 1 ≤ d) →
      ∀ d, (Boundary.history env w ops).self.degree = some d → 1 ≤ d := by
    intro ops
    induction ops with
    | nil => exact fun w _ hw => hw
    | cons o ops ih =>
      intro w ho hw
      exact ih _ (fun o' h' => ho o' (List.mem_cons_of_mem _ h'))
        (step o.1 _ (ho o List.mem_cons_self) hw)
  exact gen ops _ hops (by intro d hd; cases hd)

/-! ## C61 -/

/-- **C61.** A rejected assignment to a property of a `BoundaryProblem` changes nothing. -/
theorem boundary_assignment_atomic (env : DataEnv K) (op : BOp K) (h : op.isAssignment = true)
    (w : BWorld K) (e : Err) (he : (op.run env w).1 = .error e) : (op.run env w).2 = w := by
  cases op with
  | degree v =>
    refine BWorld.atomic_obj ?_ w e he
    refine Meth.Atomic.lift_bind fun b _ => ?_
    cases b with
    | true => exact Meth.Atomic.raise _
    | false => exact Meth.Atomic.lift_bind fun z _ => Meth.Atomic.assign _
  | data v => exact BWorld.atomic_obj (atomic_arr _ _ _ _) w e he
  | start v => exact BWorld.atomic_obj (atomic_arr _ _ _ _) w e he
  | fin v => exact BWorld.atomic_obj (atomic_arr _ _ _ _) w e he
  | numCtrl v =>
    refine BWorld.atomic_obj ?_ w e he
    refine Meth.Atomic.lift_bind fun z _ => ?_
    split
    · exact Meth.Atomic.raise _
    · exact Meth.Atomic.assign _
  | fitMethod v =>
    refine BWorld.atomic_obj ?_ w e he
    unfold Boundary.setFitMethod
    split
    · split
      · exact Meth.Atomic.raise _
      · exact Meth.Atomic.assign _
    · exact Meth.Atomic.raise _
  | _ => cases h

/-! ## C63, C66 and C83: files -/

/-- **C66.** `write_curve_to_txt` raises for every curve and changes no file. -/
theorem write_curve_raises (fm : Fmt K) (c : Curve K) (name : String) (fs : FS) :
    writeCurve fm c name fs = (.error (if fs name = none then .fileNotFound else
      .unsupportedOperation), fs) := by
  unfold writeCurve
  rw [Meth.bind_apply]
  unfold openRead
  cases h : fs name with
  | none => rfl
  | some t => rfl

/-- **C63.** `save` raises `ValueError` while there is no fit, `load` once there is one; in every
state both raise and change neither the object nor a file. -/
theorem boundary_save_load (env : DataEnv K) (name : String) (w : BWorld K) :
    (w.self.fitCurve = none → Boundary.save env name w = (.error .valueError, w)) ∧
    (w.self.fitCurve ≠ none → Boundary.load env name w = (.error .valueError, w)) ∧
    (∃ e, Boundary.save env name w = (.error e, w)) ∧
    (∃ e, Boundary.load env name w = (.error e, w)) := by
  refine ⟨fun h => ?_, fun h => ?_, ?_, ?_⟩
  · unfold Boundary.save
    rw [Meth.read_bind, h]
    rfl
  · unfold Boundary.load
    rw [Meth.read_bind]
    cases hc : w.self.fitCurve with
    | none => exact absurd hc h
    | some c => rfl
  · unfold Boundary.save
    rw [Meth.read_bind]
    cases w.self.fitCurve with
    | none => exact ⟨_, rfl⟩
    | some c =>
      refine ⟨if w.fs name = none then .fileNotFound else .unsupportedOperation, ?_⟩
      show BWorld.files (writeCurve env.fmt c name) w = _
      unfold BWorld.files Meth.zoom
      rw [write_curve_raises]
  · unfold Boundary.load
    rw [Meth.read_bind]
    cases w.self.fitCurve with
    | some c => exact ⟨_, rfl⟩
    | none =>
      have hf : (BWorld.files (readCurve env.fmt name) w).2 = w := by
        show ({ w with fs := (readCurve env.fmt name w.fs).2 } : BWorld K) = w
        rw [readCurve_fs]
      show ∃ e, (_ >>= fun _ => Meth.raise Err.attributeError : Meth (BWorld K) Unit) w = (.error e, w)
      rw [Meth.bind_apply]
      cases hr : BWorld.files (readCurve env.fmt name) w with
      | mk r s =>
        rw [hr] at hf
        subst hf
        cases r with
        | ok a => exact ⟨_, rfl⟩
        | error e => exact ⟨_, rfl⟩

/-! ## C82, C85, C86: `fit` -/

/-- **C82.** `fit` is not all-or-nothing: if the fitted curve has at most three control points, `fit`
raises `ValueError` but leaves the object with a fit curve; from then on `load` is refused. -/
theorem boundary_fit_not_atomic (env : DataEnv K) (s : Boundary K) (c : Curve K) (d : ℤ)
    (h : s.initCurve ≠ none) (hc : finalFit env s = .ok c) (hd : s.degree = some d)
    (hsmall : (c.kv.length : ℤ) ≤ d + 4) (fs : FS) (name : String) :
    Boundary.fit env s = (.error .valueError, { s with fitCurve := some c }) ∧
      Boundary.load env name ⟨{ s with fitCurve := some c }, fs⟩
        = (.error .valueError, ⟨{ s with fitCurve := some c }, fs⟩) := by
  refine ⟨?_, (boundary_save_load env name _).2.1 (by simp)⟩
  obtain ⟨deg, dat, st, fi, nc, fm, ic, pd0, fc⟩ := s
  dsimp only at h hd ⊢
  subst hd
  rw [fit_eq h, hc]
  dsimp only
  rw [if_pos (by omega)]

/-- **C85.** `fit` is idempotent: after a successful `fit` (with the degree of the initial curve)
another `fit` succeeds and changes nothing. -/
theorem boundary_fit_idempotent (env : DataEnv K) (s s' : Boundary K) (c0 : Curve K)
    (h0 : s.initCurve = some c0) (hd : s.degree = some (c0.degree : ℤ))
    (hc : s.fitMethod = "adaptive" →
      c0.kv.length = c0.ctrlpts.length + c0.degree + 1 ∧ c0.degree < c0.ctrlpts.length)
    (hs : Boundary.fit env s = (.ok (), s')) : Boundary.fit env s' = (.ok (), s') := by
  obtain ⟨deg, dat, st, fi, nc, fm, ic, pd0, fc⟩ := s
  dsimp only at h0 hd hc
  subst h0 hd
  rw [fit_eq (by simp)] at hs
  cases hf : finalFit env ⟨some (c0.degree : ℤ), dat, st, fi, nc, fm, some c0, pd0, fc⟩ with
  | error e => rw [hf] at hs; cases hs
  | ok c =>
    rw [hf] at hs
    dsimp only at hs
    split at hs
    · cases hs
    · rename_i hle
      cases hp : rowsOf dat >>= fun rows =>
          parameterizeCurve env.fit.num (env.fit.curveLike c) rows with
      | error e => rw [hp] at hs; cases hs
      | ok pd =>
        rw [hp] at hs
        dsimp only at hs
        cases hs
        rw [fit_eq (by simp)]
        have hf' : finalFit env ⟨some (c0.degree : ℤ), dat, st, fi,
            some ((c.kv.length : ℤ) - (c0.degree : ℤ) - 1), fm, some c0, some pd, some c⟩
              = .ok c := by
          unfold finalFit at hf ⊢
          obtain ⟨c0', hc0', hf⟩ := bind_eq_ok hf
          cases hc0'
          obtain ⟨rows, hrows, hf⟩ := bind_eq_ok hf
          show (rowsOf dat >>= _) = _
          rw [hrows, ok_bind]
          dsimp only at hf ⊢
          split at hf
          · rename_i hm
            rw [if_pos hm]
            cases nc with
            | none =>
              obtain ⟨_, -, hf⟩ := bind_eq_ok hf
              obtain ⟨_, -, hf⟩ := bind_eq_ok hf
              cases hf
            | some N =>
              obtain ⟨e1, e2, t, -, -, hN, -⟩ :=
                fit_curve_knot_insertion_count env.fit rows N env.fuel c0 c hf (hc hm).1 (hc hm).2
              have e : (c.kv.length : ℤ) - (c0.degree : ℤ) - 1 = c.ctrlpts.length := by
                rw [e2, e1]; push_cast; ring
              rw [e]
              exact knotFitLoop_target hf hN le_rfl
          · rename_i hm
            rw [if_neg hm]
            exact hf
        rw [hf']
        dsimp only
        rw [if_neg hle, hp]

/-- **C85**, the usual case: the first `fit` also sets the initial curve. -/
theorem boundary_fit_twice (env : DataEnv K) (s s' : Boundary K) (hinv : BoundaryInv s)
    (h0 : s.initCurve = none) (hs : Boundary.fit env s = (.ok (), s')) :
    Boundary.fit env s' = (.ok (), s') := by
  cases hi : (if s.fitMethod = "adaptive" then
      initCurveOf s.start s.fin s.degree (s.degree.map (· + 1))
    else initCurveOf s.start s.fin s.degree s.numCtrl) with
  | error e =>
    have h1 : Boundary.setInitCurve s = (.error e, s) := by
      unfold Boundary.setInitCurve
      rw [Meth.read_bind]
      dsimp only [id]
      rw [hi]
      rfl
    unfold Boundary.fit at hs
    rw [Meth.read_bind, if_pos (show (id s).initCurve = none from h0), Meth.bind_error h1] at hs
    cases hs
  | ok c0 =>
    have h1 : Boundary.setInitCurve s = (.ok (), { s with initCurve := some c0 }) := by
      unfold Boundary.setInitCurve
      rw [Meth.read_bind]
      dsimp only [id]
      rw [hi]
      rfl
    have h2 : Boundary.fit env s = Boundary.fit env { s with initCurve := some c0 } := by
      conv_lhs => unfold Boundary.fit
      rw [Meth.read_bind, if_pos (show (id s).initCurve = none from h0), Meth.bind_ok h1]
      conv_rhs => unfold Boundary.fit
      rfl
    rw [h2] at hs
    have key : ∀ n, initCurveOf s.start s.fin s.degree n = .ok c0 →
        s.degree = some (c0.degree : ℤ) ∧ n = some (c0.ctrlpts.length : ℤ) ∧
          generateUniform c0.degree c0.ctrlpts.length = .ok c0.kv := by
      intro n hn
      unfold initCurveOf at hn
      cases hd : s.degree with
      | none => rw [hd] at hn; cases hn
      | some d =>
        cases n with
        | none => rw [hd] at hn; cases hn
        | some n =>
          rw [hd] at hn
          simp only [ok_bind] at hn
          split at hn
          · cases hn
          · rename_i hnd
            obtain ⟨a, -, hn⟩ := bind_eq_ok hn
            obtain ⟨b, -, hn⟩ := bind_eq_ok hn
            have hd0 := hinv.degree d hd
            obtain ⟨e1, e2, e3⟩ := initializeCurve_ok hn
            rw [e1, e2]
            refine ⟨by congr 1; omega, by congr 1; omega, ?_⟩
            rw [← e2]
            exact e3
    refine boundary_fit_idempotent env _ s' c0 rfl ?_ ?_ hs
    · split at hi
      · exact (key _ hi).1
      · exact (key _ hi).1
    · intro hm
      rw [if_pos hm] at hi
      obtain ⟨e1, e2, e3⟩ := key _ hi
      rw [e1] at e2
      have e2 : (c0.degree : ℤ) + 1 = c0.ctrlpts.length := Option.some.inj e2
      have hlt : c0.degree < c0.ctrlpts.length := by omega
      rw [generateUniform_eq hlt] at e3
      refine ⟨?_, hlt⟩
      rw [← Except.ok.inj e3]
      simp [zeros, ones]
      omega

/-- **C86.** Once the initial curve exists, `fit` ignores the end points assigned later. -/
theorem boundary_fit_ignores_ends (env : DataEnv K) (s : Boundary K) (h : s.initCurve ≠ none)
    (a b : Option (Arr K)) :
    Boundary.fit env { s with start := a, fin := b } = ((Boundary.fit env s).1,
      { (Boundary.fit env s).2 with start := a, fin := b }) := by
  obtain ⟨deg, dat, st, fi, nc, fm, ic, pd0, fc⟩ := s
  dsimp only at h
  rw [fit_eq h, fit_eq (by exact h)]
  have e : finalFit env ⟨deg, dat, a, b, nc, fm, ic, pd0, fc⟩
      = finalFit env ⟨deg, dat, st, fi, nc, fm, ic, pd0, fc⟩ := rfl
  rw [e]
  cases finalFit env ⟨deg, dat, st, fi, nc, fm, ic, pd0, fc⟩ with
  | error e => rfl
  | ok c =>
    dsimp only
    cases deg with
    | none => rfl
    | some d =>
      dsimp only
      split
      · rfl
      · split <;> rfl

/-- **C86.** With the method `'fixed'` the stored number of control points and degree are not used
either: after a successful `fit` the curve has the size and degree of the initial curve, and
`num_ctrlpts` is off by the difference of the two degrees. -/
theorem boundary_fit_stale (env : DataEnv K) (s s' : Boundary K) (c0 : Curve K) (d : ℤ)
    (h0 : s.initCurve = some c0) (hd : s.degree = some d) (hm : s.fitMethod = "fixed")
    (hkv : c0.kv.length = c0.ctrlpts.length + c0.degree + 1)
    (h3 : ∀ row ∈ c0.ctrlpts, row.length = 3)
    (hs : Boundary.fit env s = (.ok (), s')) :
    ∃ c, s'.fitCurve = some c ∧ c.degree = c0.degree ∧ c.ctrlpts.length = c0.ctrlpts.length ∧
      s'.numCtrl = some ((c.ctrlpts.length : ℤ) + (c0.degree - d)) := by
  obtain ⟨deg, dat, st, fi, nc, fm, ic, pd0, fc⟩ := s
  dsimp only at h0 hd hm
  subst h0 hd hm
  rw [fit_eq (by simp)] at hs
  cases hf : finalFit env ⟨some d, dat, st, fi, nc, "fixed", some c0, pd0, fc⟩ with
  | error e => rw [hf] at hs; cases hs
  | ok c =>
    rw [hf] at hs
    dsimp only at hs
    unfold finalFit at hf
    obtain ⟨c0', hc0', hf⟩ := bind_eq_ok hf
    cases hc0'
    obtain ⟨rows, hrows, hf⟩ := bind_eq_ok hf
    rw [if_neg (show ¬ ("fixed" = "adaptive") by decide)] at hf
    obtain ⟨a1, a2, a3, -, -⟩ := fit_curve_fixed_keeps _ _ _ _ _ hf h3
    split at hs
    · cases hs
    · split at hs
      · cases hs
        refine ⟨c, rfl, a1, a3.1, ?_⟩
        rw [a2, hkv, a3.1]
        push_cast
        show some _ = some _
        refine congrArg some ?_
        ring
      · cases hs

/-! ## C84: `Data` and `Boundary` -/

/-- **C84.** Every assignment to `data`, `start`, `end` of a `Boundary` object raises and changes
nothing. -/
theorem boundary_obj_setters_raise (v : Val K) :
    Meth.Refuses (BoundaryObj.setData v) ∧ Meth.Refuses (BoundaryObj.setStart v) ∧
      Meth.Refuses (BoundaryObj.setEnd v) := by
  refine ⟨fun s => ?_, fun s => ?_, fun s => ?_⟩ <;> cases v <;> exact ⟨_, rfl⟩

/-! ## C83: `InteriorProblem` -/

/-- **C83.** In every history of an `InteriorProblem` no boundary can be set, and `set_init_surface`,
`parameterize`, `fit`, `save`, `load` and `vtk` all raise and change nothing: there is never an
initial surface, a parameterization, a fit or a written file. -/
theorem interior_never_fits (env : DataEnv K) (fs : FS) (ops : List (IOp K × FS)) :
    InteriorInv (Interior.history env ⟨Interior.new, fs⟩ ops).self ∧
      ∀ (op : IOp K) (fs' : FS), op.isAction = true →
        ∃ e, op.run env { Interior.history env ⟨Interior.new, fs⟩ ops with fs := fs' }
          = (.error e, { Interior.history env ⟨Interior.new, fs⟩ ops with fs := fs' }) := by
  have gen : ∀ (ops : List (IOp K × FS)) (w : IWorld K), InteriorInv w.self →
      InteriorInv (Interior.history env w ops).self := by
    intro ops
    induction ops with
    | nil => exact fun w hw => hw
    | cons o ops ih => exact fun w hw => ih _ (o.1.step env ⟨w.self, o.2⟩ hw).1
  have h := gen ops ⟨Interior.new, fs⟩ ⟨rfl, rfl, rfl, rfl, rfl⟩
  exact ⟨h, fun op fs' ha => (op.step env _ (by exact h)).2.2 ha⟩

/-- **C61.** A rejected assignment to a property of an `InteriorProblem` changes nothing. -/
theorem interior_assignment_atomic (env : DataEnv K) (v : Val K) :
    Meth.Atomic (Interior.setDegree env v) ∧ Meth.Atomic (Interior.setData v) ∧
      Meth.Atomic (Interior.setNumCtrl env v) ∧ ∀ a : BoundaryArg K,
      Meth.Atomic (Interior.setTop a) ∧ Meth.Atomic (Interior.setBottom a) := by
  refine ⟨?_, atomic_arr _ _ _ _, ?_, fun a => ⟨?_, ?_⟩⟩
  · refine Meth.Atomic.lift_bind fun b _ => ?_
    cases b with
    | true => exact Meth.Atomic.raise _
    | false => exact Meth.Atomic.lift_bind fun z _ => Meth.Atomic.assign _
  · refine Meth.Atomic.lift_bind fun z _ => ?_
    split
    · exact Meth.Atomic.raise _
    · exact Meth.Atomic.assign _
  · unfold Interior.setTop
    split
    · exact Meth.Atomic.raise _
    · refine Meth.Atomic.lift_bind fun c _ => ?_
      split
      · exact Meth.Atomic.raise _
      · exact Meth.Atomic.assign _
  · unfold Interior.setBottom
    split
    · exact Meth.Atomic.raise _
    · refine Meth.Atomic.lift_bind fun c _ => ?_
      split
      · exact Meth.Atomic.raise _
      · exact Meth.Atomic.assign _

end

/-! ## Concrete cases -/

/-- Parsing of integers: only `"7"`. -/
def exDataEnv : DataEnv ℚ where
  fit := exEnv exLs
  fmt := ⟨fun _ => [], fun _ => [], fun _ => .error .valueError,
    fun t => if t = ['7'] then .ok 7 else .error .valueError⟩
  fuel := 3
  delaunay := fun _ => .ok []
  writeMesh := fun name _ => openWrite name

def exPts : Arr ℚ := ⟨[3, 3], [1/4, 1, 0, 1/2, 2, 1/2, 3/4, 1, 1]⟩

def exNoFiles : FS := fun _ => none

/-- Calls that prepare a fit with degree 2 and `'adaptive'`; some are rejected on the way. -/
def exSetup : List (BOp ℚ × FS) :=
  [(.degree (.int 2), exNoFiles), (.degree (.int (-1)), exNoFiles), (.data (.arr exPts), exNoFiles),
   (.data (.seq (.ok ⟨[2, 4], [0, 0, 0, 0, 0, 0, 0, 0]⟩)), exNoFiles),
   (.start (.seq (.ok ⟨[3], [0, 0, 0]⟩)), exNoFiles), (.fin (.arr ⟨[3], [2, 0, 2]⟩), exNoFiles),
   (.start (.float 3), exNoFiles), (.numCtrl (.float (9/2)), exNoFiles),
   (.numCtrl (.int 3), exNoFiles), (.fitMethod (.str "adaptive"), exNoFiles),
   (.fitMethod (.str "exact"), exNoFiles)]

/-- C60, C61: the rejected calls have left no trace. -/
example : (Boundary.history exDataEnv ⟨Boundary.new, exNoFiles⟩ exSetup).self
    = ⟨some 2, some exPts, some ⟨[3], [0, 0, 0]⟩, some ⟨[3], [2, 0, 2]⟩, some 4, "adaptive", none,
      none, none⟩ := by decide +kernel

/-- C61: a rejected assignment. -/
example : (BOp.run exDataEnv (.degree (.int (-1))) ⟨Boundary.new, exNoFiles⟩).1
    = .error .valueError := by decide +kernel

/-- **C62** as first stated is false: `0.5` passes the check and is truncated to `0`. -/
theorem boundary_degree_zero :
    (Boundary.setDegree exDataEnv (.float (1/2)) Boundary.new).1 = .ok () ∧
    (Boundary.setDegree exDataEnv (.float (1/2)) Boundary.new).2.degree = some 0 := by
  decide +kernel

/-- The number of control points that was asked for is replaced by the number that was reached. -/
example :
    let r := (Boundary.history exDataEnv ⟨Boundary.new, exNoFiles⟩
      (exSetup ++ [(.fit, exNoFiles)])).self
    (r.numCtrl, r.fitCurve.map (·.kv), r.paramData.map List.length)
      = (some 4, some [0, 0, 0, 1/2, 1, 1, 1], some 3) := by decide +kernel

/-- C85 on this history: the second `fit` changes nothing. -/
example :
    let w := Boundary.history exDataEnv ⟨Boundary.new, exNoFiles⟩ (exSetup ++ [(.fit, exNoFiles)])
    Boundary.fit exDataEnv w.self = (.ok (), w.self) := by
  have h : Boundary.fit exDataEnv
      (Boundary.history exDataEnv ⟨Boundary.new, exNoFiles⟩ exSetup).self
        = (.ok (), (Boundary.history exDataEnv ⟨Boundary.new, exNoFiles⟩
            (exSetup ++ [(.fit, exNoFiles)])).self) := by decide +kernel
  exact boundary_fit_twice _ _ _ (boundary_invariant _ _ _) (by decide +kernel) h

/-- C63: after the fit `save` finds no file to open, `load` is refused. -/
example :
    let w := Boundary.history exDataEnv ⟨Boundary.new, exNoFiles⟩ (exSetup ++ [(.fit, exNoFiles)])
    (Boundary.save exDataEnv "c.txt" w).1 = .error .fileNotFound ∧
      (Boundary.load exDataEnv "c.txt" w).1 = .error .valueError := by decide +kernel

/-- C82: the degree is changed after the initial curve was set. -/
def exBroken : List (BOp ℚ × FS) :=
  [(.degree (.int 1), exNoFiles), (.data (.arr exPts), exNoFiles),
   (.start (.arr ⟨[3], [0, 0, 0]⟩), exNoFiles), (.fin (.arr ⟨[3], [2, 0, 2]⟩), exNoFiles),
   (.numCtrl (.int 4), exNoFiles), (.setInitCurve, exNoFiles), (.degree (.int 2), exNoFiles)]

example :
    let s := (Boundary.history exDataEnv ⟨Boundary.new, exNoFiles⟩ exBroken).self
    (Boundary.fit exDataEnv s).1 = .error .valueError ∧ s.fitCurve = none ∧
      (Boundary.fit exDataEnv s).2.fitCurve ≠ none := by decide +kernel

/-- C86: with degree `0` instead, the stored number of control points is `5` for a curve with four. -/
example :
    let s := (Boundary.history exDataEnv ⟨Boundary.new, exNoFiles⟩
      (exBroken.dropLast ++ [(.degree (.float (1/2)), exNoFiles), (.fit, exNoFiles)])).self
    s.numCtrl = some 5 ∧ s.fitCurve.map (fun c => c.ctrlpts.length) = some 4 := by decide +kernel

/-- C84. -/
example : (BoundaryObj.setData (.arr exPts) ⟨3, none, none, none⟩).1 = .error .typeError := by
  decide +kernel

/-- C83: a `BoundaryProblem` with a fit is not accepted as a boundary. -/
example (b : Boundary ℚ) : (Interior.setTop (.problem b) Interior.new).1 = .error .typeError := rfl

/-- C83: with degree, data and size set, `fit` still raises. -/
example :
    let w := Interior.history exDataEnv ⟨Interior.new, exNoFiles⟩
      [(.degree (.int 2), exNoFiles), (.data (.arr exPts), exNoFiles), (.numCtrl (.int 4), exNoFiles)]
    w.self.numCtrl = some 4 ∧ (IOp.run exDataEnv .fit w).1 = .error .attributeError := by
  decide +kernel

end PySpline
