import Verif.Props.Data
import Verif.Props.KnotFit

/-!
# Auxiliary lemmas for `Props/Frame.lean`
-/

set_option linter.unusedSectionVars false

namespace PySpline

open Spec
section

variable {K : Type} [Field K] [LinearOrder K] [IsStrictOrderedRing K] [FloorRing K]

/-- `parameterize` changes at most the initial curve and the parameterized data. -/
theorem parameterize_frame (env : DataEnv K) (s : Boundary K) :
    ∃ ic pd, (Boundary.parameterize env s).2 = { s with initCurve := ic, paramData := pd } := by
  have kI : ∀ t : Boundary K, ∀ {f : Boundary K → Boundary K},
      (∀ s, ∃ ic pd, f s = { s with initCurve := ic, paramData := pd }) →
      Meth.Keeps (fun s : Boundary K => ∃ ic pd, s = { t with initCurve := ic, paramData := pd })
        (Meth.assign f) := by
    intro t f h
    refine Meth.Keeps.assign ?_
    rintro _ ⟨ic, pd, rfl⟩
    obtain ⟨ic', pd', h'⟩ := h { t with initCurve := ic, paramData := pd }
    exact ⟨ic', pd', h'⟩
  have kInit : Meth.Keeps (fun t : Boundary K => ∃ ic pd, t = { s with initCurve := ic, paramData := pd })
      Boundary.setInitCurve :=
    Meth.Keeps.bind (Meth.Keeps.read _) fun _ => Meth.Keeps.lift_bind fun c _ =>
      kI s fun t => ⟨some c, t.paramData, rfl⟩
  have : Meth.Keeps (fun t : Boundary K => ∃ ic pd, t = { s with initCurve := ic, paramData := pd })
      (Boundary.parameterize env) := by
    refine Meth.Keeps.bind (Meth.Keeps.read _) fun s => Meth.Keeps.bind ?_ fun c =>
      Meth.Keeps.bind (Meth.Keeps.read _) fun s => Meth.Keeps.lift_bind fun _ _ =>
      Meth.Keeps.lift_bind fun pd _ => kI _ fun t => ⟨t.initCurve, some pd, rfl⟩
    split
    · exact Meth.Keeps.bind kInit fun _ => Meth.Keeps.bind (Meth.Keeps.read _) fun _ =>
        Meth.Keeps.lift _
    · split
      · exact Meth.Keeps.lift _
      · exact Meth.Keeps.lift _
  exact this s ⟨s.initCurve, s.paramData, rfl⟩

/-- `fit` changes at most the initial curve, the number of control points, the fitted curve and the
parameterized data. -/
theorem fit_frame (env : DataEnv K) (s : Boundary K) :
    ∃ ic nc fc pd, (Boundary.fit env s).2
      = { s with initCurve := ic, numCtrl := nc, fitCurve := fc, paramData := pd } := by
  let I : Boundary K → Prop := fun t =>
    ∃ ic nc fc pd, t = { s with initCurve := ic, numCtrl := nc, fitCurve := fc, paramData := pd }
  have kInit : Meth.Keeps I Boundary.setInitCurve :=
    Meth.Keeps.bind (Meth.Keeps.read _) fun _ => Meth.Keeps.lift_bind fun c _ =>
      Meth.Keeps.assign (by rintro _ ⟨ic, nc, fc, pd, rfl⟩; exact ⟨_, _, _, _, rfl⟩)
  have kNum : ∀ v, Meth.Keeps I (Boundary.setNumCtrl env v) := by
    intro v
    refine Meth.Keeps.lift_bind fun z _ => ?_
    split
    · exact Meth.Keeps.raise _
    · exact Meth.Keeps.assign (by rintro _ ⟨ic, nc, fc, pd, rfl⟩; exact ⟨_, _, _, _, rfl⟩)
  have kPar : Meth.Keeps I (Boundary.parameterize env) := by
    rintro _ ⟨ic, nc, fc, pd, rfl⟩
    obtain ⟨ic', pd', h⟩ := parameterize_frame env
      { s with initCurve := ic, numCtrl := nc, fitCurve := fc, paramData := pd }
    exact ⟨ic', nc, fc, pd', h⟩
  have : Meth.Keeps I (Boundary.fit env) := by
    refine Meth.Keeps.bind (Meth.Keeps.read _) fun s => Meth.Keeps.bind ?_ fun _ =>
      Meth.Keeps.bind (Meth.Keeps.read _) fun s => Meth.Keeps.lift_bind fun _ _ =>
      Meth.Keeps.lift_bind fun _ _ => Meth.Keeps.bind
        (Meth.Keeps.assign (by rintro _ ⟨ic, nc, fc, pd, rfl⟩; exact ⟨_, _, _, _, rfl⟩)) fun _ =>
      Meth.Keeps.bind (kNum _) fun _ => kPar
    split
    · exact kInit
    · exact Meth.Keeps.pure _
  exact this s ⟨s.initCurve, s.numCtrl, s.fitCurve, s.paramData, rfl⟩

/-- An attribute that no call of a history changes. -/
theorem Boundary.history_const {α : Type} (f : Boundary K → α) (env : DataEnv K)
    (ops : List (BOp K × FS)) (h : ∀ o ∈ ops, ∀ w, f (o.1.run env w).2.self = f w.self) :
    ∀ w, f (Boundary.history env w ops).self = f w.self := by
  induction ops with
  | nil => exact fun w => rfl
  | cons o ops ih =>
    intro w
    show f (Boundary.history env (o.1.run env { w with fs := o.2 }).2 ops).self = _
    rw [ih fun o' ho' => h o' (List.mem_cons_of_mem _ ho'), h o List.mem_cons_self]

/-- `initialize_curve` needs three coordinates of both ends. -/
theorem initializeCurve_space {s e : List K} {p n : ℕ} {c : Curve K}
    (h : initializeCurve s e p n = .ok c) : 3 ≤ s.length ∧ 3 ≤ e.length := by
  unfold initializeCurve at h
  split at h
  · cases h
  obtain ⟨_, -, h⟩ := bind_eq_ok h
  obtain ⟨_, -, h⟩ := bind_eq_ok h
  obtain ⟨xs, -, h⟩ := bind_eq_ok h
  obtain ⟨_, -, h⟩ := bind_eq_ok h
  obtain ⟨_, -, h⟩ := bind_eq_ok h
  obtain ⟨ys, -, h⟩ := bind_eq_ok h
  obtain ⟨_, hs, h⟩ := bind_eq_ok h
  obtain ⟨_, he, h⟩ := bind_eq_ok h
  have aux : ∀ {l : List K} {x : K}, pyGet l 2 = .ok x → 3 ≤ l.length := by
    intro l x hx
    by_contra hl
    rcases l with _ | ⟨a, _ | ⟨b, _ | ⟨c, l⟩⟩⟩
    · cases hx
    · cases hx
    · cases hx
    · simp at hl
  exact ⟨aux hs, aux he⟩

/-- `parameterize_curve` refuses data without three columns. -/
theorem parameterizeCurve_space {nm : Num K} {C : CurveLike K} {data rows : List (List K)}
    (h : parameterizeCurve nm C data = .ok rows) : ∀ p ∈ data, p.length = 3 := by
  obtain ⟨us, hus, hperm, -, hsh⟩ := parameterize_curve_rows nm C data rows h
  have hl : us.length = data.length := mapPy_length hus
  intro p hp
  obtain ⟨i, hi, rfl⟩ := List.getElem_of_mem hp
  have : data[i] ++ [us[i]'(by omega)] ∈ rows := by
    rw [hperm.mem_iff]
    have hz : i < (List.zipWith (fun (p : List K) u => p ++ [u]) data us).length := by simp; omega
    have := List.getElem_mem hz
    simpa using this
  have h4 := hsh.2 _ this
  simpa using h4

/-- The rows of an array with two columns have at most two entries. -/
theorem rows_planar {a : Arr K} {m : ℕ} (h : a.shape = [m, 2]) (hm : 0 < m) :
    ∃ p ∈ a.rows, p.length ≠ 3 := by
  unfold Arr.rows
  rw [h]
  refine ⟨(a.data.drop (0 * 2)).take 2, List.mem_map.2 ⟨0, by simpa using hm, rfl⟩, ?_⟩
  have := List.length_take_le 2 (a.data.drop (0 * 2))
  omega

theorem parameterizeCurve_planar (nm : Num K) (C : CurveLike K) {a : Arr K} {m : ℕ}
    (h : a.shape = [m, 2]) (hm : 0 < m) : Raises (parameterizeCurve nm C a.rows) := by
  cases hc : parameterizeCurve nm C a.rows with
  | error e => exact ⟨e, rfl⟩
  | ok rows =>
    obtain ⟨p, hp, hne⟩ := rows_planar h hm
    exact absurd (parameterizeCurve_space hc p hp) hne

theorem finalFit_planar (env : DataEnv K) {s : Boundary K}
    (hs : ∀ a, s.data = some a → ∃ m, a.shape = [m, 2] ∧ 0 < m) : Raises (finalFit env s) := by
  unfold finalFit
  refine Raises.of_bind fun c => ?_
  cases hd : s.data with
  | none => exact ⟨_, rfl⟩
  | some a =>
    obtain ⟨m, ha, hm⟩ := hs a hd
    have ins : ∀ (c : Curve K) n, Raises (fitCurveKnotInsertion env.fuel env.fit c a.rows n) := by
      intro c n
      unfold fitCurveKnotInsertion
      cases env.fuel with
      | zero => exact ⟨_, rfl⟩
      | succ fuel =>
        unfold knotFitLoop
        exact Raises.bind_left (parameterizeCurve_planar _ _ ha hm)
    show Raises (if s.fitMethod = "adaptive" then knotInsertionOf env c a.rows s.numCtrl
      else fitCurveFixed env.fuel env.fit c a.rows)
    split
    · cases s.numCtrl with
      | some n => exact ins c n
      | none => exact Raises.bind_left (parameterizeCurve_planar _ _ ha hm)
    · unfold fitCurveFixed
      exact Raises.of_bind fun _ => Raises.of_bind fun _ => Raises.of_bind fun _ =>
        Raises.bind_left (ins _ _)

end

end PySpline
