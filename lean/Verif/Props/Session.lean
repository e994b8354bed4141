import Verif.Props.Frame
import Verif.Props.CommittedErrors

/-!
# C123: the session of the example notebook
-/

set_option linter.unusedSectionVars false

namespace PySpline

open Spec

section
variable {K : Type} [Field K] [LinearOrder K] [IsStrictOrderedRing K] [FloorRing K]

/-- Calls in sequence until one raises. -/
def runCells (env : DataEnv K) : List (BOp K) → Meth (BWorld K) Unit
  | [] => Meth.pure ()
  | op :: ops => do op.run env; runCells env ops

/-- The cells before the first `fit()` (`examples/Boundary_Fitting_Example.ipynb`): degree, number of control points,
data, start, end, `set_init_curve()`. -/
def sessionSetup (d n : ℕ) (a s e : Arr K) : List (BOp K) :=
  [.degree (.int d), .numCtrl (.int n), .data (.arr a), .start (.arr s), .fin (.arr e), .setInitCurve]

theorem runCells_cons {env : DataEnv K} {op : BOp K} {ops : List (BOp K)} {w w' : BWorld K}
    (h : op.run env w = (.ok (), w')) : runCells env (op :: ops) w = runCells env ops w' := by
  show (BOp.run env op >>= fun _ => runCells env ops : Meth (BWorld K) Unit) w = _
  rw [Meth.bind_ok h]

/-- **C123.** On a `BoundaryProblem` the cells up to `set_init_curve()` succeed for all spatial data, and the initial
curve runs along the segment from start to end.  `fit()` then raises `ValueError` and changes nothing, however often it is called. -/
theorem notebook_session (env : DataEnv K) (h : env.fit.Committed) (hf : 1 ≤ env.fuel) (fs : FS) {d n : ℕ} (hd : 1 ≤ d) (hdn : d < n)
    (hn : 4 ≤ n) (hbig : n - d ≤ 900000) {a s e : Arr K} {m : ℕ} (ha : a.shape = [m, 3])
    (hl : a.data.length = m * 3) (hm : 1 ≤ m)
    (hs : s.shape = [3]) (hs3 : s.data.length = 3) (he : e.shape = [3]) (he3 : e.data.length = 3) :
    ∃ (c : Curve K) (w : BWorld K),
      w = ⟨⟨some d, some a, some s, some e, some n, "fixed", some c, none, none⟩, fs⟩ ∧
      runCells env (sessionSetup d n a s e) ⟨Boundary.new, fs⟩ = (.ok (), w) ∧
      c.singlePoint 0 = .ok s.data ∧ c.singlePoint 1 = .ok e.data ∧
      (∀ u, 0 ≤ u → u ≤ 1 → ∃ l, 0 ≤ l ∧ l ≤ 1 ∧
        c.singlePoint u = .ok [s.data.getD 0 0 + l * (e.data.getD 0 0 - s.data.getD 0 0),
          s.data.getD 1 0 + l * (e.data.getD 1 0 - s.data.getD 1 0),
          s.data.getD 2 0 + l * (e.data.getD 2 0 - s.data.getD 2 0)]) ∧
      BOp.run env .fit w = (.error .valueError, w) := by
  obtain ⟨c, hc, hi, hcd, hcP, -⟩ := boundary_set_init_curve env
    ⟨⟨some (d : ℤ), some a, some s, some e, some (n : ℤ), "fixed", none, none, none⟩, fs⟩ rfl rfl hs3 he3 rfl hd n
    (by rw [if_neg (by simp)]; exact ⟨rfl, hdn⟩)
  obtain ⟨c', hi', h0, h1, hseg⟩ := initialize_curve_segment hs3 he3 hd hdn hbig
  cases Except.ok.inj (hi.symm.trans hi')
  refine ⟨c, _, rfl, ?_, h0, h1, hseg, ?_⟩
  · unfold sessionSetup
    rw [runCells_cons ((boundary_set env _).1 _ |>.trans (if_pos (by exact_mod_cast hd))),
      runCells_cons ((boundary_set env _).2.1 _ |>.trans (if_pos (by exact_mod_cast hn))),
      runCells_cons ((boundary_set env _).2.2.2.1 _ |>.trans (if_pos (by rw [ha]; exact ⟨rfl, Or.inr rfl⟩))),
      runCells_cons ((boundary_set env _).2.2.2.2.1 _ |>.trans (if_pos (Or.inr hs))),
      runCells_cons ((boundary_set env _).2.2.2.2.2 _ |>.trans (if_pos (Or.inr he)))]
    exact runCells_cons hc
  · set b : Boundary K := ⟨some (d : ℤ), some a, some s, some e, some (n : ℤ), "fixed", some c, none, none⟩ with hb
    have : Boundary.fit env b = (.error .valueError, b) :=
      boundary_fit_value_error env h hf (s := b) rfl (by rw [hcd]; exact hd) hcP (by omega) rfl ha hl hm (by simp [hb])
    show ((Boundary.fit env b).1, (⟨(Boundary.fit env b).2, fs⟩ : BWorld K)) = _
    rw [this]

end

/-- C123: three points, degree 2, four control points. -/
example :
    let r := runCells exCommitted (sessionSetup 2 4 exPts ⟨[3], [0, 0, 0]⟩ ⟨[3], [1, 0, 1]⟩) ⟨Boundary.new, exNoFiles⟩
    r.1 = .ok () ∧ r.2.self.initCurve.map Curve.ctrlpts
      = some [[0, 0, 0], [1/3, 0, 1/3], [2/3, 0, 2/3], [1, 0, 1]] ∧
    (BOp.run exCommitted .fit r.2).1 = .error .valueError := by decide +kernel

/-- With planar data the cells succeed too (C115: no curve is ever fitted to them). -/
example :
    (runCells exCommitted (sessionSetup 2 4 ⟨[1, 2], [0, 0]⟩ ⟨[3], [0, 0, 0]⟩ ⟨[3], [1, 0, 1]⟩)
      ⟨Boundary.new, exNoFiles⟩).1 = .ok () := by decide +kernel

end PySpline
