import Verif.Props.Interior

/-!
# C138: calls on a `BoundaryProblem` some of whose attributes are missing
-/

set_option linter.unusedSectionVars false

namespace PySpline

section
variable {K : Type} [Field K] [LinearOrder K] [IsStrictOrderedRing K] [FloorRing K]

/-- The number of control points that `set_init_curve` passes on. -/
def Boundary.wanted (s : Boundary K) : Option ℤ := if s.fitMethod = "adaptive" then s.degree.map (· + 1) else s.numCtrl

theorem setInitCurve_error {s : Boundary K} {e : Err} (h : initCurveOf s.start s.fin s.degree s.wanted = .error e) :
    Boundary.setInitCurve s = (.error e, s) := by
  unfold Boundary.setInitCurve
  rw [Meth.read_bind]
  have : (if (id s).fitMethod = "adaptive" then
      initCurveOf (id s).start (id s).fin (id s).degree ((id s).degree.map (· + 1))
    else initCurveOf (id s).start (id s).fin (id s).degree (id s).numCtrl) = .error e := by
    unfold Boundary.wanted at h
    simp only [id]
    split
    · rename_i hm; rwa [if_pos hm] at h
    · rename_i hm; rwa [if_neg hm] at h
  rw [this]
  rfl

/-- **C138.** The exceptions of `set_init_curve` when something is missing or too small; nothing is changed. -/
theorem set_init_curve_missing (s : Boundary K) :
    (s.degree = none → Boundary.setInitCurve s = (.error .typeError, s)) ∧
    (s.fitMethod ≠ "adaptive" → s.numCtrl = none → Boundary.setInitCurve s = (.error .typeError, s)) ∧
    (∀ d n, s.fitMethod ≠ "adaptive" → s.degree = some d → s.numCtrl = some n → n < d →
      Boundary.setInitCurve s = (.error .valueError, s)) ∧
    (∀ d n, s.degree = some d → s.wanted = some n → d ≤ n → s.start = none ∨ s.fin = none →
      Boundary.setInitCurve s = (.error .typeError, s)) := by
  refine ⟨fun h => setInitCurve_error ?_, fun hm h => setInitCurve_error ?_, fun d n hm hd hn hlt => setInitCurve_error ?_,
    fun d n hd hn hle hse => setInitCurve_error ?_⟩
  · unfold initCurveOf
    rw [h]
    rfl
  · unfold initCurveOf Boundary.wanted
    rw [if_neg hm, h]
    cases s.degree <;> rfl
  · unfold initCurveOf Boundary.wanted
    rw [if_neg hm, hd, hn]
    show (if ¬ n ≥ d then _ else _) = _
    rw [if_pos (by omega)]
  · unfold initCurveOf
    rw [hd, hn]
    show (if ¬ n ≥ d then _ else _) = _
    rw [if_neg (by omega)]
    rcases hse with h | h
    · rw [h]; rfl
    · rw [h]; cases s.start <;> rfl

/-- **C138.** Whatever `set_init_curve` raises, `parameterize` and `fit` raise on an object that has no curve yet, and they change
nothing either. -/
theorem missing_propagates (env : DataEnv K) (s : Boundary K) (hi : s.initCurve = none) {e : Err}
    (h : Boundary.setInitCurve s = (.error e, s)) :
    Boundary.fit env s = (.error e, s) ∧ (s.fitCurve = none → Boundary.parameterize env s = (.error e, s)) := by
  constructor
  · unfold Boundary.fit
    rw [Meth.read_bind, if_pos (by exact hi), Meth.bind_error h]
  · intro hf
    unfold Boundary.parameterize
    rw [Meth.read_bind, if_pos (by exact ⟨hi, hf⟩)]
    exact Meth.bind_error (Meth.bind_error h _) _

/-- **C138.** Without data both raise a `TypeError`, but the initial curve they have made is kept. -/
theorem missing_data (env : DataEnv K) (s : Boundary K) (hd : s.data = none) :
    (∀ c, s.initCurve = some c → Boundary.fit env s = (.error .typeError, s) ∧
      Boundary.parameterize env s = (.error .typeError, s)) ∧
    ∀ s', s.initCurve = none → s.fitCurve = none → Boundary.setInitCurve s = (.ok (), s') →
      (∃ c, s' = { s with initCurve := some c }) ∧ Boundary.fit env s = (.error .typeError, s') ∧
      Boundary.parameterize env s = (.error .typeError, s') := by
  have fitE : ∀ (s : Boundary K), s.data = none → ∀ c, s.initCurve = some c → Boundary.fit env s = (.error .typeError, s) := by
    intro s hd c hc
    unfold Boundary.fit
    rw [Meth.read_bind, if_neg (by rw [show (id s).initCurve = some c from hc]; simp)]
    have : finalFit env s = .error .typeError := by
      unfold finalFit
      rw [hc, hd]
      rfl
    show ((Meth.lift (finalFit env s) : Meth (Boundary K) _) >>= _) s = _
    rw [this]
    rfl
  have parE : ∀ (s : Boundary K), s.data = none → ∀ c, s.initCurve = some c →
      Boundary.parameterize env s = (.error .typeError, s) := by
    intro s hd c hc
    unfold Boundary.parameterize
    rw [Meth.read_bind, if_neg (by rw [show (id s).initCurve = some c from hc]; simp)]
    obtain ⟨deg, dat, st, fi, nc, fm, ic, pd0, fc⟩ := s
    dsimp only at hd hc
    subst hd hc
    cases fc <;> rfl
  refine ⟨fun c hc => ⟨fitE s hd c hc, parE s hd c hc⟩, fun s' hi hf h => ?_⟩
  have hs' : ∃ c, s' = { s with initCurve := some c } := by
    unfold Boundary.setInitCurve at h
    rw [Meth.read_bind, Meth.bind_apply] at h
    split at h
    · rename_i c s1 h1
      have : s1 = s := by
        have := congrArg Prod.snd h1
        exact this.symm
      subst this
      exact ⟨c, (congrArg Prod.snd h).symm⟩
    · cases h
  obtain ⟨c, rfl⟩ := hs'
  refine ⟨⟨c, rfl⟩, ?_, ?_⟩
  · rw [← fitE { s with initCurve := some c } hd c rfl]
    unfold Boundary.fit
    rw [Meth.read_bind, Meth.read_bind, if_pos (by exact hi), if_neg (by simp), Meth.bind_ok h]
    rfl
  · rw [← parE { s with initCurve := some c } hd c rfl]
    unfold Boundary.parameterize
    rw [Meth.read_bind, Meth.read_bind, if_pos (by exact ⟨hi, hf⟩), if_neg (by simp),
      if_pos (by exact hf)]
    have h1 : (do
        Boundary.setInitCurve
        let s ← Meth.read id
        Meth.lift (curveOf s.initCurve) : Meth (Boundary K) (Curve K)) s = (.ok c, { s with initCurve := some c }) :=
      (Meth.bind_ok h _).trans rfl
    rw [Meth.bind_ok h1]
    rfl

end

/-- Nothing is set; then one after the other. -/
example : (Boundary.fit exDataEnv (Boundary.new : Boundary ℚ)).1 = .error .typeError := by decide +kernel

example : (Boundary.history exDataEnv ⟨Boundary.new, exNoFiles⟩
    [(.degree (.int 2), exNoFiles), (.start (.arr ⟨[3], [0, 0, 0]⟩), exNoFiles), (.fit, exNoFiles)]).self.initCurve = none ∧
    (Boundary.history exDataEnv ⟨Boundary.new, exNoFiles⟩
      [(.degree (.int 2), exNoFiles), (.start (.arr ⟨[3], [0, 0, 0]⟩), exNoFiles),
        (.fin (.arr ⟨[3], [2, 0, 0]⟩), exNoFiles), (.fitMethod (.str "adaptive"), exNoFiles), (.fit, exNoFiles)]).self.initCurve
      = some ⟨2, [[0, 0, 0], [1, 0, 0], [2, 0, 0]], [0, 0, 0, 1, 1, 1]⟩ := by
  decide +kernel

end PySpline
