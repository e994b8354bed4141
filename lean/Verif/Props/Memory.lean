import Verif.Lemmas.MemoryFit
import Verif.Props.KnotFit
import Verif.Props.SurfaceFitUnique

/-!
# C187: what the functions do to the arrays and objects of their caller

The value model copies arrays on every assignment.  Here the memory is explicit (`Verif/Model/Memory.lean`), and the
functions are shown to do to the contents of the memory what the value model says (`Sim`), to write into no array and no
object that existed before, also when they raise, and which arrays the results share with the arguments is determined.
-/

namespace PySpline

section
variable {K : Type} [Field K] [LinearOrder K] {m : Mem K}

/-! ## Functions on arrays -/

/-- `normalize` works in place, but on an array of its own. -/
theorem normalize_memory (m : Mem K) (U : Ref) :
    Sim (Unwritten m) (normalizeMem U m) (normalize (m.vec U)) fun r m' l =>
      Unwritten m m' ∧ m.vecs.length ≤ r ∧ m'.vec r = l := by
  refine (normalizeMem_sim m U).mono (fun _ h => h.unwritten) ?_
  rintro r m' l - ⟨rfl, rfl⟩
  exact ⟨(Grown.loc _ _ _).unwritten, le_rfl, m.loc_vec_new _ _ 0⟩

/-- `curve_knot_insertion` keeps the old knots and control points and returns two new arrays. -/
theorem curve_knot_insertion_memory (p : ℕ) {U P : Ref} (hU : U < m.vecs.length)
    (hP : P < m.mats.length) (u : K) (r : ℕ) :
    Sim (Unwritten m) (curveKnotInsertionMem p U P u r m) (curveKnotInsertion p (m.vec U) (m.mat P) u r)
      fun a m' b => Unwritten m m' ∧ m.vecs.length ≤ a.1 ∧ m.mats.length ≤ a.2 ∧
        m'.vec a.1 = b.1 ∧ m'.mat a.2 = b.2 := by
  refine (curveKnotInsertionMem_sim m p hU hP u r).mono (fun _ h => h.unwritten) ?_
  rintro _ m' b - ⟨rfl, R, rfl⟩
  exact ⟨(Grown.loc _ _ _).unwritten, le_rfl, le_rfl, m.loc_vec_new _ _ 0, m.loc_mat_new _ _ 0⟩

omit [LinearOrder K] in
/-- `linear_fit_fixed` returns its argument `P` itself when every entry is fixed and a new array otherwise. -/
theorem linear_fit_fixed_memory (ls : ℕ → List (List K) → List K → List K) {R Q P : Ref}
    (hR : R < m.mats.length) (hQ : Q < m.vecs.length) (hP : P < m.vecs.length) (fixed : List Bool) :
    Sim (Unwritten m) (linearFitFixedMem ls R Q P fixed m)
      (linearFitFixed ls (m.mat R) (m.vec Q) (m.vec P) fixed) fun r m' x =>
        Unwritten m m' ∧ m'.vec r = x ∧
        (r = P ↔ ∀ i < (m.vec P).length, fixed.getD i false = true) ∧
        (r = P ∨ m.vecs.length ≤ r) := by
  refine (linearFitFixedMem_sim ls hR hQ hP fixed).mono (fun _ h => h.unwritten) ?_
  rintro r m' x - (⟨rfl, rfl, rfl, h⟩ | ⟨rfl, ⟨i, hi, hf⟩, q, f, a, rfl⟩)
  · exact ⟨(Grown.refl _).unwritten, rfl, ⟨fun _ => h, fun _ => rfl⟩, Or.inl rfl⟩
  · refine ⟨(Grown.loc _ _ _).unwritten, m.loc_vec_new _ _ 2, ⟨fun h => ?_, fun h => ?_⟩, Or.inr (Nat.le_add_right _ _)⟩
    · exact absurd h (ne_of_gt (lt_of_lt_of_le hP (Nat.le_add_right _ _)))
    · rw [h i hi] at hf
      cases hf

/-! ## Methods that change an object -/

/-- `insert_knot` reassigns two attributes of its object.  The arrays stay: another object that shares them does not
notice. -/
theorem insert_knot_memory {o : Ref} (ho : LiveCurve m o) (u : K) :
    Sim (Unwritten m) (insertKnotMem o u m) ((m.curve o).insertKnot u) fun _ m' c =>
      UnwrittenBut o m m' ∧ LiveCurve m' o ∧ m'.curve o = c ∧ m.mats.length ≤ (m'.curveObj o).ctrl ∧
        m.vecs.length ≤ (m'.curveObj o).kv := by
  refine (insertKnotMem_sim ho u).mono (fun _ h => h.unwritten) ?_
  rintro - m' c - ⟨a, h1, h2⟩
  exact ⟨a.own.unwrittenBut, a.live, a.value, h1, h2⟩

/-- `single_fit_curve` reassigns the control points of its object and keeps the array of the knot vector. -/
theorem single_fit_curve_memory (ls : ℕ → List (List K) → List K → List K) {o D : Ref}
    (ho : LiveCurve m o) (hD : D < m.mats.length) :
    Sim (Unwritten m) (singleFitCurveMem ls o D m) (singleFitCurve ls (m.curve o) (m.mat D)) fun _ m' c =>
      UnwrittenBut o m m' ∧ LiveCurve m' o ∧ m'.curve o = c ∧ m.mats.length ≤ (m'.curveObj o).ctrl ∧
        (m'.curveObj o).kv = (m.curveObj o).kv := by
  refine (singleFitCurveMem_sim ls ho hD).mono (fun _ h => h.unwritten) ?_
  rintro - m' c - ⟨a, h1, h2⟩
  exact ⟨a.own.unwrittenBut, a.live, a.value, h1, h2⟩

/-- `single_fit_surface` likewise. -/
theorem single_fit_surface_memory (ls : ℕ → List (List K) → List K → List K) {o D : Ref}
    (ho : LiveSurf m o) (hD : D < m.mats.length) :
    Sim (Unwritten m) (singleFitSurfaceMem ls o D m) (singleFitSurface ls (m.surface o) (m.mat D)) fun _ m' s =>
      UnwrittenButSurf o m m' ∧ LiveSurf m' o ∧ m'.surface o = s ∧ m.mats.length ≤ (m'.surfObj o).ctrl ∧
        (m'.surfObj o).kvU = (m.surfObj o).kvU ∧ (m'.surfObj o).kvV = (m.surfObj o).kvV := by
  refine (singleFitSurfaceMem_sim ls ho hD).mono (fun _ h => h.unwritten) ?_
  rintro - m' s - ⟨m1, r, g, h1, h2, rfl, l, e, v⟩
  refine ⟨⟨g.unwritten.vecs, g.unwritten.mats, g.curves, by simp [g.surfs], fun x hx => ?_⟩, l, v, by rw [e]; exact h1,
    by rw [e], by rw [e]⟩
  simp [Mem.surfObj, g.surfs, List.getD_eq_getElem?_getD, List.getElem?_set_ne hx.symm]

omit [Field K] [LinearOrder K] in
/-- Another curve, whichever arrays it shares with `o`, looks the same after a call that may reassign attributes of
`o`. -/
theorem UnwrittenBut.other {o o' : Ref} {m m' : Mem K} (h : UnwrittenBut o m m') (hne : o' ≠ o) (ho : LiveCurve m o') :
    m'.curve o' = m.curve o' := by
  rw [Mem.curve, h.curves o' hne, Mem.curve]
  congr 1
  · exact getD_of_prefix h.mats ho.ctrl _
  · exact getD_of_prefix h.vecs ho.kv _

/-! ## Complete fits -/

/-- `fit_curve_knot_insertion` keeps everything and returns a new object with control points of its own.  The array of its
knot vector is the array of the given curve if no knot was to be inserted, and a new one otherwise. -/
theorem fit_curve_knot_insertion_memory (fuel : ℕ) (env : FitEnv K) {o D : Ref} (ho : LiveCurve m o)
    (hD : D < m.mats.length) (numPts : ℤ) :
    Sim (Unwritten m) (fitCurveKnotInsertionMem fuel env o D numPts m)
      (fitCurveKnotInsertion fuel env (m.curve o) (m.mat D) numPts) fun t m' c =>
        Unwritten m m' ∧ m.curves.length ≤ t ∧ LiveCurve m' t ∧ m'.curve t = c ∧
        m.mats.length ≤ (m'.curveObj t).ctrl ∧
        (if numPts ≤ (m.curve o).ctrlpts.length then (m'.curveObj t).kv = (m.curveObj o).kv
          else m.vecs.length ≤ (m'.curveObj t).kv) := by
  refine (fitCurveKnotInsertionMem_sim fuel env ho hD numPts).mono (fun _ h => h) ?_
  rintro t m' c - ⟨h1, rfl, h2, h3, h4, h5⟩
  refine ⟨h1, le_rfl, h2, h3, h4, ?_⟩
  rcases h5 with ⟨h5, h6⟩ | ⟨h5, h6⟩
  · rw [if_pos h6]; exact h5
  · rw [if_neg (by omega)]; exact h5

/-- `fit_curve_fixed_ctrlpts` keeps everything and returns a new object with control points of its own and the knot vector
array of the given curve. -/
theorem fit_curve_fixed_memory (fuel : ℕ) (env : FitEnv K) {o D : Ref} (ho : LiveCurve m o)
    (hD : D < m.mats.length) :
    Sim (Unwritten m) (fitCurveFixedMem fuel env o D m)
      (fitCurveFixed fuel env (m.curve o) (m.mat D)) fun t m' c =>
        Unwritten m m' ∧ m.curves.length ≤ t ∧ LiveCurve m' t ∧ m'.curve t = c ∧
        m.mats.length ≤ (m'.curveObj t).ctrl ∧ (m'.curveObj t).kv = (m.curveObj o).kv :=
  fitCurveFixedMem_sim fuel env ho hD

/-- `fit_surface` keeps everything and returns a new object with control points of its own and the knot vector arrays of
the given surface. -/
theorem fit_surface_memory (env : FitEnv K) {o : Ref} (D T B : Ref) (ho : LiveSurf m o) :
    Sim (Unwritten m) (fitSurfaceMem env o D T B m)
      (fitSurface env (m.surface o) (m.mat D) (m.mat T) (m.mat B)) fun t m' s =>
        Unwritten m m' ∧ m.surfs.length ≤ t ∧ LiveSurf m' t ∧ m'.surface t = s ∧
        m.mats.length ≤ (m'.surfObj t).ctrl ∧ (m'.surfObj t).kvU = (m.surfObj o).kvU ∧
        (m'.surfObj t).kvV = (m.surfObj o).kvV := by
  refine (fitSurfaceMem_sim env D T B ho).mono (fun _ h => h) ?_
  rintro t m' s - ⟨h1, rfl, h⟩
  exact ⟨h1, le_rfl, h⟩

/-! ## Writes of the caller after a fit -/

omit [Field K] [LinearOrder K] in
theorem vwrite_vec (m : Mem K) (r s : Ref) (l : List K) (hr : r < m.vecs.length) :
    ((vwrite r l : Eff K Unit) m).2.vec s = if s = r then l else m.vec s := by
  by_cases h : s = r
  · subst h
    simp [vwrite, Mem.vec, List.getD_eq_getElem?_getD, hr]
  · simp [vwrite, Mem.vec, List.getD_eq_getElem?_getD, h, List.getElem?_set_ne (Ne.symm h)]

omit [Field K] [LinearOrder K] in
theorem mwrite_mat (m : Mem K) (r s : Ref) (l : List (List K)) (hr : r < m.mats.length) :
    ((mwrite r l : Eff K Unit) m).2.mat s = if s = r then l else m.mat s := by
  by_cases h : s = r
  · subst h
    simp [mwrite, Mem.mat, List.getD_eq_getElem?_getD, hr]
  · simp [mwrite, Mem.mat, List.getD_eq_getElem?_getD, h, List.getElem?_set_ne (Ne.symm h)]

omit [Field K] [LinearOrder K] in
theorem Sim.of_run {α β : Type} {F : Mem K → Prop} {x : Py α × Mem K} {y : Py β}
    {Q : α → Mem K → β → Prop} (h : Sim F x y Q) {a : α} {m' : Mem K} (hx : x = (.ok a, m')) :
    ∃ b, y = .ok b ∧ Q a m' b := by
  cases y with
  | ok b =>
    obtain ⟨a', m'', h1, h2⟩ := h
    rw [hx] at h1
    cases h1
    exact ⟨b, rfl, h2⟩
  | error e =>
    obtain ⟨m'', h1, -⟩ := h
    rw [hx] at h1
    cases h1

/-- After `fit_curve_fixed_ctrlpts`: whatever the caller writes into an array they had before, the fitted curve only
notices writes into the knot vector of the given curve, and there it follows them.  In the other direction, a write into
the control points of the result does not reach the given curve, a write into its knot vector does. -/
theorem fit_curve_fixed_later_writes {fuel : ℕ} {env : FitEnv K} {o D t : Ref} {m' : Mem K} (ho : LiveCurve m o)
    (hD : D < m.mats.length) (h : fitCurveFixedMem fuel env o D m = (.ok t, m')) :
    (∀ r < m.mats.length, ∀ l, (mwrite r l m').2.curve t = m'.curve t) ∧
    (∀ r < m.vecs.length, ∀ l, (vwrite r l m').2.curve t
      = if r = (m.curveObj o).kv then { m'.curve t with kv := l } else m'.curve t) ∧
    (∀ l, (mwrite (m'.curveObj t).ctrl l m').2.curve o = m.curve o) ∧
    (∀ l, (vwrite (m'.curveObj t).kv l m').2.curve o = { m.curve o with kv := l }) := by
  obtain ⟨c, -, k, -, lt, -, hc, hk⟩ := (fit_curve_fixed_memory fuel env ho hD).of_run h
  have hkv : (m.curveObj o).kv < m'.vecs.length := lt_of_lt_of_le ho.kv k.vecs.length_le
  refine ⟨fun r hr l => ?_, fun r hr l => ?_, fun l => ?_, fun l => ?_⟩
  · have e := mwrite_mat m' r (m'.curveObj t).ctrl l (lt_of_lt_of_le hr k.mats.length_le)
    rw [if_neg (ne_of_gt (lt_of_lt_of_le hr hc))] at e
    show (⟨_, (mwrite r l m').2.mat (m'.curveObj t).ctrl, _⟩ : Curve K) = _
    rw [e]; rfl
  · have e := vwrite_vec m' r (m'.curveObj t).kv l (lt_of_lt_of_le hr k.vecs.length_le)
    rw [hk] at e
    show (⟨_, _, (vwrite r l m').2.vec (m'.curveObj t).kv⟩ : Curve K) = _
    rw [hk, e]
    by_cases hr' : r = (m.curveObj o).kv
    · rw [if_pos hr'.symm, if_pos hr']; rfl
    · rw [if_neg (Ne.symm hr'), if_neg hr', Mem.curve, hk]; rfl
  · have e := mwrite_mat m' (m'.curveObj t).ctrl (m'.curveObj o).ctrl l lt.ctrl
    rw [k.curveObj ho.obj, if_neg (ne_of_lt (lt_of_lt_of_le ho.ctrl hc))] at e
    show (⟨(m'.curveObj o).degree, (mwrite (m'.curveObj t).ctrl l m').2.mat (m'.curveObj o).ctrl,
      m'.vec (m'.curveObj o).kv⟩ : Curve K) = _
    rw [k.curveObj ho.obj, e, k.mat ho.ctrl, k.vec ho.kv]; rfl
  · have e := vwrite_vec m' (m'.curveObj t).kv (m'.curveObj o).kv l lt.kv
    rw [k.curveObj ho.obj, if_pos hk.symm] at e
    show (⟨(m'.curveObj o).degree, m'.mat (m'.curveObj o).ctrl,
      (vwrite (m'.curveObj t).kv l m').2.vec (m'.curveObj o).kv⟩ : Curve K) = _
    rw [k.curveObj ho.obj, e, k.mat ho.ctrl]; rfl

/-- After `fit_curve_knot_insertion` that had to insert knots the result shares nothing with the caller: no write into an
array they had before changes it. -/
theorem fit_curve_knot_insertion_later_writes {fuel : ℕ} {env : FitEnv K} {o D t : Ref} {numPts : ℤ} {m' : Mem K}
    (ho : LiveCurve m o) (hD : D < m.mats.length) (hn : ((m.curve o).ctrlpts.length : ℤ) < numPts)
    (h : fitCurveKnotInsertionMem fuel env o D numPts m = (.ok t, m')) :
    (∀ r < m.mats.length, ∀ l, (mwrite r l m').2.curve t = m'.curve t) ∧
    (∀ r < m.vecs.length, ∀ l, (vwrite r l m').2.curve t = m'.curve t) := by
  obtain ⟨c, -, k, -, lt, -, hc, hk⟩ := (fit_curve_knot_insertion_memory fuel env ho hD numPts).of_run h
  rw [if_neg (by omega)] at hk
  refine ⟨fun r hr l => ?_, fun r hr l => ?_⟩
  · have e := mwrite_mat m' r (m'.curveObj t).ctrl l (lt_of_lt_of_le hr k.mats.length_le)
    rw [if_neg (ne_of_gt (lt_of_lt_of_le hr hc))] at e
    show (⟨_, (mwrite r l m').2.mat (m'.curveObj t).ctrl, _⟩ : Curve K) = _
    rw [e]; rfl
  · have e := vwrite_vec m' r (m'.curveObj t).kv l (lt_of_lt_of_le hr k.vecs.length_le)
    rw [if_neg (ne_of_gt (lt_of_lt_of_le hr hk))] at e
    show (⟨_, _, (vwrite r l m').2.vec (m'.curveObj t).kv⟩ : Curve K) = _
    rw [e]; rfl

/-- After `fit_surface`: the fitted surface only notices writes into the knot vectors of the given surface. -/
theorem fit_surface_later_writes {env : FitEnv K} {o D T B t : Ref} {m' : Mem K} (ho : LiveSurf m o)
    (h : fitSurfaceMem env o D T B m = (.ok t, m')) :
    (∀ r < m.mats.length, ∀ l, (mwrite r l m').2.surface t = m'.surface t) ∧
    (∀ r < m.vecs.length, ∀ l, (vwrite r l m').2.surface t
      = { m'.surface t with
          kvU := if r = (m.surfObj o).kvU then l else (m'.surface t).kvU
          kvV := if r = (m.surfObj o).kvV then l else (m'.surface t).kvV }) := by
  obtain ⟨c, -, k, -, lt, -, hc, hu, hv⟩ := (fit_surface_memory env D T B ho).of_run h
  refine ⟨fun r hr l => ?_, fun r hr l => ?_⟩
  · have e := mwrite_mat m' r (m'.surfObj t).ctrl l (lt_of_lt_of_le hr k.mats.length_le)
    rw [if_neg (ne_of_gt (lt_of_lt_of_le hr hc))] at e
    show (⟨_, _, _, _, (mwrite r l m').2.mat (m'.surfObj t).ctrl, _, _⟩ : Surface K) = _
    rw [e]; rfl
  · have e := vwrite_vec m' r (m'.surfObj t).kvU l (lt_of_lt_of_le hr k.vecs.length_le)
    have e' := vwrite_vec m' r (m'.surfObj t).kvV l (lt_of_lt_of_le hr k.vecs.length_le)
    show (⟨_, _, _, _, _, (vwrite r l m').2.vec (m'.surfObj t).kvU, (vwrite r l m').2.vec (m'.surfObj t).kvV⟩ :
      Surface K) = _
    rw [e, e', hu, hv]
    simp only [eq_comm (a := r)]
    simp only [Mem.surface, hu, hv]
    rfl

/-! ## The setter of the knot vector -/

theorem checkKnotVectorMem_sim (p n : ℕ) (U : Ref) :
    Sim (Grown m) (checkKnotVectorMem p U n m) (checkKnotVector p (m.vec U) n) fun b m' b' =>
      b = b' ∧ Grown m m' := by
  have h := normalizeMem_sim m U
  unfold checkKnotVectorMem checkKnotVector
  cases hn : normalize (m.vec U) with
  | error e =>
    rw [hn] at h
    obtain ⟨m', h1, h2⟩ := h
    rw [h1]
    cases e
    all_goals first | exact ⟨m', rfl, h2⟩ | exact ⟨false, m', rfl, rfl, h2⟩
  | ok l =>
    rw [hn] at h
    obtain ⟨r, m', h1, rfl, rfl⟩ := h
    rw [h1]
    have e := m.loc_vec_new [l] [] 0
    rw [Nat.add_zero] at e
    show Sim _ (checkNormalized p ((m.loc [l] []).vec m.vecs.length) n, _) _ _
    rw [e]
    show Sim _ (checkNormalized p l n, _) (checkNormalized p l n) _
    cases checkNormalized p l n with
    | error e => exact ⟨_, rfl, Grown.loc _ _ _⟩
    | ok b => exact ⟨b, _, rfl, rfl, Grown.loc _ _ _⟩

/-- The setter of the knot vector reads the array, stores the array itself if the knots pass the check and ignores it
otherwise. -/
theorem set_knot_vector_memory {o kv : Ref} (ho : LiveCurve m o) (hkv : kv < m.vecs.length) :
    Sim (Unwritten m) (setKnotVectorMem o kv m)
      (checkKnotVector (m.curve o).degree (m.vec kv) (m.curve o).ctrlpts.length) fun _ m' good =>
        UnwrittenBut o m m' ∧ LiveCurve m' o ∧ (m'.curveObj o).ctrl = (m.curveObj o).ctrl ∧
        (m'.curveObj o).kv = if good then kv else (m.curveObj o).kv := by
  unfold setKnotVectorMem
  refine Sim.step (a := m.curveObj o) rfl ?_
  refine Sim.step (a := m.mat (m.curveObj o).ctrl) rfl ?_
  rw [← bind_pure (checkKnotVector (m.curve o).degree (m.vec kv) (m.curve o).ctrlpts.length)]
  refine Sim.bind ((checkKnotVectorMem_sim (m.curveObj o).degree (m.mat (m.curveObj o).ctrl).length kv).mono
    (fun _ h => h.unwritten) fun _ _ _ _ h => h) ?_
  rintro good m1 _ ⟨rfl, g1⟩
  cases good with
  | true =>
    obtain ⟨m3, e3, o3, a3⟩ := writeCurve_after ho.obj g1 { m.curveObj o with kv := kv }
      (lt_of_lt_of_le ho.ctrl g1.mats_le) (lt_of_lt_of_le hkv g1.vecs_le)
    refine ⟨(), m3, e3, a3.own.unwrittenBut, a3.live, ?_, ?_⟩ <;> rw [o3]
    rfl
  | false =>
    refine ⟨(), m1, rfl, (OwnCurve.of_grown ho.obj g1).unwrittenBut, g1.live ho, ?_, ?_⟩ <;> rw [g1.curveObj]
    rfl

/-- An accepted knot vector can be anything later: the object follows whatever the caller writes into the array, without
any check. -/
theorem set_knot_vector_later_writes {o kv : Ref} {m' : Mem K} (ho : LiveCurve m o) (hkv : kv < m.vecs.length)
    (hgood : checkKnotVector (m.curve o).degree (m.vec kv) (m.curve o).ctrlpts.length = .ok true)
    (h : setKnotVectorMem o kv m = (.ok (), m')) :
    (m'.curve o).kv = m.vec kv ∧ ∀ l, ((vwrite kv l m').2.curve o).kv = l := by
  obtain ⟨b, hb, k, l, -, e⟩ := (set_knot_vector_memory ho hkv).of_run h
  rw [hgood] at hb
  cases hb
  rw [if_pos rfl] at e
  have hkv' : kv < m'.vecs.length := lt_of_lt_of_le hkv k.vecs.length_le
  refine ⟨?_, fun l => ?_⟩
  · rw [Mem.curve, e]
    exact getD_of_prefix k.vecs hkv _
  · have e' := vwrite_vec m' kv kv l hkv'
    rw [if_pos rfl] at e'
    show (vwrite kv l m').2.vec (m'.curveObj o).kv = l
    rw [e, e']

end

/-! ## Concrete cases -/

/-- A memory with the curve `exFitCurve`, a second curve object on the same two arrays and the data `exKnotData`. -/
def exMem : Mem ℚ :=
  ⟨[exFitCurve.kv], [exFitCurve.ctrlpts, exKnotData], [⟨2, 0, 0⟩, ⟨2, 0, 0⟩], []⟩

theorem exMem_live : LiveCurve exMem 0 := ⟨by decide, by decide, by decide⟩

example : exMem.curve 0 = exFitCurve ∧ exMem.curve 1 = exFitCurve := by decide +kernel

/-- Inserting `1/2` into the first curve: the second one, on the same arrays, keeps its knots. -/
example : ((insertKnotMem 0 (1/2) exMem).2.curve 0).kv = [0, 0, 0, 1/2, 1, 1, 1] ∧
    (insertKnotMem 0 (1/2) exMem).2.curve 1 = exFitCurve := by decide +kernel

/-- The complete fit with fixed control points: the new object is number 4, on the knot array of the given curve. -/
example : (fitCurveFixedMem 1 (exEnv exLs) 0 1 exMem).1 = .ok 4 ∧
    ((fitCurveFixedMem 1 (exEnv exLs) 0 1 exMem).2.curveObj 4).kv = 0 ∧
    (fitCurveFixedMem 1 (exEnv exLs) 0 1 exMem).2.curve 0 = exFitCurve := by decide +kernel

/-- `fit_curve_fixed_later_writes` on it: zeroing the knots of the given curve zeroes those of the fitted one. -/
example : ((vwrite 0 [0, 0, 0, 0, 0, 0] (fitCurveFixedMem 1 (exEnv exLs) 0 1 exMem).2).2.curve 4).kv = [0, 0, 0, 0, 0, 0] := by
  have h : (fitCurveFixedMem 1 (exEnv exLs) 0 1 exMem).1 = .ok 4 := by decide +kernel
  have := (fit_curve_fixed_later_writes exMem_live (by decide) (Prod.ext h rfl)).2.1 0 (by decide)
    [0, 0, 0, 0, 0, 0]
  rw [this]
  rfl

/-- The adaptive fit to five control points shares nothing; to three it shares the knots. -/
example : ((fitCurveKnotInsertionMem 3 (exEnv exLs) 0 1 5 exMem).2.curveObj 2).kv ≠ 0 ∧
    ((fitCurveKnotInsertionMem 3 (exEnv exLs) 0 1 3 exMem).2.curveObj 2).kv = 0 := by decide +kernel

/-- A fit that runs out of rounds has kept everything the caller had. -/
example : ∃ m', fitCurveKnotInsertionMem 2 (exEnv exLs) 0 1 5 exMem = (.error .diverged, m') ∧ Unwritten exMem m' := by
  have h := fit_curve_knot_insertion_memory 2 (exEnv exLs) exMem_live (D := 1) (by decide) 5
  rwa [show fitCurveKnotInsertion 2 (exEnv exLs) (exMem.curve 0) (exMem.mat 1) 5 = .error .diverged by decide +kernel] at h

/-- The surface `exWide` with two data points and one point on each boundary. -/
def exSurfMem : Mem ℚ :=
  ⟨[exWide.kvU, exWide.kvV], [exWide.ctrlpts, [[2/3, 1/2, 3], [1/3, 1/2, 4]], [[0, 1, 0, 1/2]], [[0, 0, 0, 1/2]]], [],
    [⟨1, 1, 4, 3, 0, 0, 1⟩]⟩

/-- The surface fit returns a second object; it has new control points and shares both knot vectors. -/
example : let r := fitSurfaceMem { exEnv exLs with surfLike := fun _ => exFlat } 0 1 2 3 exSurfMem
    r.1 = .ok 1 ∧ (r.2.surfObj 1).kvU = 0 ∧ (r.2.surfObj 1).kvV = 1 ∧ (r.2.surfObj 1).ctrl ≠ 0 ∧
      r.2.surface 0 = exWide := by decide +kernel

/-- `fit_surface_later_writes` on it. -/
example : ((vwrite 1 [0, 0, 1/4, 1, 1]
      (fitSurfaceMem { exEnv exLs with surfLike := fun _ => exFlat } 0 1 2 3 exSurfMem).2).2.surface 1).kvV
    = [0, 0, 1/4, 1, 1] := by
  have h : (fitSurfaceMem { exEnv exLs with surfLike := fun _ => exFlat } 0 1 2 3 exSurfMem).1 = .ok 1 := by decide +kernel
  rw [(fit_surface_later_writes (m := exSurfMem) (o := 0) ⟨by decide, by decide, by decide, by decide⟩
    (Prod.ext h rfl)).2 1 (by decide)]
  rfl

/-- `normalize` does not normalize its argument. -/
example : (normalizeMem 0 (⟨[[2, 4, 6]], [], [], []⟩ : Mem ℚ)) = (.ok 1, ⟨[[2, 4, 6], [0, 1/2, 1]], [], [], []⟩) := by
  decide +kernel

/-- `linear_fit_fixed` with all entries fixed returns its argument. -/
example : (linearFitFixedMem exLs 0 0 1 [true, true] (⟨[[5], [7, 8]], [[[1, 1]]], [], []⟩ : Mem ℚ)).1 = .ok 1 ∧
    (linearFitFixedMem exLs 0 0 1 [true, false] (⟨[[5], [7, 8]], [[[1, 1]]], [], []⟩ : Mem ℚ)).1 = .ok 4 := by
  decide +kernel

/-- The setter accepts `[0, 0, 1, 1]`; afterwards the caller overwrites it, and the object holds decreasing knots that the
setter would have refused. -/
example : let m : Mem ℚ := ⟨[[0, 0, 0, 1], [0, 0, 1, 1]], [[[0, 0, 0], [1, 0, 0]]], [⟨1, 0, 0⟩], []⟩
    let m' := (setKnotVectorMem 0 1 m).2
    (m'.curve 0).kv = [0, 0, 1, 1] ∧ ((vwrite 1 [3, 2, 1, 0] m').2.curve 0).kv = [3, 2, 1, 0] ∧
      checkKnotVector 1 ([3, 2, 1, 0] : List ℚ) 2 = .ok false := by decide +kernel

end PySpline
