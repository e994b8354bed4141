import Verif.Props.KnotFit
import Verif.Props.Interior
import Verif.Props.FitPlanar

/-!
# C167: the complete fits do not depend on the order of the data; `fit_surface` as a whole

No assumption on the least-squares solver is needed for the order: every round sorts the parameterized rows first.
-/

set_option linter.unusedSectionVars false

namespace PySpline

open Spec Finset

section
variable {K : Type} [Field K] [LinearOrder K] [IsStrictOrderedRing K]

theorem knotFitLoop_order (env : FitEnv K) {data data' : List (List K)} (hp : data.Perm data') (numPts : ℤ) :
    ∀ (fuel : ℕ) (c c' : Curve K), knotFitLoop env data numPts fuel c = .ok c' →
      knotFitLoop env data' numPts fuel c = .ok c'
  | 0, _, _, h => by cases h
  | fuel + 1, c, c', h => by
    unfold knotFitLoop at h ⊢
    obtain ⟨rows, hrows, h⟩ := bind_eq_ok h
    rw [parameterize_curve_perm _ _ hp hrows, ok_bind]
    obtain ⟨t, ht, h⟩ := bind_eq_ok h
    rw [ht, ok_bind]
    split at h
    · rename_i hn
      rw [if_pos hn]
      exact h
    · rename_i hn
      rw [if_neg hn]
      obtain ⟨kn, hkn, h⟩ := bind_eq_ok h
      rw [hkn, ok_bind]
      obtain ⟨t2, ht2, h⟩ := bind_eq_ok h
      rw [ht2, ok_bind]
      exact knotFitLoop_order env hp numPts fuel t2 c' h

/-- **C167.** `fit_curve_knot_insertion` returns the same curve for every order of the data. -/
theorem fit_curve_knot_insertion_order (fuel : ℕ) (env : FitEnv K) (c c' : Curve K) {data data' : List (List K)}
    (hp : data.Perm data') (numPts : ℤ) :
    fitCurveKnotInsertion fuel env c data numPts = .ok c' ↔ fitCurveKnotInsertion fuel env c data' numPts = .ok c' :=
  ⟨knotFitLoop_order env hp numPts fuel c c', knotFitLoop_order env hp.symm numPts fuel c c'⟩

/-- **C167.** `fit_curve_fixed_ctrlpts` returns the same curve for every order of the data. -/
theorem fit_curve_fixed_order (fuel : ℕ) (env : FitEnv K) (c c' : Curve K) {data data' : List (List K)}
    (hp : data.Perm data') : fitCurveFixed fuel env c data = .ok c' ↔ fitCurveFixed fuel env c data' = .ok c' := by
  have one : ∀ {data data' : List (List K)}, data.Perm data' → fitCurveFixed fuel env c data = .ok c' →
      fitCurveFixed fuel env c data' = .ok c' := by
    intro data data' hp h
    unfold fitCurveFixed at h ⊢
    obtain ⟨a, ha, h⟩ := bind_eq_ok h
    obtain ⟨b, hb, h⟩ := bind_eq_ok h
    obtain ⟨i, hi, h⟩ := bind_eq_ok h
    obtain ⟨f, hf, h⟩ := bind_eq_ok h
    obtain ⟨r, hr, h⟩ := bind_eq_ok h
    obtain ⟨g, hg, h⟩ := bind_eq_ok h
    obtain ⟨q, hq, h⟩ := bind_eq_ok h
    rw [ha, ok_bind, hb, ok_bind, hi, ok_bind, (fit_curve_knot_insertion_order fuel env i f hp _).1 hf, ok_bind,
      parameterize_curve_perm _ _ hp hr, ok_bind, hg, ok_bind, parameterize_curve_perm _ _ hp hq, ok_bind, h]
  exact ⟨one hp, one hp.symm⟩

/-- **C167.** `fit_surface` returns the same surface for every order of the data, and of the boundary data. -/
theorem fit_surface_order (env : FitEnv K) (s s' : Surface K) {data data' top top' bottom bottom' : List (List K)}
    (hp : data.Perm data') (ht : top.Perm top') (hb : bottom.Perm bottom') :
    fitSurface env s data top bottom = .ok s' ↔ fitSurface env s data' top' bottom' = .ok s' := by
  have one : ∀ {data data' top top' bottom bottom' : List (List K)}, data.Perm data' → top.Perm top' →
      bottom.Perm bottom' → fitSurface env s data top bottom = .ok s' →
      fitSurface env s data' top' bottom' = .ok s' := by
    intro data data' top top' bottom bottom' hp ht hb h
    unfold fitSurface at h ⊢
    obtain ⟨rows, hrows, h⟩ := bind_eq_ok h
    rw [parameterize_surface_perm _ _ hp hrows, ok_bind]
    dsimp only at h ⊢
    have e : (rows ++ appendColumn top' 1 ++ appendColumn bottom' 0).all (fun row => row.length = 5)
        = (rows ++ appendColumn top 1 ++ appendColumn bottom 0).all (fun row => row.length = 5) := by
      refine List.Perm.all_eq ?_
      exact (List.Perm.append (List.Perm.append (List.Perm.refl _) (ht.symm.map _)) (hb.symm.map _))
    rw [e]
    exact h
  exact ⟨one hp ht hb, one hp.symm ht.symm hb.symm⟩

theorem parameterizeSurface_range {nm : Num K} {S : SurfLike K} {data rows : List (List K)}
    (h : parameterizeSurface nm S data = .ok rows) :
    Shape rows data.length 5 ∧ ∀ r < data.length, (0 ≤ at2 rows r 3 0 ∧ at2 rows r 3 0 ≤ 1) ∧
      0 ≤ at2 rows r 4 0 ∧ at2 rows r 4 0 ≤ 1 := by
  obtain ⟨us, hus, hperm, -, hsh⟩ := parameterize_surface_rows nm S data rows h
  refine ⟨hsh, fun r hr => ?_⟩
  have hmem : rows.getD r [] ∈ rows := by
    have : r < rows.length := by rw [hsh.1]; exact hr
    rw [List.getD_eq_getElem?_getD, List.getElem?_eq_getElem this]
    exact List.getElem_mem this
  have hmem' := hperm.mem_iff.1 hmem
  have hlen := hsh.2 _ hmem
  obtain ⟨i, hi, he⟩ := List.getElem_of_mem hmem'
  rw [List.getElem_zipWith] at he
  have hul := mapPy_length hus
  have hid : i < data.length := by
    rw [List.length_zipWith] at hi; omega
  have hui : surfaceInversionD nm S (data.getD i []) = .ok (us.getD i (0, 0)) := mapPy_getD hus [] (0, 0) i hid
  unfold surfaceInversionD at hui
  have hu01 := surface_inversion_mem _ _ _ _ _ _ _ _ hui
  have hl3 : (data[i]).length = 3 := by
    rw [← he, List.length_append] at hlen
    simpa using hlen
  have hiu : i < us.length := by omega
  have e3 : at2 rows r 3 0 = (us.getD i (0, 0)).1 := by
    unfold at2
    rw [← he, List.getD_eq_getElem?_getD, List.getElem?_append_right (by omega), hl3]
    simp [List.getD_eq_getElem?_getD, hiu]
  have e4 : at2 rows r 4 0 = (us.getD i (0, 0)).2 := by
    unfold at2
    rw [← he, List.getD_eq_getElem?_getD, List.getElem?_append_right (by omega), hl3]
    simp [List.getD_eq_getElem?_getD, hiu]
  rw [e3, e4]
  exact hu01

theorem npSortRows_sorted_rows {nm : Num K} {S : SurfLike K} {data rows : List (List K)}
    (h : parameterizeSurface nm S data = .ok rows) : npSortRows [3, 4, 0, 1, 2] rows = rows := by
  unfold parameterizeSurface at h
  obtain ⟨rs, -, h⟩ := bind_eq_ok h
  split at h
  · rename_i hall
    cases h
    have hl : ∀ r ∈ rs, r.length = 5 := fun r hr => by simpa using List.all_eq_true.1 hall r hr
    exact npSortRows_congr (n := 5) (by intro i hi; interval_cases i <;> simp)
      (fun r hr => hl r ((npSortRows_perm _ _).mem_iff.1 hr)) (npSortRows_perm _ _)
  · cases h

/-- **C167.** `fit_surface` as a whole: if the data can be parameterized on the initial surface (over knots from 0 to 1),
it returns a surface that differs from the initial one only in its control points, keeps those of the boundary, and
is at least as close to the data at these parameters, in each coordinate, as every surface with this boundary. -/
theorem fit_surface_optimal {env : FitEnv K} (hls : IsLstsq env.lstsq) {s : Surface K}
    {data top bottom rows : List (List K)} (hs : ClampedSurface s) (ku : UnitKnots s.degreeU s.numU s.kvU)
    (kv : UnitKnots s.degreeV s.numV s.kvV) (ht : ∀ row ∈ top, row.length = 4) (hb : ∀ row ∈ bottom, row.length = 4)
    (hpar : parameterizeSurface env.num (env.surfLike s) data = .ok rows) :
    ∃ s', fitSurface env s data top bottom = .ok s' ∧ s' = { s with ctrlpts := s'.ctrlpts } ∧
      (∀ i < s.numU, ∀ j < s.numV, i = 0 ∨ i + 1 = s.numU ∨ j = 0 ∨ j + 1 = s.numV →
        s'.ctrlpts.getD (i * s.numV + j) [] = s.ctrlpts.getD (i * s.numV + j) []) ∧
      ∀ k < 3, ∀ z : ℕ → K,
        (∀ i < s.numU, ∀ j < s.numV, i = 0 ∨ i + 1 = s.numU ∨ j = 0 ∨ j + 1 = s.numV →
          z (i * s.numV + j) = coord s.ctrlpts k (i * s.numV + j)) →
        ∑ r ∈ range data.length, (surface (knotFn s.kvU) s.degreeU s.numU (knotFn s.kvV) s.degreeV s.numV
            (coord s'.ctrlpts k) (at2 rows r 3 0) (at2 rows r 4 0) - at2 rows r k 0) ^ 2
          ≤ ∑ r ∈ range data.length, (surface (knotFn s.kvU) s.degreeU s.numU (knotFn s.kvV) s.degreeV s.numV
            z (at2 rows r 3 0) (at2 rows r 4 0) - at2 rows r k 0) ^ 2 := by
  have su := hs.cu.size
  have sv := hs.cv.size
  obtain ⟨hsh, hran⟩ := parameterizeSurface_range hpar
  have u0 : knotFn s.kvU s.degreeU = 0 := (hs.cu.left _ le_rfl).trans ku.zero
  have v0 : knotFn s.kvV s.degreeV = 0 := (hs.cv.left _ le_rfl).trans kv.zero
  have u1 : knotFn s.kvU s.numU = 1 := (hs.cu.right _ le_rfl (by omega)).trans ku.one
  have v1 : knotFn s.kvV s.numV = 1 := (hs.cv.right _ le_rfl (by omega)).trans kv.one
  obtain ⟨s', h1, h2, h3⟩ := single_fit_surface_optimal hls hs ku.first kv.first hsh
    (fun r hr => by rw [u0, u1]; exact (hran r hr).1) (fun r hr => by rw [v0, v1]; exact (hran r hr).2)
  have hfit := fit_surface_eq env s data top bottom rows ht hb hpar
  rw [npSortRows_sorted_rows hpar] at hfit
  obtain ⟨-, -, hk⟩ := single_fit_surface_keeps _ _ _ _ h1 (by omega) (by omega) hs.shape
  exact ⟨s', hfit.trans h1, h2, hk, h3⟩

variable [FloorRing K]

theorem finalFit_order (env : DataEnv K) (s : Boundary K) {a a' : Arr K} (ha : s.data = some a) (hp : a.rows.Perm a'.rows)
    {c : Curve K} (h : finalFit env s = .ok c) : finalFit env { s with data := some a' } = .ok c := by
  obtain ⟨deg, dat, st, fi, nc, fm, ic, pd0, fc⟩ := s
  dsimp only at ha
  subst ha
  unfold finalFit at h ⊢
  obtain ⟨c0, hc0, h⟩ := bind_eq_ok h
  dsimp only at hc0 ⊢
  rw [hc0, ok_bind]
  change (if fm = "adaptive" then knotInsertionOf env c0 a.rows nc else fitCurveFixed env.fuel env.fit c0 a.rows) = .ok c at h
  change (if fm = "adaptive" then knotInsertionOf env c0 a'.rows nc else fitCurveFixed env.fuel env.fit c0 a'.rows) = .ok c
  split at h
  · rename_i hm
    rw [if_pos hm]
    cases nc with
    | none =>
      obtain ⟨_, -, h⟩ := bind_eq_ok h
      obtain ⟨_, -, h⟩ := bind_eq_ok h
      cases h
    | some N => exact (fit_curve_knot_insertion_order _ _ _ _ hp _).1 h
  · rename_i hm
    rw [if_neg hm]
    exact (fit_curve_fixed_order _ _ _ _ hp).1 h

/-- **C167.** `BoundaryProblem.fit` on the same points in another order: the same curves, parameterized rows and number of
control points. -/
theorem boundary_fit_order (env : DataEnv K) {s s' : Boundary K} {a a' : Arr K} (ha : s.data = some a)
    (hp : a.rows.Perm a'.rows) (hs : Boundary.fit env s = (.ok (), s')) :
    Boundary.fit env { s with data := some a' } = (.ok (), { s' with data := some a' }) := by
  have main : ∀ s : Boundary K, s.data = some a → s.initCurve ≠ none → Boundary.fit env s = (.ok (), s') →
      Boundary.fit env { s with data := some a' } = (.ok (), { s' with data := some a' }) := by
    intro s ha hi hs
    rw [fit_eq hi] at hs
    rw [fit_eq (by exact hi)]
    cases hf : finalFit env s with
    | error e => rw [hf] at hs; cases hs
    | ok c =>
      rw [hf] at hs
      rw [finalFit_order env s ha hp hf]
      obtain ⟨deg, dat, st, fi, nc, fm, ic, pd0, fc⟩ := s
      dsimp only at ha hs ⊢
      subst ha
      cases deg with
      | none => cases hs
      | some d =>
        dsimp only at hs ⊢
        split at hs
        · cases hs
        · rename_i hle
          rw [if_neg hle]
          change (match parameterizeCurve env.fit.num (env.fit.curveLike c) a.rows with
            | .ok pd => _
            | .error e => _) = _ at hs
          change (match parameterizeCurve env.fit.num (env.fit.curveLike c) a'.rows with
            | .ok pd => _
            | .error e => _) = _
          cases hpar : parameterizeCurve env.fit.num (env.fit.curveLike c) a.rows with
          | error e => rw [hpar] at hs; cases hs
          | ok pd =>
            rw [hpar] at hs
            rw [parameterize_curve_perm _ _ hp hpar]
            cases hs
            rfl
  by_cases hi : s.initCurve = none
  · obtain ⟨deg, dat, st, fi, nc, fm, ic, pd0, fc⟩ := s
    dsimp only at ha hi ⊢
    subst ha hi
    cases hc : (if fm = "adaptive" then initCurveOf st fi deg (deg.map (· + 1)) else initCurveOf st fi deg nc) with
    | error e =>
      have h1 : Boundary.setInitCurve (K := K) ⟨deg, some a, st, fi, nc, fm, none, pd0, fc⟩
          = (.error e, ⟨deg, some a, st, fi, nc, fm, none, pd0, fc⟩) := by
        unfold Boundary.setInitCurve
        rw [Meth.read_bind]
        dsimp only [id]
        rw [hc]
        rfl
      unfold Boundary.fit at hs
      rw [Meth.read_bind, if_pos (by exact rfl), Meth.bind_error h1] at hs
      cases hs
    | ok c0 =>
      have h2 : ∀ b : Arr K, Boundary.fit env ⟨deg, some b, st, fi, nc, fm, none, pd0, fc⟩
          = Boundary.fit env ⟨deg, some b, st, fi, nc, fm, some c0, pd0, fc⟩ := by
        intro b
        have h1 : Boundary.setInitCurve (K := K) ⟨deg, some b, st, fi, nc, fm, none, pd0, fc⟩
            = (.ok (), ⟨deg, some b, st, fi, nc, fm, some c0, pd0, fc⟩) := by
          unfold Boundary.setInitCurve
          rw [Meth.read_bind]
          dsimp only [id]
          rw [hc]
          rfl
        conv_lhs => unfold Boundary.fit
        rw [Meth.read_bind, if_pos (by exact rfl), Meth.bind_ok h1]
        conv_rhs => unfold Boundary.fit
        rfl
      rw [h2] at hs ⊢
      exact main _ rfl (by simp) hs
  · exact main s ha hi hs

/-- **C167.** `InteriorProblem.fit` likewise. -/
theorem interior_fit_order (env : DataEnv K) {s s' : Interior K} {a a' : Arr K} {t b : Fitted K} {tp bp : List (List K)}
    (h : s.Ready a t b tp bp) (hp : a.rows.Perm a'.rows) (hs : Interior.fit env s = (.ok (), s')) :
    Interior.fit env { s with data := some a' } = (.ok (), { s' with data := some a' }) := by
  have main : ∀ s : Interior K, s.Ready a t b tp bp → ∀ S, s.initSurface = some S →
      Interior.fit env s = (.ok (), s') →
      Interior.fit env { s with data := some a' } = (.ok (), { s' with data := some a' }) := by
    intro s h S hS hs
    obtain ⟨r1, r2⟩ := interior_fit_result env h hS
    obtain ⟨-, q2⟩ := interior_fit_result env (s := { s with data := some a' }) (a := a')
      ⟨rfl, h.top, h.bottom, h.topData, h.bottomData⟩ hS
    cases hF : fitSurface env.fit S a.rows tp bp with
    | error e => rw [r1 e hF] at hs; cases hs
    | ok F =>
      have hF' := (fit_surface_order env.fit S F hp (List.Perm.refl tp) (List.Perm.refl bp)).1 hF
      cases hpd : parameterizeSurface env.fit.num (env.fit.surfLike F) a.rows with
      | error e => rw [(r2 F hF).2 e hpd] at hs; cases hs
      | ok pd =>
        rw [(r2 F hF).1 pd hpd] at hs
        cases hs
        exact (q2 F hF').1 pd (parameterize_surface_perm _ _ hp hpd)
  obtain hi | ⟨S, hi⟩ := Option.eq_none_or_eq_some s.initSurface
  · cases hr : ruledSurface s.top s.bottom s.degree s.numCtrl with
    | error e =>
      have : Interior.fit env s = (.error e, s) := by
        unfold Interior.fit
        rw [Meth.read_bind, if_pos (by exact hi), Meth.bind_error (s' := s) (e := e)]
        unfold Interior.setInitSurface
        rw [Meth.read_bind]
        show ((Meth.lift (ruledSurface s.top s.bottom s.degree s.numCtrl) : Meth (Interior K) _) >>= _) _ = _
        rw [hr]
        rfl
      rw [this] at hs
      cases hs
    | ok S =>
      rw [interior_fit_init env hi hr] at hs
      rw [interior_fit_init env (s := { s with data := some a' }) hi hr]
      exact main { s with initSurface := some S } ⟨h.data, h.top, h.bottom, h.topData, h.bottomData⟩ S rfl hs
  · exact main s h S hi hs

end

/-! ## Concrete cases -/

/-- The two data points of `exInterior` in the other order. -/
example : Interior.fit exInteriorEnv { exInterior with data := some ⟨[2, 3], [1/4, 1/5, 0, 1/3, 1/2, 0]⟩ }
    = (.ok (), { (Interior.fit exInteriorEnv exInterior).2 with data := some ⟨[2, 3], [1/4, 1/5, 0, 1/3, 1/2, 0]⟩ }) := by
  have h : (Interior.fit exInteriorEnv exInterior).1 = .ok () := by decide +kernel
  exact interior_fit_order exInteriorEnv exInterior_ready (by decide +kernel) (Prod.ext h rfl)

/-- A history with an adaptive fit; the points reversed. -/
example :
    let s := (Boundary.history exDataEnv ⟨Boundary.new, exNoFiles⟩ exSetup).self
    Boundary.fit exDataEnv { s with data := some ⟨[3, 3], [3/4, 1, 1, 1/2, 2, 1/2, 1/4, 1, 0]⟩ }
      = (.ok (), { (Boundary.fit exDataEnv s).2 with data := some ⟨[3, 3], [3/4, 1, 1, 1/2, 2, 1/2, 1/4, 1, 0]⟩ }) := by
  have h : (Boundary.fit exDataEnv (Boundary.history exDataEnv ⟨Boundary.new, exNoFiles⟩ exSetup).self).1 = .ok () := by
    decide +kernel
  exact boundary_fit_order exDataEnv (a := exPts) (by decide +kernel) (by decide +kernel) (Prod.ext h rfl)

theorem exWide_unit : UnitKnots exWide.degreeU exWide.numU exWide.kvU ∧ UnitKnots exWide.degreeV exWide.numV exWide.kvV :=
  ⟨⟨exWide_clamped.cu, by decide +kernel, by decide +kernel, by decide +kernel, by decide +kernel⟩,
    ⟨exWide_clamped.cv, by decide +kernel, by decide +kernel, by decide +kernel, by decide +kernel⟩⟩

/-- Two interior points and one point of each boundary, any least-squares solver: the fit returns and keeps the frame. -/
example (ls : ℕ → List (List ℚ) → List ℚ → List ℚ) (hls : IsLstsq ls) :
    ∃ s', fitSurface { exEnv ls with surfLike := fun _ => exFlat } exWide [[2/3, 1/2, 3], [1/3, 1/2, 4]]
        [[0, 1, 0, 1/2]] [[0, 0, 0, 1/2]] = .ok s' ∧
      ∀ i < 4, ∀ j < 3, i = 0 ∨ i + 1 = 4 ∨ j = 0 ∨ j + 1 = 3 →
        s'.ctrlpts.getD (i * 3 + j) [] = exWide.ctrlpts.getD (i * 3 + j) [] := by
  obtain ⟨s', h, -, hk, -⟩ := fit_surface_optimal (env := { exEnv ls with surfLike := fun _ => exFlat }) hls
    (data := [[2/3, 1/2, 3], [1/3, 1/2, 4]]) (top := [[0, 1, 0, 1/2]]) (bottom := [[0, 0, 0, 1/2]])
    (rows := [[1/3, 1/2, 4, 1/3, 1/2], [2/3, 1/2, 3, 2/3, 1/2]]) exWide_clamped exWide_unit.1 exWide_unit.2
    (by decide) (by decide) (show parameterizeSurface (exEnv exLs).num exFlat _ = _ by decide +kernel)
  exact ⟨s', h, hk⟩

end PySpline
