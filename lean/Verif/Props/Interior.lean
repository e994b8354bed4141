import Verif.Lemmas.InteriorAux
import Verif.Props.Data
import Verif.Props.Ruled

/-!
# C137: `fit` and `parameterize` of an `InteriorProblem` whose boundaries are there

The setters of the boundaries raise (C83), so these states are only reached by assigning the private attributes.
-/

set_option linter.unusedSectionVars false

namespace PySpline

open Spec

section
variable {K : Type} [Field K] [LinearOrder K] [IsStrictOrderedRing K] [FloorRing K]

/-- **C137.** `parameterize` uses the fitted surface if there is one, else the initial surface, else the ruled surface
between the boundaries, which it stores first and keeps even if the parameterization raises. -/
theorem interior_parameterize (env : DataEnv K) (s : Interior K) (a : Arr K) (ha : s.data = some a) :
    (∀ F pd, s.fitSurface = some F → parameterizeSurface env.fit.num (env.fit.surfLike F) a.rows = .ok pd →
      Interior.parameterize env s = (.ok (), { s with paramData := some pd })) ∧
    (∀ S pd, s.fitSurface = none → s.initSurface = some S →
      parameterizeSurface env.fit.num (env.fit.surfLike S) a.rows = .ok pd →
      Interior.parameterize env s = (.ok (), { s with paramData := some pd })) ∧
    (∀ S, s.fitSurface = none → s.initSurface = none → ruledSurface s.top s.bottom s.degree s.numCtrl = .ok S →
      (∀ pd, parameterizeSurface env.fit.num (env.fit.surfLike S) a.rows = .ok pd →
        Interior.parameterize env s = (.ok (), { s with initSurface := some S, paramData := some pd })) ∧
      ∀ e, parameterizeSurface env.fit.num (env.fit.surfLike S) a.rows = .error e →
        Interior.parameterize env s = (.error e, { s with initSurface := some S })) := by
  refine ⟨fun F pd hF hpd => (interior_parameterize_on env s F a ha (Or.inl hF)).1 pd hpd,
    fun S pd hF hS hpd => (interior_parameterize_on env s S a ha (Or.inr ⟨hF, hS⟩)).1 pd hpd, fun S hF hS hr => ?_⟩
  have key : Interior.parameterize env s = Interior.parameterize env { s with initSurface := some S } := by
    obtain ⟨deg, dat, nc, top, bot, ini, pd0, fs⟩ := s
    dsimp only at ha hF hS hr
    subst ha hF hS
    unfold Interior.parameterize
    rw [Meth.read_bind, Meth.read_bind, if_pos (by simp), if_neg (by simp), if_pos (by simp)]
    have h1 : (do
        Interior.setInitSurface
        let s ← Meth.read id
        Meth.lift (attrOf s.initSurface) : Meth (Interior K) (Surface K)) ⟨deg, some a, nc, top, bot, none, pd0, none⟩
        = (.ok S, ⟨deg, some a, nc, top, bot, some S, pd0, none⟩) := by
      refine (Meth.bind_ok (s' := ⟨deg, some a, nc, top, bot, some S, pd0, none⟩) (a := ()) ?_ _).trans rfl
      unfold Interior.setInitSurface
      rw [Meth.read_bind]
      show ((Meth.lift (ruledSurface top bot deg nc) : Meth (Interior K) _) >>= _) _ = _
      rw [hr]
      rfl
    rw [Meth.bind_ok h1]
    rfl
  have := interior_parameterize_on env { s with initSurface := some S } S a ha (Or.inr ⟨hF, rfl⟩)
  exact ⟨fun pd hpd => key.trans (this.1 pd hpd), fun e he => key.trans (this.2 e he)⟩

/-- The boundaries of `s` are there, have been parameterized, and there is data. -/
structure Interior.Ready (s : Interior K) (a : Arr K) (t b : Fitted K) (tp bp : List (List K)) : Prop where
  data : s.data = some a
  top : s.top = some t
  bottom : s.bottom = some b
  topData : t.paramData = some tp
  bottomData : b.paramData = some bp

theorem interior_fit_eq (env : DataEnv K) {s : Interior K} {a : Arr K} {t b : Fitted K} {tp bp : List (List K)}
    (h : s.Ready a t b tp bp) {S : Surface K} (hS : s.initSurface = some S) :
    Interior.fit env s = ((Meth.lift (fitSurface env.fit S a.rows tp bp) : Meth (Interior K) _) >>= fun F => do
      Meth.assign fun s => { s with fitSurface := some F }
      Interior.parameterize env) s := by
  obtain ⟨deg, dat, nc, top, bot, ini, pd0, fs⟩ := s
  obtain ⟨td, tn, tc, tpd⟩ := t
  obtain ⟨bd, bn, bc, bpd⟩ := b
  obtain ⟨h1, h2, h3, h4, h5⟩ := h
  dsimp only at h1 h2 h3 h4 h5 hS
  subst h1 h2 h3 h4 h5 hS
  rw [← fitSurfaceOf_some env.fit S a.rows tp bp (t := ⟨td, tn, tc, some tp⟩) (b := ⟨bd, bn, bc, some bp⟩) rfl rfl]
  unfold Interior.fit
  rw [Meth.read_bind, if_neg (by simp)]
  rfl

/-- **C137.** `fit` fits the initial surface, never an earlier fit, and parameterizes the data on the result. If that last step
raises, the new surface stays, next to the old parameterized data. -/
theorem interior_fit_result (env : DataEnv K) {s : Interior K} {a : Arr K} {t b : Fitted K} {tp bp : List (List K)}
    (h : s.Ready a t b tp bp) {S : Surface K} (hS : s.initSurface = some S) :
    (∀ e, fitSurface env.fit S a.rows tp bp = .error e → Interior.fit env s = (.error e, s)) ∧
    ∀ F, fitSurface env.fit S a.rows tp bp = .ok F →
      (∀ pd, parameterizeSurface env.fit.num (env.fit.surfLike F) a.rows = .ok pd →
        Interior.fit env s = (.ok (), { s with fitSurface := some F, paramData := some pd })) ∧
      ∀ e, parameterizeSurface env.fit.num (env.fit.surfLike F) a.rows = .error e →
        Interior.fit env s = (.error e, { s with fitSurface := some F }) := by
  rw [interior_fit_eq env h hS]
  refine ⟨fun e he => by rw [he]; rfl, fun F hF => ?_⟩
  have := interior_parameterize_on env { s with fitSurface := some F } F a h.data (Or.inl rfl)
  rw [hF]
  exact ⟨fun pd hpd => this.1 pd hpd, fun e he => this.2 e he⟩

/-- **C137.** If one of the two boundaries has no parameterized data, `fit` parameterizes the interior data first and then
raises `TypeError`; nothing is assigned. -/
theorem interior_fit_unparameterized (env : DataEnv K) {s : Interior K} {a : Arr K} {t b : Fitted K} {S : Surface K}
    (hd : s.data = some a) (ht : s.top = some t) (hb : s.bottom = some b)
    (hn : t.paramData = none ∨ b.paramData = none) (hS : s.initSurface = some S) :
    Interior.fit env s = (.error (match parameterizeSurface env.fit.num (env.fit.surfLike S) a.rows with
      | .error e => e
      | .ok _ => .typeError), s) := by
  obtain ⟨deg, dat, nc, top, bot, ini, pd0, fs⟩ := s
  obtain ⟨td, tn, tc, tpd⟩ := t
  obtain ⟨bd, bn, bc, bpd⟩ := b
  dsimp only at hd ht hb hn hS
  subst hd ht hb hS
  have key : fitSurfaceOf env.fit S a.rows (some ⟨td, tn, tc, tpd⟩) (some ⟨bd, bn, bc, bpd⟩)
      = .error (match parameterizeSurface env.fit.num (env.fit.surfLike S) a.rows with
      | .error e => e
      | .ok _ => .typeError) := by
    unfold fitSurfaceOf
    cases parameterizeSurface env.fit.num (env.fit.surfLike S) a.rows with
    | error e => rfl
    | ok pd =>
      rw [ok_bind]
      cases tpd with
      | none => rfl
      | some tp =>
        cases bpd with
        | none => rfl
        | some bp => simp at hn
  unfold Interior.fit
  rw [Meth.read_bind, if_neg (by simp)]
  show ((Meth.lift (fitSurfaceOf env.fit S a.rows (some ⟨td, tn, tc, tpd⟩) (some ⟨bd, bn, bc, bpd⟩)) :
    Meth (Interior K) _) >>= _) _ = _
  rw [key]
  rfl

/-- **C137.** A successful `fit` repeated gives the same state, whether the initial surface was there or not. -/
theorem interior_fit_idempotent (env : DataEnv K) {s s' : Interior K} {a : Arr K} {t b : Fitted K} {tp bp : List (List K)}
    (h : s.Ready a t b tp bp) (hs : Interior.fit env s = (.ok (), s')) : Interior.fit env s' = (.ok (), s') := by
  have main : ∀ s : Interior K, s.Ready a t b tp bp → ∀ S, s.initSurface = some S →
      Interior.fit env s = (.ok (), s') → Interior.fit env s' = (.ok (), s') := by
    intro s h S hS hs
    obtain ⟨r1, r2⟩ := interior_fit_result env h hS
    cases hF : fitSurface env.fit S a.rows tp bp with
    | error e => rw [r1 e hF] at hs; cases hs
    | ok F =>
      cases hp : parameterizeSurface env.fit.num (env.fit.surfLike F) a.rows with
      | error e => rw [(r2 F hF).2 e hp] at hs; cases hs
      | ok pd =>
        rw [(r2 F hF).1 pd hp] at hs
        cases hs
        exact ((interior_fit_result env (s := { s with fitSurface := some F, paramData := some pd })
          ⟨h.data, h.top, h.bottom, h.topData, h.bottomData⟩ hS).2 F hF).1 pd hp
  cases hi : s.initSurface with
  | some S => exact main s h S hi hs
  | none =>
    cases hr : ruledSurface s.top s.bottom s.degree s.numCtrl with
    | error e =>
      have : Interior.fit env s = (.error e, s) := by
        unfold Interior.fit
        rw [Meth.read_bind, if_pos (by exact hi), Meth.bind_error (s' := s) (e := e)]
        unfold Interior.setInitSurface
        rw [Meth.read_bind]
        show ((Meth.lift (ruledSurface s.top s.bottom s.degree s.numCtrl) : Meth (Interior K) _) >>= _) _ = _
        rw [hr]
        rfl
      rw [this] at hs
      cases hs
    | ok S =>
      rw [interior_fit_init env hi hr] at hs
      exact main { s with initSurface := some S } ⟨h.data, h.top, h.bottom, h.topData, h.bottomData⟩ S rfl hs

/-- **C137.** The surface fitted from two boundary curves over the same knots contains them: bottom at `v = 0`, top at
`v = 1`. -/
theorem interior_fit_contains (env : DataEnv K) {s s' : Interior K} {a : Arr K} {t b : Fitted K} {tp bp : List (List K)}
    (h : s.Ready a t b tp bp) (hi : s.initSurface = none) (hs : Interior.fit env s = (.ok (), s')) {p n q m : ℕ}
    (sd : s.degree = some (q : ℤ)) (sn : s.numCtrl = some (m : ℤ)) (td : t.degree = some (p : ℤ))
    (bd : b.degree = some (p : ℤ)) (tn : t.numCtrl = some (n : ℤ)) (bn : b.numCtrl = some (n : ℤ))
    (tc : t.fitCurve.degree = p) (bc : b.fitCurve.degree = p)
    (ht : Shape t.fitCurve.ctrlpts n 3) (hb : Shape b.fitCurve.ctrlpts n 3)
    (hkv : t.fitCurve.kv = b.fitCurve.kv) (hp : 1 ≤ p) (hq1 : 1 ≤ q) (hq : q < m)
    (hu : UnitKnots p n b.fitCurve.kv) : ∃ F, s'.fitSurface = some F ∧
      ∀ u, 0 ≤ u → u ≤ 1 → Regular p n b.fitCurve.kv u →
        F.singlePoint u 0 = b.fitCurve.singlePoint u ∧ F.singlePoint u 1 = t.fitCurve.singlePoint u := by
  obtain ⟨S, hS, a1, a2, a3, a4, a5, a6, a7, -⟩ := ruled_surface_points td bd tn bn ht hb hq (by omega)
  have hr : ruledSurface s.top s.bottom s.degree s.numCtrl = .ok S := by rw [h.top, h.bottom, sd, sn, hS]
  rw [interior_fit_init env hi hr] at hs
  obtain ⟨r1, r2⟩ := interior_fit_result env (s := { s with initSurface := some S })
    ⟨h.data, h.top, h.bottom, h.topData, h.bottomData⟩ rfl
  obtain ⟨U, hU, vcl, vdi, v0, v1, -, -⟩ := generate_uniform_valid (K := K) hq
  rw [a6] at hU
  have hU : S.kvV = U := Except.ok.inj hU
  rw [← hU] at vcl vdi v0 v1
  have hcs : ClampedSurface S := ⟨by rw [a1, a3, a5]; exact hu.toClamped, by rw [a2, a4]; exact vcl, by rw [a1]; exact hp,
    by rw [a2]; exact hq1, by rw [a3, a4]; exact a7⟩
  have kV : UnitKnots S.degreeV S.numV S.kvV := by
    rw [a2, a4]
    exact ⟨vcl, v0, v1, vdi q le_rfl hq, by
      have := vdi (m - 1) (by omega) (by omega)
      rwa [show m - 1 + 1 = m by omega] at this⟩
  cases hF : fitSurface env.fit S a.rows tp bp with
  | error e => rw [r1 e hF] at hs; cases hs
  | ok F =>
    have hk := fit_surface_keeps_boundary env.fit S F _ _ _ hF hcs (by rw [a1, a3, a5]; exact hu) kV
    have hc := ruled_surface_contains td bd tn bn tc bc ht hb hkv hu.toClamped hp hq1 hq hS
    refine ⟨F, ?_, fun u h0 h1 hreg => ?_⟩
    · cases hpd : parameterizeSurface env.fit.num (env.fit.surfLike F) a.rows with
      | error e => rw [(r2 F hF).2 e hpd] at hs; cases hs
      | ok pd => rw [(r2 F hF).1 pd hpd] at hs; cases hs; rfl
    · obtain ⟨k0, k1⟩ := hk.2 u h0 h1 (by rw [a1, a3, a5]; exact hreg)
      obtain ⟨c0, c1⟩ := hc.1 u h0 h1 hreg
      exact ⟨k0.trans c0, k1.trans c1⟩

end

/-! ## Concrete cases -/

/-- Planes whose height above the parameters depends on one control point, so that the surface in use shows. -/
def exShift (s : Surface ℚ) : SurfLike ℚ :=
  { exFlat with
    singlePoint := fun u v => .ok [u, v + at2 s.ctrlpts 4 2 0 / 10, 0]
    ders := fun u v => .ok [[u, v + at2 s.ctrlpts 4 2 0 / 10, 0], [0, 1, 0], [0, 0, 0], [1, 0, 0], [0, 0, 0], [0, 0, 0],
      [0, 0, 0], [0, 0, 0], [0, 0, 0]] }

def exInteriorEnv : DataEnv ℚ := { exDataEnv with fit := { exDataEnv.fit with surfLike := exShift } }

/-- Boundaries with one parameterized point each, and two data points. -/
def exInterior : Interior ℚ where
  degree := some 1
  data := some ⟨[2, 3], [1/3, 1/2, 0, 1/4, 1/5, 0]⟩
  numCtrl := some 3
  top := some { exTop with paramData := some [[0, 2, 0, 0]] }
  bottom := some { exBottom with paramData := some [[3, 0, 1, 1]] }
  initSurface := none
  paramData := none
  fitSurface := none

theorem exInterior_ready : exInterior.Ready ⟨[2, 3], [1/3, 1/2, 0, 1/4, 1/5, 0]⟩ { exTop with paramData := some [[0, 2, 0, 0]] }
    { exBottom with paramData := some [[3, 0, 1, 1]] } [[0, 2, 0, 0]] [[3, 0, 1, 1]] :=
  ⟨rfl, rfl, rfl, rfl, rfl⟩

/-- `parameterize` before the fit uses the ruled surface, after the fit the fitted surface. -/
example : (Interior.parameterize exInteriorEnv exInterior).1 = .ok () ∧
    (Interior.parameterize exInteriorEnv exInterior).2.paramData = some [[1/4, 1/5, 0, 1/4, 1/10], [1/3, 1/2, 0, 1/3, 2/5]] ∧
    (Interior.fit exInteriorEnv exInterior).1 = .ok () ∧
    (Interior.fit exInteriorEnv exInterior).2.paramData = some [[1/4, 1/5, 0, 1/4, 1/5], [1/3, 1/2, 0, 1/3, 1/2]] := by
  decide +kernel

/-- Without parameterized data of a boundary. -/
example : (Interior.fit exInteriorEnv { exInterior with top := some { exTop with paramData := none } }).1
    = .error .typeError := by decide +kernel

/-- C137 applies: repeated fits change nothing, and the surface contains the boundary curves. -/
example : Interior.fit exInteriorEnv (Interior.fit exInteriorEnv exInterior).2
    = (.ok (), (Interior.fit exInteriorEnv exInterior).2) := by
  have h : (Interior.fit exInteriorEnv exInterior).1 = .ok () := by decide +kernel
  exact interior_fit_idempotent exInteriorEnv exInterior_ready (Prod.ext h rfl)

theorem exBottom_unit : UnitKnots 2 4 exBottom.fitCurve.kv where
  len := by decide +kernel
  mono := by decide +kernel
  size := by decide
  left := by intro i hi; interval_cases i <;> decide +kernel
  right := by intro i h1 h2; interval_cases i <;> decide +kernel
  zero := by decide +kernel
  one := by decide +kernel
  first := by decide +kernel
  last := by decide +kernel

example : ∃ F, (Interior.fit exInteriorEnv exInterior).2.fitSurface = some F ∧
    ∀ u, 0 ≤ u → u ≤ 1 → Regular 2 4 exBottom.fitCurve.kv u →
      F.singlePoint u 0 = exBottom.fitCurve.singlePoint u ∧ F.singlePoint u 1 = exTop.fitCurve.singlePoint u := by
  have h : (Interior.fit exInteriorEnv exInterior).1 = .ok () := by decide +kernel
  exact interior_fit_contains exInteriorEnv exInterior_ready rfl (Prod.ext h rfl) (p := 2) (n := 4) (q := 1) (m := 3) rfl rfl
    rfl rfl rfl rfl rfl rfl ⟨rfl, by decide +kernel⟩ ⟨rfl, by decide +kernel⟩ rfl (by norm_num) (by norm_num) (by norm_num)
    exBottom_unit

end PySpline
