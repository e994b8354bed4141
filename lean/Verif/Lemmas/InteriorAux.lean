import Verif.Props.Data
import Verif.Props.Ruled

/-!
# Auxiliary lemmas for `Props/Interior.lean`
-/

set_option linter.unusedSectionVars false

namespace PySpline

open Spec

section
variable {K : Type} [Field K] [LinearOrder K] [IsStrictOrderedRing K] [FloorRing K]

/-- What `parameterize` does with the surface it has chosen. -/
theorem interior_parameterize_on (env : DataEnv K) (s : Interior K) (S : Surface K) (a : Arr K) (ha : s.data = some a)
    (h : s.fitSurface = some S ∨ s.fitSurface = none ∧ s.initSurface = some S) :
    (∀ pd, parameterizeSurface env.fit.num (env.fit.surfLike S) a.rows = .ok pd →
      Interior.parameterize env s = (.ok (), { s with paramData := some pd })) ∧
    ∀ e, parameterizeSurface env.fit.num (env.fit.surfLike S) a.rows = .error e →
      Interior.parameterize env s = (.error e, s) := by
  obtain ⟨deg, dat, nc, top, bot, ini, pd0, fs⟩ := s
  dsimp only at ha h
  subst ha
  have key : Interior.parameterize env ⟨deg, some a, nc, top, bot, ini, pd0, fs⟩ =
      ((Meth.lift (parameterizeSurface env.fit.num (env.fit.surfLike S) a.rows) : Meth (Interior K) _) >>= fun pd =>
        Meth.assign fun s => { s with paramData := some pd }) ⟨deg, some a, nc, top, bot, ini, pd0, fs⟩ := by
    unfold Interior.parameterize
    rw [Meth.read_bind]
    rcases h with rfl | ⟨rfl, rfl⟩
    · rw [if_neg (by simp), if_neg (by simp)]
      rfl
    · rw [if_neg (by simp), if_pos (by simp)]
      rfl
  constructor
  · intro pd hpd
    rw [key, hpd]
    rfl
  · intro e he
    rw [key, he]
    rfl

theorem fitSurfaceOf_some (env : FitEnv K) (S : Surface K) (rows tp bp : List (List K)) {t b : Fitted K}
    (ht : t.paramData = some tp) (hb : b.paramData = some bp) :
    fitSurfaceOf env S rows (some t) (some b) = fitSurface env S rows tp bp := by
  obtain ⟨td, tn, tc, tpd⟩ := t
  obtain ⟨bd, bn, bc, bpd⟩ := b
  dsimp only at ht hb
  subst ht hb
  unfold fitSurfaceOf fitSurface
  cases parameterizeSurface env.num (env.surfLike S) rows <;> rfl

/-- `fit` without an initial surface makes the ruled surface first. -/
theorem interior_fit_init (env : DataEnv K) {s : Interior K} {S : Surface K} (hS : s.initSurface = none)
    (hr : ruledSurface s.top s.bottom s.degree s.numCtrl = .ok S) :
    Interior.fit env s = Interior.fit env { s with initSurface := some S } := by
  obtain ⟨deg, dat, nc, top, bot, ini, pd0, fs⟩ := s
  dsimp only at hS hr
  subst hS
  have h1 : Interior.setInitSurface (K := K) ⟨deg, dat, nc, top, bot, none, pd0, fs⟩
      = (.ok (), ⟨deg, dat, nc, top, bot, some S, pd0, fs⟩) := by
    unfold Interior.setInitSurface
    rw [Meth.read_bind]
    show ((Meth.lift (ruledSurface top bot deg nc) : Meth (Interior K) _) >>= _) _ = _
    rw [hr]
    rfl
  unfold Interior.fit
  rw [Meth.read_bind, Meth.read_bind, if_pos (by simp), if_neg (by simp), Meth.bind_ok h1]
  rfl

end

end PySpline
