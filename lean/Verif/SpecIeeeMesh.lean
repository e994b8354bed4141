import Verif.Model.Ieee

/-!
# What sampling a surface in IEEE arithmetic needs and returns
-/

namespace PySpline.Spec

open Ext

variable {K : Type} [Field K] [LinearOrder K]

/-- `single` computes points of the surface `s` in the arithmetic given by `rd`: what it returns are possible results of
`single_point`, and where `single_point` has results and all of them are numbers, it returns one of them. -/
structure Computes (rd : K → Ext K) (s : Surface (Ext K)) (single : K → K → Py (List K)) : Prop where
  sound : ∀ u v q, single u v = .ok q → s.PointR rd (fin u) (fin v) (q.map fin)
  returns : ∀ u v, (∃ pt, s.PointR rd (fin u) (fin v) pt) →
    (∀ pt, s.PointR rd (fin u) (fin v) pt → ∃ q : List K, pt = q.map fin) → ∃ q, single u v = .ok q

/-- At all stored parameters in `[0, 1]²` the surface has results, all of them are three numbers of size at most `M`, and at the
corners `(0, 0)`, `(1, 0)`, `(0, 1)` and `(1, 1)` they are within `ε` of `sb`, `eb`, `st` and `et`. -/
def EvaluatesTo (rd : K → Ext K) (M ε : K) (sb eb st et : List K) (s : Surface (Ext K)) : Prop :=
  ∀ u v : K, 0 ≤ u ∧ u ≤ 1 → 0 ≤ v ∧ v ≤ 1 → rd u = fin u → rd v = fin v →
    (∃ pt, s.PointR rd (fin u) (fin v) pt) ∧
    ∀ pt, s.PointR rd (fin u) (fin v) pt → ∃ w : List K, pt = w.map fin ∧ w.length = 3 ∧
      ∀ k < 3, |w.getD k 0| ≤ M ∧
        (u = 0 → v = 0 → |w.getD k 0 - sb.getD k 0| ≤ ε) ∧
        (u = 1 → v = 0 → |w.getD k 0 - eb.getD k 0| ≤ ε) ∧
        (u = 0 → v = 1 → |w.getD k 0 - st.getD k 0| ≤ ε) ∧
        (u = 1 → v = 1 → |w.getD k 0 - et.getD k 0| ≤ ε)

end PySpline.Spec
