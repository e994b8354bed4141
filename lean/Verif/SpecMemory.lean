import Verif.Model.Memory

/-!
# What it means that a call on the memory follows the value model and keeps what the caller has
-/

namespace PySpline

section
variable {K : Type}

/-- If `y` returns, so does the call `x`, and the results and the new memory are related by `Q`; if
`y` raises, `x` raises the same exception and leaves a memory that satisfies `F`. -/
def Sim {α β : Type} (F : Mem K → Prop) (x : Py α × Mem K) (y : Py β)
    (Q : α → Mem K → β → Prop) : Prop :=
  match y with
  | .ok b => ∃ a m', x = (.ok a, m') ∧ Q a m' b
  | .error e => ∃ m', x = (.error e, m') ∧ F m'

/-- Every array and every object that was there before is still there with the same contents. -/
structure Unwritten (m m' : Mem K) : Prop where
  vecs : m.vecs <+: m'.vecs
  mats : m.mats <+: m'.mats
  curves : m.curves <+: m'.curves
  surfs : m.surfs <+: m'.surfs

/-- As `Unwritten`, but the attributes of the curve object `o` may have been reassigned. -/
structure UnwrittenBut (o : Ref) (m m' : Mem K) : Prop where
  vecs : m.vecs <+: m'.vecs
  mats : m.mats <+: m'.mats
  length : m'.curves.length = m.curves.length
  curves : ∀ r, r ≠ o → m'.curveObj r = m.curveObj r
  surfs : m'.surfs = m.surfs

/-- As `Unwritten`, but the attributes of the surface object `o` may have been reassigned. -/
structure UnwrittenButSurf (o : Ref) (m m' : Mem K) : Prop where
  vecs : m.vecs <+: m'.vecs
  mats : m.mats <+: m'.mats
  curves : m'.curves = m.curves
  length : m'.surfs.length = m.surfs.length
  surfs : ∀ r, r ≠ o → m'.surfObj r = m.surfObj r

/-- The curve object exists, and so do its arrays. -/
structure LiveCurve (m : Mem K) (o : Ref) : Prop where
  obj : o < m.curves.length
  ctrl : (m.curveObj o).ctrl < m.mats.length
  kv : (m.curveObj o).kv < m.vecs.length

/-- The surface object exists, and so do its arrays. -/
structure LiveSurf (m : Mem K) (o : Ref) : Prop where
  obj : o < m.surfs.length
  ctrl : (m.surfObj o).ctrl < m.mats.length
  kvU : (m.surfObj o).kvU < m.vecs.length
  kvV : (m.surfObj o).kvV < m.vecs.length

end

end PySpline
