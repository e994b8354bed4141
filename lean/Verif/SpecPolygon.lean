import Verif.Spec

/-!
# Specification: lengths of polygons
-/

namespace PySpline.Spec

variable {K : Type} [Field K] [LinearOrder K]

/-- A seminorm on vectors with three entries. -/
structure IsSeminorm (norm : List K → K) : Prop where
  triangle : ∀ a b c x y z, norm [a + x, b + y, c + z] ≤ norm [a, b, c] + norm [x, y, z]
  smul : ∀ t a b c, norm [t * a, t * b, t * c] = |t| * norm [a, b, c]

/-- The length of the polygon through the rows of an array, with respect to `norm`. -/
def polygonLength (norm : List K → K) (Q : List (List K)) : K :=
  ∑ i ∈ Finset.range (Q.length - 1), norm [coord Q 0 (i + 1) - coord Q 0 i, coord Q 1 (i + 1) - coord Q 1 i,
    coord Q 2 (i + 1) - coord Q 2 i]

end PySpline.Spec
