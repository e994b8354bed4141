import Verif.Props.Newton

/-!
# Vocabulary for the runs of the inversion functions

Everything is stated with inner products: no norms, roots or quotients of norms.
-/

namespace PySpline

variable {K : Type} [Field K] [LinearOrder K]

/-- The Newton step for the foot point equation, clamped to `[0, 1]`. -/
def newtonPoint (c c1 c2 : K → List K) (p : List K) (u : K) : K :=
  max 0 (min 1 (u - ip (c1 u) (sub3 (c u) p) / (ip (c2 u) (sub3 (c u) p) + ip (c1 u) (c1 u))))

/-- The parameter `u` is accepted: the curve point is within `eps1` of `p`, or the cosine of the angle
between the tangent and the residual exists and is at most `eps2`. -/
def Accepted (c c1 : K → List K) (p : List K) (eps1 eps2 : K) (u : K) : Prop :=
  let r := sub3 (c u) p
  ip r r ≤ eps1 ^ 2 ∨ (ip (c1 u) (c1 u) ≠ 0 ∧ ip r r ≠ 0 ∧
    ip (c1 u) r ^ 2 ≤ eps2 ^ 2 * (ip (c1 u) (c1 u) * ip r r))

/-- The step from `u` to `u'` ends the iteration: it is shorter than `eps1` along the tangent, or `u'` is
accepted. -/
def Ends (c c1 : K → List K) (p : List K) (eps1 eps2 u u' : K) : Prop :=
  (u' - u) ^ 2 * ip (c1 u) (c1 u) ≤ eps1 ^ 2 ∨ Accepted c c1 p eps1 eps2 u'

/-- The Jacobian of the two foot point equations, with the point at `x` and the derivatives at `z`. -/
def footJac (D : ℕ → ℕ → K → K → List K) (p : List K) (z x : K × K) : K × K × K :=
  let r := sub3 (D 0 0 x.1 x.2) p
  let d := fun a b => D a b z.1 z.2
  (ip (d 1 0) (d 1 0) + ip r (d 2 0), ip (d 1 0) (d 0 1) + ip r (d 1 1), ip (d 0 1) (d 0 1) + ip r (d 0 2))

/-- The Newton step by Cramer's rule, clamped to the unit square. -/
def newtonPair (D : ℕ → ℕ → K → K → List K) (p : List K) (z x : K × K) : K × K :=
  let r := sub3 (D 0 0 x.1 x.2) p
  let f := ip r (D 1 0 z.1 z.2)
  let g := ip r (D 0 1 z.1 z.2)
  let J := footJac D p z x
  let det := J.1 * J.2.2 - J.2.1 ^ 2
  (max 0 (min 1 (x.1 - (J.2.2 * f - J.2.1 * g) / det)), max 0 (min 1 (x.2 - (J.1 * g - J.2.1 * f) / det)))

/-- The pair `x` is accepted, with the tangents taken at `z`. -/
def Accepted2 (D : ℕ → ℕ → K → K → List K) (p : List K) (eps1 eps2 : K) (z x : K × K) : Prop :=
  let r := sub3 (D 0 0 x.1 x.2) p
  let a := D 1 0 z.1 z.2
  let b := D 0 1 z.1 z.2
  ip r r ≤ eps1 ^ 2 ∨ (ip a a ≠ 0 ∧ ip b b ≠ 0 ∧ ip r r ≠ 0 ∧
    ip a r ^ 2 ≤ eps2 ^ 2 * (ip a a * ip r r) ∧ ip b r ^ 2 ≤ eps2 ^ 2 * (ip b b * ip r r))

/-- The step from `x` to `y` ends the iteration: with the derivatives at `z` it is shorter than `eps1`, or
`y` is accepted with the tangents at `x`. -/
def Ends2 (D : ℕ → ℕ → K → K → List K) (p : List K) (eps1 eps2 : K) (z x y : K × K) : Prop :=
  let a := D 1 0 z.1 z.2
  let b := D 0 1 z.1 z.2
  let s := y.1 - x.1
  let t := y.2 - x.2
  s ^ 2 * ip a a + 2 * s * t * ip a b + t ^ 2 * ip b b ≤ eps1 ^ 2 ∨ Accepted2 D p eps1 eps2 x y

/-- Membership in the unit square. -/
def InSquare (x : K × K) : Prop := (0 ≤ x.1 ∧ x.1 ≤ 1) ∧ 0 ≤ x.2 ∧ x.2 ≤ 1

end PySpline
