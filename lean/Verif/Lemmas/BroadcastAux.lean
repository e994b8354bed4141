import Verif.Lemmas.ExtendedMore
import Verif.Lemmas.Fitting
import Mathlib.Data.List.GetD
import Verif.Props.SurfaceInversion

/-!
# Auxiliary lemmas for `Props/Broadcast.lean`
-/

set_option linter.unusedSectionVars false

namespace PySpline

section
variable {K : Type} [Field K] [LinearOrder K] [IsStrictOrderedRing K]

theorem bind_congr_ok {α β : Type} {x : Py α} {f g : α → Py β} (h : ∀ a, x = .ok a → f a = g a) : x >>= f = x >>= g := by
  rcases x with e | a
  · rfl
  · exact h a rfl

theorem vsub_single_left {q : List K} (hq : q.length = 3) (x : K) : vsub [x] q = vsub [x, x, x] q := by
  obtain ⟨a, b, c, rfl⟩ := List.length_eq_three.1 hq
  rfl

theorem vsub_single_right {q : List K} (hq : q.length = 3) (x : K) : vsub q [x] = vsub q [x, x, x] := by
  obtain ⟨a, b, c, rfl⟩ := List.length_eq_three.1 hq
  rfl

theorem vsub_other {q point : List K} (hq : q.length = 3) (h1 : point.length ≠ 1) (h3 : point.length ≠ 3) :
    vsub point q = .error .valueError := by
  unfold vsub
  rw [if_neg (by omega), if_neg (by omega), if_neg h1]

end

end PySpline
