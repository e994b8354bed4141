import Verif.Props.Surface

/-!
# Auxiliary lemmas for `Props/SurfaceMore.lean`
-/

set_option linter.unusedSectionVars false

namespace PySpline

open Spec Polynomial

section
variable {K : Type} [Field K] [LinearOrder K] [IsStrictOrderedRing K]

theorem index_inj {n i j i' j' : ℕ} (hj : j < n) (hj' : j' < n) (h : i * n + j = i' * n + j') :
    i = i' ∧ j = j' := by
  have hn : 0 < n := by omega
  have e1 : (i * n + j) / n = i := by
    rw [mul_comm, Nat.mul_add_div hn, Nat.div_eq_of_lt hj, add_zero]
  have e2 : (i' * n + j') / n = i' := by
    rw [mul_comm, Nat.mul_add_div hn, Nat.div_eq_of_lt hj', add_zero]
  have : i = i' := by rw [← e1, h, e2]
  subst this
  exact ⟨rfl, by omega⟩

/-- The weights of a surface point sum to one. -/
theorem surface_one {s : Surface K} (hs : ClampedSurface s) {u v : K}
    (ru : Regular s.degreeU s.numU s.kvU u) (rv : Regular s.degreeV s.numV s.kvV v) :
    surface (knotFn s.kvU) s.degreeU s.numU (knotFn s.kvV) s.degreeV s.numV (fun _ => 1) u v = 1 := by
  have nu : knotFn s.kvU s.numU = knotFn s.kvU (s.numU + s.degreeU) := hs.cu.right _ le_rfl (by omega)
  unfold surface
  have h1 : ∑ i ∈ Finset.range s.numU, Nclosed (knotFn s.kvU) s.degreeU s.numU i u = 1 :=
    sum_Nclosed hs.cu ru.lo ru.hi
  have h2 : ∑ j ∈ Finset.range s.numV, Nclosed (knotFn s.kvV) s.degreeV s.numV j v = 1 :=
    sum_Nclosed hs.cv rv.lo rv.hi
  calc _ = (∑ i ∈ Finset.range s.numU, Nclosed (knotFn s.kvU) s.degreeU s.numU i u) *
        ∑ j ∈ Finset.range s.numV, Nclosed (knotFn s.kvV) s.degreeV s.numV j v := by
          rw [Finset.sum_mul_sum]
          exact Finset.sum_congr rfl fun i _ => Finset.sum_congr rfl fun j _ => by ring
    _ = 1 := by rw [h1, h2, one_mul]

end

end PySpline
