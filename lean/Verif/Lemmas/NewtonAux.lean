import Verif.Props.Parameterize
import Mathlib.Logic.Relation
import Mathlib.Analysis.Real.Sqrt

/-!
# Auxiliary lemmas for `Props/Newton.lean`
-/

set_option linter.unusedSectionVars false

namespace PySpline

open Spec

section
variable {K : Type} [Field K] [LinearOrder K] [IsStrictOrderedRing K]

theorem clamp01_eq (x : K) : clamp01 x = max 0 (min 1 x) := by
  unfold clamp01
  split
  · rename_i h
    rw [min_eq_right (by linarith), max_eq_left h.le]
  · rename_i h
    split
    · rename_i h'
      rw [min_eq_left h'.le, max_eq_right zero_le_one]
    · rename_i h'
      rw [min_eq_right (not_lt.1 h'), max_eq_right (not_lt.1 h)]

theorem pyGet_of_getElem? {α : Type} {l : List α} {i : ℕ} {x : α} (h : l[i]? = some x) :
    pyGet l (i : ℤ) = .ok x := by
  obtain ⟨hi, e⟩ := List.getElem?_eq_some_iff.1 h
  rw [pyGet_nat l _ i x rfl hi, List.getD_eq_getElem?_getD, h]
  rfl

theorem ratioLe_mul {a b eps : K} (hb : 0 ≤ b) (h : ratioLe a b eps = true) : a ≤ eps * b := by
  unfold ratioLe at h
  split at h
  · cases h
  · rename_i hne
    exact (div_le_iff₀ (lt_of_le_of_ne hb (Ne.symm hne))).1 (by simpa using h)

theorem Euclidean.nonneg' {nm : Num K} (h : Euclidean nm) {l : List K} (hl : l.length = 3) :
    0 ≤ nm.norm l := by
  obtain ⟨x, y, z, rfl⟩ := List.length_eq_three.1 hl
  exact h.nonneg _ _ _

theorem vadd_len3 {a b : List K} (ha : a.length = 3) (hb : b.length = 3) (s t : K) :
    vadd (a.map fun x => s * x) (b.map fun x => t * x) =
      .ok [s * a.getD 0 0 + t * b.getD 0 0, s * a.getD 1 0 + t * b.getD 1 0,
        s * a.getD 2 0 + t * b.getD 2 0] := by
  obtain ⟨x, y, z, rfl⟩ := List.length_eq_three.1 ha
  obtain ⟨x', y', z', rfl⟩ := List.length_eq_three.1 hb
  rfl

end

end PySpline
