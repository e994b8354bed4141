import Verif.Lemmas.IO
import Verif.Props.Geometry
import Verif.Props.Surface
import Mathlib.Data.Rat.Floor
import Mathlib.Data.Rat.Encodable

/-!
# Auxiliary lemmas for `Props/IO.lean`
-/

set_option linter.unusedSectionVars false

namespace PySpline

open Spec

section
variable {K : Type} [Field K] [LinearOrder K] [IsStrictOrderedRing K]

theorem flatMap_tabs {l : List Text} (h : l ≠ []) :
    l.flatMap (· ++ ['\t']) = ['\t'].intercalate l ++ ['\t'] := by
  induction l with
  | nil => exact absurd rfl h
  | cons x l ih =>
    cases l with
    | nil => simp
    | cons y l =>
      rw [List.flatMap_cons, ih (by simp), List.intercalate_cons_cons]
      simp

theorem not_mem_of_space {t : Text} (h : ∀ ch ∈ t, pySpace ch = false) {ch : Char}
    (hc : pySpace ch = true) : ch ∉ t := fun hm => by
  rw [h ch hm] at hc
  cases hc

end

end PySpline
