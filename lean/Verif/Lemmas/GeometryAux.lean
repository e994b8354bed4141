import Verif.Model.Geometry
import Verif.Props.Curve

/-!
# Auxiliary lemmas for `Props/Geometry.lean`
-/

set_option linter.unusedSectionVars false

namespace PySpline

open Spec

section
variable {K : Type} [Field K] [LinearOrder K] [IsStrictOrderedRing K]

theorem assignRow_two {n : ℕ} (y z : K) :
    assignRow (zeros2 (n + 1) 3 : List (List K)) ((0 : ℕ) : ℤ) [y, z] = .error .valueError := by
  unfold assignRow
  rw [pyGet_nat _ _ 0 [] rfl (by simp [zeros2])]
  simp [zeros2, zeros, List.getD_eq_getElem?_getD]

theorem pyGet_last {α : Type} (pre : List α) (x : α) : pyGet (pre ++ [x]) (-1) = .ok x := by
  unfold pyGet pyIdx
  rw [if_neg (by omega), if_pos (by simp)]
  simp only [ok_bind]
  have : ((-1 : ℤ) + ((pre ++ [x]).length : ℕ)).toNat = pre.length := by simp
  rw [this]
  simp

theorem pyGet_last_inv {α : Type} {l : List α} {x : α} (h : pyGet l (-1) = .ok x) :
    ∃ pre, l = pre ++ [x] := by
  rcases List.eq_nil_or_concat l with rfl | ⟨pre, y, rfl⟩
  · simp [pyGet, pyIdx] at h
  · rw [List.concat_eq_append, pyGet_last] at h
    cases h
    exact ⟨pre, by simp⟩

theorem lookup_isSome_of_mem {V : Type} (d : List (String × V)) (s : String)
    (h : s ∈ d.map Prod.fst) : ∃ v, d.lookup s = some v := by
  induction d with
  | nil => simp at h
  | cons x xs ih =>
    obtain ⟨k, v⟩ := x
    by_cases hk : s = k
    · subst hk; exact ⟨v, by simp [List.lookup]⟩
    · have : s ∈ xs.map Prod.fst := by simpa [hk] using h
      obtain ⟨w, hw⟩ := ih this
      exact ⟨w, by simp [List.lookup, beq_eq_false_iff_ne.2 hk, hw]⟩

/-- What a successful `from_dict` leaves in the class. -/
theorem from_dict_class (c c' : ClassState K) (d : List (String × Arr K))
    (h : fromDict c d = .ok c') :
    ∃ a k, d.lookup "control_points" = some a ∧ d.lookup "knot_vector" = some k ∧
      c' = ⟨some a, some k⟩ := by
  unfold fromDict at h
  dsimp only at h
  split at h
  · cases h
  cases h1 : d.lookup "degree" with
  | none => rw [h1] at h; cases h
  | some v1 =>
    cases h2 : d.lookup "knot_vector" with
    | none => rw [h1, h2] at h; cases h
    | some v2 =>
      cases h3 : d.lookup "control_points" with
      | none => rw [h1, h2, h3] at h; cases h
      | some v3 =>
        rw [h1, h2, h3] at h
        simp only [ok_bind] at h
        cases h4 : pyGet v3.shape (-1) with
        | error e => rw [h4] at h; cases h
        | ok x =>
          rw [h4, ok_bind] at h
          cases h
          exact ⟨v3, v2, rfl, rfl, rfl⟩

/-- `to_dict` raises for every object: arrays have no method `to_list`. -/
theorem to_dict_raises (c : ClassState K) (o : Obj K) :
    o.toDict c = .error .attributeError := by
  unfold Obj.toDict Obj.getDegree
  cases o.degree with
  | none => rfl
  | some d =>
    rw [ok_bind]
    unfold Obj.getKv
    rcases c.kv with - | a <;> rcases o.instKv with - | b <;> rcases o.kv with - | k <;> rfl

end

end PySpline
