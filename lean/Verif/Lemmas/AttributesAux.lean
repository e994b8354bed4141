import Verif.Props.Geometry

/-!
# Auxiliary lemmas for `Props/Attributes.lean`
-/

set_option linter.unusedSectionVars false

namespace PySpline

open Spec

section
variable {K : Type} [Field K] [LinearOrder K] [IsStrictOrderedRing K]

theorem setCtrl_fresh {o o' : Obj K} {x : CtrlArg K} (h : o.setCtrl .fresh x = .ok o') :
    ∃ a, x = .arr a ∧ o' = { o with ctrl := some a } := by
  simp only [Obj.setCtrl, ClassState.fresh, Obj.propSetCtrl] at h
  split at h
  · cases h
  split at h
  · cases h
  split at h
  · cases h
  · rename_i a
    cases hl : pyGet a.shape (-1) with
    | error e => rw [hl] at h; cases h
    | ok l =>
      rw [hl, ok_bind] at h
      split at h
      · cases h
      · cases h; exact ⟨a, rfl, rfl⟩

theorem setKv_cases {o o' : Obj K} {k : List K} (h : o.setKv k = .ok o') :
    o' = o ∨ o' = { o with kv := some k } := by
  unfold Obj.setKv at h
  split at h
  · cases h
  split at h
  · cases h
  cases hc : o.checkKv k with
  | error e => rw [hc] at h; cases h
  | ok b =>
    rw [hc, ok_bind] at h
    split at h
    · cases h; exact Or.inr rfl
    · cases h; exact Or.inl rfl

/-- What one accepted call does to the degrees in `u` and `v`, the sizes and the control points. -/
theorem call_effect {o o' : Obj K} {op : Op K} (h : o.call .fresh op = .ok o') :
    (o'.degreeU = o.degreeU ∨ ∃ d, op = .degreeU d ∧ 1 ≤ d ∧ o'.degreeU = some d) ∧
    (o'.degreeV = o.degreeV ∨ ∃ d, op = .degreeV d ∧ 1 ≤ d ∧ o'.degreeV = some d) ∧
    (o'.numU = o.numU ∨ ∃ n d, op = .numU n ∧ o.degreeU = some d ∧ d < n ∧ o'.numU = some n) ∧
    (o'.numV = o.numV ∨ ∃ n d, op = .numV n ∧ o.degreeV = some d ∧ d < n ∧ o'.numV = some n) ∧
    (o'.ctrl = o.ctrl ∨ ∃ a, op = .ctrl (.arr a) ∧ o'.ctrl = some a) := by
  cases op with
  | degree d =>
    simp only [Obj.call, Obj.setDegree] at h
    split at h
    · cases h
    · cases h; simp
  | degreeU d =>
    simp only [Obj.call, Obj.setDegreeU] at h
    split at h
    · cases h
    · cases h
      exact ⟨Or.inr ⟨d, rfl, by omega, rfl⟩, Or.inl rfl, Or.inl rfl, Or.inl rfl, Or.inl rfl⟩
  | degreeV d =>
    simp only [Obj.call, Obj.setDegreeV] at h
    split at h
    · cases h
    · cases h
      exact ⟨Or.inl rfl, Or.inr ⟨d, rfl, by omega, rfl⟩, Or.inl rfl, Or.inl rfl, Or.inl rfl⟩
  | numU n =>
    simp only [Obj.call, Obj.setNumU] at h
    split at h
    · cases h
    · rename_i d hd
      split at h
      · cases h
      · cases h
        exact ⟨Or.inl rfl, Or.inl rfl, Or.inr ⟨n, d, rfl, hd, by omega, rfl⟩, Or.inl rfl, Or.inl rfl⟩
  | numV n =>
    simp only [Obj.call, Obj.setNumV] at h
    split at h
    · cases h
    · rename_i d hd
      split at h
      · cases h
      · cases h
        exact ⟨Or.inl rfl, Or.inl rfl, Or.inl rfl, Or.inr ⟨n, d, rfl, hd, by omega, rfl⟩, Or.inl rfl⟩
  | ctrl x =>
    obtain ⟨a, rfl, rfl⟩ := setCtrl_fresh h
    exact ⟨Or.inl rfl, Or.inl rfl, Or.inl rfl, Or.inl rfl, Or.inr ⟨a, rfl, rfl⟩⟩
  | kv k => rcases setKv_cases h with rfl | rfl <;> simp
  | kvU k => obtain ⟨e, he⟩ := knot_vector_u_raises o k; simp only [Obj.call, he] at h; cases h
  | kvV k => obtain ⟨e, he⟩ := knot_vector_v_raises o k; simp only [Obj.call, he] at h; cases h
  | insertKnot u => simp only [Obj.call, insert_knot_raises] at h; cases h

/-- An invariant of single accepted calls is an invariant of histories. -/
theorem run_keeps {I : Obj K → Prop} {P : Op K → Prop}
    (h : ∀ o o' op, P op → I o → o.call .fresh op = .ok o' → I o') (ops : List (Op K))
    (hops : ∀ op ∈ ops, P op) (o : Obj K) (ho : I o) : I (o.run .fresh ops) := by
  induction ops generalizing o with
  | nil => exact ho
  | cons op ops ih =>
    refine ih (fun x hx => hops x (List.mem_cons_of_mem _ hx)) (o.tryCall .fresh op) ?_
    unfold Obj.tryCall
    cases hc : o.call .fresh op with
    | ok o' => exact h o o' op (hops op List.mem_cons_self) ho hc
    | error e => exact ho

end

end PySpline
