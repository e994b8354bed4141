import Verif.Props.Newton

/-!
# Auxiliary lemmas for `Props/SurfaceInversion.lean`
-/

set_option linter.unusedSectionVars false

namespace PySpline

open Spec

section
variable {K : Type} [Field K] [LinearOrder K] [IsStrictOrderedRing K]

/-- On a smooth black box the loop of `surface_inversion` can only fail in a Newton step. -/
theorem surfLoop_outcome {nm : Num K} {S : SurfLike K} {D : ℕ → ℕ → K → K → List K} (hS : S.Smooth D) {p : List K}
    (hp : p.length = 3) {eps1 eps2 : K} {maxIter : ℤ} (fuel : ℕ) : ∀ (j : ℤ) (x z : K × K), maxIter + 1 - j ≤ fuel →
    1 ≤ fuel → 0 ≤ x.1 → x.1 ≤ 1 → 0 ≤ x.2 → x.2 ≤ 1 →
    (∃ r, surfLoop nm S p eps1 eps2 maxIter fuel j x.1 x.2 ⟨D 1 0 z.1 z.2, D 0 1 z.1 z.2, D 2 0 z.1 z.2,
      D 0 2 z.1 z.2, D 1 1 z.1 z.2⟩ = .ok r) ∨
    surfLoop nm S p eps1 eps2 maxIter fuel j x.1 x.2 ⟨D 1 0 z.1 z.2, D 0 1 z.1 z.2, D 2 0 z.1 z.2,
      D 0 2 z.1 z.2, D 1 1 z.1 z.2⟩ = .error .linAlgError := by
  induction fuel with
  | zero => intro j x z _ h; omega
  | succ fuel ih =>
    intro j x z hj _ h1 h2 h3 h4
    unfold surfLoop
    have L := fun a b => hS.len a b z.1 z.2
    have hstep : (∃ y, surfStep nm S p x.1 x.2 ⟨D 1 0 z.1 z.2, D 0 1 z.1 z.2, D 2 0 z.1 z.2, D 0 2 z.1 z.2,
        D 1 1 z.1 z.2⟩ = .ok y) ∨ surfStep nm S p x.1 x.2 ⟨D 1 0 z.1 z.2, D 0 1 z.1 z.2, D 2 0 z.1 z.2,
        D 0 2 z.1 z.2, D 1 1 z.1 z.2⟩ = .error .linAlgError := by
      unfold surfStep
      dsimp only
      rw [hS.pt _ _ h1 h2 h3 h4, ok_bind, vsub_len3 (hS.len _ _ _ _) hp, ok_bind, dot_len3 rfl (L 1 0),
        ok_bind, dot_len3 rfl (L 0 1), ok_bind, dot_len3 rfl (L 2 0), ok_bind, dot_len3 (L 1 0) (L 0 1),
        ok_bind, dot_len3 rfl (L 1 1), ok_bind, dot_len3 rfl (L 0 2), ok_bind]
      split
      · exact Or.inr rfl
      · exact Or.inl ⟨_, rfl⟩
    rcases hstep with ⟨y, hs⟩ | hs
    · obtain ⟨⟨m1, m2⟩, m3, m4⟩ := surfStep_mem hs
      rw [hs, ok_bind]
      dsimp only
      rw [vadd_len3 (hS.len _ _ _ _) (hS.len _ _ _ _), ok_bind]
      split
      · exact Or.inl ⟨_, rfl⟩
      rw [hS.info h1 h2 h3 h4, ok_bind, hS.cond1 hp m1 m2 m3 m4, ok_bind]
      split
      · exact Or.inl ⟨_, rfl⟩
      rw [hS.cond2 hp x m1 m2 m3 m4, ok_bind]
      split
      · exact Or.inl ⟨_, rfl⟩
      split
      · exact Or.inl ⟨_, rfl⟩
      · exact ih _ y x (by push_cast at hj; omega) (by push_cast at hj; omega) m1 m2 m3 m4
    · rw [hs]
      exact Or.inr rfl

/-- On a smooth black box `surface_inversion` returns a pair in the unit square or raises `LinAlgError`. -/
theorem surface_inversion_outcome {nm : Num K} {S : SurfLike K} {D : ℕ → ℕ → K → K → List K} (hS : S.Smooth D)
    (hu : 0 < S.numU) (hv : 0 < S.numV) {p : List K} (hp : p.length = 3) (eps1 eps2 : K) {maxIter : ℤ} {fuel : ℕ}
    (hf : maxIter + 1 ≤ fuel) (hf1 : 1 ≤ fuel) :
    (∃ r, surfaceInversion fuel nm S p eps1 eps2 maxIter = .ok r ∧ (0 ≤ r.1 ∧ r.1 ≤ 1) ∧ 0 ≤ r.2 ∧ r.2 ≤ 1) ∨
    surfaceInversion fuel nm S p eps1 eps2 maxIter = .error .linAlgError := by
  suffices h : (∃ r, surfaceInversion fuel nm S p eps1 eps2 maxIter = .ok r) ∨
      surfaceInversion fuel nm S p eps1 eps2 maxIter = .error .linAlgError by
    rcases h with ⟨r, h⟩ | h
    · exact Or.inl ⟨r, h, surface_inversion_mem _ _ _ _ _ _ _ _ h⟩
    · exact Or.inr h
  have gm : ∀ {n a : ℕ}, a < 2 * n → (0 : K) ≤ (a : K) / (((2 * n : ℕ) : K) - 1) ∧
      (a : K) / (((2 * n : ℕ) : K) - 1) ≤ 1 := by
    intro n a ha
    exact grid_mem_unit ha
  obtain ⟨a, ha, b, hb, h0, -⟩ := initial_guess_surf_nearest nm S p hu hv
    (fun a b => D 0 0 ((a : K) / (((2 * S.numU : ℕ) : K) - 1)) ((b : K) / (((2 * S.numV : ℕ) : K) - 1)))
    fun a ha b hb => ⟨hS.pt _ _ (gm ha).1 (gm ha).2 (gm hb).1 (gm hb).2, by rw [hp, hS.len]⟩
  unfold surfaceInversion
  rw [h0, ok_bind]
  dsimp only
  generalize hx : (a : K) / (((2 * S.numU : ℕ) : K) - 1) = u
  generalize hy : (b : K) / (((2 * S.numV : ℕ) : K) - 1) = v
  have hu' := gm (n := S.numU) ha
  have hv' := gm (n := S.numV) hb
  rw [hx] at hu'
  rw [hy] at hv'
  rw [hS.info hu'.1 hu'.2 hv'.1 hv'.2, ok_bind, hS.cond1 (x := (u, v)) hp hu'.1 hu'.2 hv'.1 hv'.2, ok_bind]
  split
  · exact Or.inl ⟨_, rfl⟩
  rw [hS.cond2 (x := (u, v)) hp (u, v) hu'.1 hu'.2 hv'.1 hv'.2, ok_bind]
  split
  · exact Or.inl ⟨_, rfl⟩
  exact surfLoop_outcome hS hp fuel 0 (u, v) (u, v) (by omega) hf1 hu'.1 hu'.2 hv'.1 hv'.2

/-- Either every element is mapped, or the only possible exception is raised. -/
theorem mapPy_outcome {α β : Type} {f : α → Py β} {P : α → β → Prop} {e : Err} {l : List α}
    (h : ∀ x ∈ l, (∃ y, f x = .ok y ∧ P x y) ∨ f x = .error e) :
    (∃ ys, mapPy f l = .ok ys ∧ List.Forall₂ P l ys) ∨ mapPy f l = .error e := by
  induction l with
  | nil => exact Or.inl ⟨[], rfl, .nil⟩
  | cons x xs ih =>
    unfold mapPy
    rcases h x (by simp) with ⟨y, hy, hP⟩ | hx
    · rw [hy, ok_bind]
      rcases ih fun z hz => h z (by simp [hz]) with ⟨ys, hys, hF⟩ | he
      · rw [hys]
        exact Or.inl ⟨_, rfl, .cons hP hF⟩
      · rw [he]
        exact Or.inr rfl
    · rw [hx]
      exact Or.inr rfl

end

end PySpline
