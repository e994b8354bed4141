import Verif.Lemmas.Curve
import Verif.Props.Knots
import Verif.Props.Insertion

/-!
# Auxiliary lemmas for `Props/Curve.lean`
-/

set_option linter.unusedSectionVars false

namespace PySpline

open Spec Polynomial

variable {K : Type} [Field K] [LinearOrder K] [IsStrictOrderedRing K]

theorem Nclosed_first {p n : ℕ} {U : List K} (hU : Clamped p n U)
    (hfirst : knotFn U p < knotFn U (p + 1)) (i : ℕ) :
    Nclosed (knotFn U) p n i (knotFn U 0) = if i = 0 then 1 else 0 := by
  have hV := monotone_knotFn hU.mono
  have hsz := hU.size
  unfold Nclosed
  rw [if_neg, N_first hU hfirst]
  rw [← hU.left p le_rfl]
  exact (hfirst.trans_le (hV (by omega))).ne

theorem Nclosed_last {p n : ℕ} {U : List K} (i : ℕ) :
    Nclosed (knotFn U) p n i (knotFn U (n + p)) = if i + 1 = n then 1 else 0 := by
  unfold Nclosed
  rw [if_pos rfl]

theorem curve_first {p n : ℕ} {U : List K} (hU : Clamped p n U)
    (hfirst : knotFn U p < knotFn U (p + 1)) (c : ℕ → K) :
    curve (knotFn U) p n c (knotFn U 0) = c 0 := by
  have hsz := hU.size
  unfold curve
  rw [Finset.sum_eq_single 0]
  · rw [Nclosed_first hU hfirst]; simp
  · intro b _ hb; rw [Nclosed_first hU hfirst]; simp [hb]
  · intro h; exact absurd (Finset.mem_range.2 (by omega)) h

theorem curve_last {p n : ℕ} {U : List K} (hU : Clamped p n U) (c : ℕ → K) :
    curve (knotFn U) p n c (knotFn U (n + p)) = c (n - 1) := by
  have hsz := hU.size
  unfold curve
  rw [Finset.sum_eq_single (n - 1)]
  · rw [Nclosed_last, if_pos (by omega), mul_one]
  · intro b _ hb; rw [Nclosed_last, if_neg (by omega), mul_zero]
  · intro h; exact absurd (Finset.mem_range.2 (by omega)) h

theorem Nclosed_nonneg {V : ℕ → K} (hV : Monotone V) (p n i : ℕ) (u : K) :
    0 ≤ Nclosed V p n i u := by
  unfold Nclosed
  split
  · split <;> simp
  · exact N_nonneg hV p i u

theorem Nclosed_support {V : ℕ → K} (hV : Monotone V) {p n i : ℕ} {u : K}
    (h : Nclosed V p n i u ≠ 0) : V i ≤ u ∧ u ≤ V (i + p + 1) := by
  unfold Nclosed at h
  by_cases h1 : u = V (n + p)
  · rw [if_pos h1] at h
    by_cases h2 : i + 1 = n
    · rw [h1, show i + p + 1 = n + p by omega]
      exact ⟨hV (by omega), le_rfl⟩
    · rw [if_neg h2] at h; exact absurd rfl h
  · rw [if_neg h1] at h
    have := N_support hV h
    exact ⟨this.1, this.2.le⟩

/-- A convex combination stays in every half-line that contains the active coefficients. -/
theorem curve_le {p n : ℕ} {U : List K} (hU : Clamped p n U) {u : K} (h1 : knotFn U p ≤ u)
    (h2 : u ≤ knotFn U (n + p)) {c : ℕ → K} {b : K}
    (hc : ∀ i < n, knotFn U i ≤ u → u ≤ knotFn U (i + p + 1) → c i ≤ b) :
    curve (knotFn U) p n c u ≤ b := by
  have hV := monotone_knotFn hU.mono
  have hsum := sum_Nclosed hU h1 (by rw [hU.right n le_rfl (by omega)]; exact h2)
  unfold curve
  calc ∑ i ∈ Finset.range n, c i * Nclosed (knotFn U) p n i u
      ≤ ∑ i ∈ Finset.range n, b * Nclosed (knotFn U) p n i u := by
        refine Finset.sum_le_sum fun i hi => ?_
        by_cases hz : Nclosed (knotFn U) p n i u = 0
        · rw [hz, mul_zero, mul_zero]
        · obtain ⟨s1, s2⟩ := Nclosed_support hV hz
          exact mul_le_mul_of_nonneg_right (hc i (Finset.mem_range.1 hi) s1 s2)
            (Nclosed_nonneg hV _ _ _ _)
    _ = b := by rw [← Finset.mul_sum, hsum, mul_one]

theorem curve_lin (V : ℕ → K) (p n : ℕ) (a b : K) (c e : ℕ → K) (u : K) :
    curve V p n (fun i => a * c i + b * e i) u = a * curve V p n c u + b * curve V p n e u := by
  unfold curve
  rw [Finset.mul_sum, Finset.mul_sum, ← Finset.sum_add_distrib]
  exact Finset.sum_congr rfl fun i _ => by ring

theorem mapPy_ok_iff {α β : Type} (f : α → Py β) (l : List α) (ys : List β) :
    mapPy f l = .ok ys ↔ List.Forall₂ (fun x y => f x = .ok y) l ys := by
  induction l generalizing ys with
  | nil =>
    constructor
    · intro h; cases h; exact .nil
    · intro h; cases h; rfl
  | cons x xs ih =>
    unfold mapPy
    constructor
    · intro h
      rcases hx : f x with e | y
      · rw [hx] at h; cases h
      · rw [hx, ok_bind] at h
        rcases hxs : mapPy f xs with e | zs
        · rw [hxs] at h; cases h
        · rw [hxs, ok_bind] at h
          cases h
          exact .cons hx ((ih zs).1 hxs)
    · intro h
      cases h with
      | cons h1 h2 => rw [h1, ok_bind, (ih _).2 h2, ok_bind]

theorem mapPy_fails_iff {α β : Type} (f : α → Py β) (l : List α) :
    (∃ e, mapPy f l = .error e) ↔ ∃ x ∈ l, ∃ e, f x = .error e := by
  induction l with
  | nil => simp [mapPy]
  | cons x xs ih =>
    unfold mapPy
    rcases hx : f x with e | y
    · simp [hx]
    · rw [ok_bind]
      rcases hxs : mapPy f xs with e | zs
      · rw [hxs] at ih
        simp only [error_bind]
        constructor
        · intro _
          obtain ⟨x', h1, h2⟩ := ih.1 ⟨e, rfl⟩
          exact ⟨x', by simp [h1], h2⟩
        · intro _; exact ⟨e, rfl⟩
      · rw [hxs] at ih
        simp only [ok_bind]
        constructor
        · rintro ⟨e, h⟩; cases h
        · rintro ⟨x', h1, h2⟩
          rcases List.mem_cons.1 h1 with rfl | h1
          · obtain ⟨e, h2⟩ := h2; rw [hx] at h2; cases h2
          · obtain ⟨e, h⟩ := ih.2 ⟨x', h1, h2⟩; cases h

end PySpline
