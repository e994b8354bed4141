import Verif.Props.FitUnique

/-!
# Auxiliary lemmas for `Props/SurfaceFitUnique.lean`
-/

set_option linter.unusedSectionVars false

namespace PySpline

open Spec Finset

variable {K : Type} [Field K] [LinearOrder K] [IsStrictOrderedRing K]

section
variable {ls : ℕ → List (List K) → List K → List K} {s : Surface K} {data : List (List K)} {m : ℕ}

/-- A surface whose control points are moved by an affine map is moved. -/
theorem surface_map_affine (hs : ClampedSurface s) {Z : List (List K)} (hZ : Shape Z (s.numU * s.numV) 3)
    (A : ℕ → ℕ → K) (b : ℕ → K) {k : ℕ} (hk : k < 3) {u v : K}
    (hu : knotFn s.kvU s.degreeU ≤ u ∧ u ≤ knotFn s.kvU s.numU)
    (hv : knotFn s.kvV s.degreeV ≤ v ∧ v ≤ knotFn s.kvV s.numV) :
    surface (knotFn s.kvU) s.degreeU s.numU (knotFn s.kvV) s.degreeV s.numV (coord (Z.map (affineRow A b)) k) u v
      = A k 0 * surface (knotFn s.kvU) s.degreeU s.numU (knotFn s.kvV) s.degreeV s.numV (coord Z 0) u v
        + A k 1 * surface (knotFn s.kvU) s.degreeU s.numU (knotFn s.kvV) s.degreeV s.numV (coord Z 1) u v
        + A k 2 * surface (knotFn s.kvU) s.degreeU s.numU (knotFn s.kvV) s.degreeV s.numV (coord Z 2) u v + b k := by
  have hone : ∑ i ∈ range s.numU, ∑ j ∈ range s.numV, Nclosed (knotFn s.kvU) s.degreeU s.numU i u
      * Nclosed (knotFn s.kvV) s.degreeV s.numV j v = 1 := by
    rw [sum_congr rfl fun i _ => by rw [← mul_sum, sum_Nclosed hs.cv hv.1 hv.2, mul_one], sum_Nclosed hs.cu hu.1 hu.2]
  unfold surface
  rw [← mul_one (b k), ← hone, mul_sum, mul_sum, mul_sum, mul_sum, ← sum_add_distrib, ← sum_add_distrib,
    ← sum_add_distrib]
  refine sum_congr rfl fun i hi => ?_
  rw [mul_sum, mul_sum, mul_sum, mul_sum, ← sum_add_distrib, ← sum_add_distrib, ← sum_add_distrib]
  refine sum_congr rfl fun j hj => ?_
  have hi := mem_range.1 hi
  have hj := mem_range.1 hj
  rw [coord_map_affineRow hZ (by nlinarith) hk]
  ring

/-- A free unknown with a zero column is zero in the solution of least norm. -/
theorem fitColumns_zero_column (hls : IsMinNormLstsq ls) {M P new : List (List K)} {f : List Bool} {n d : ℕ}
    (hs : Shape M m n) (hd : Shape data m d) (h3d : 3 ≤ d) (hP : Shape P n 3) (hfl : f.length = n)
    (hnew : fitColumns ls M data P f = .ok new) {j : ℕ} (hj : j < n) (hfj : f.getD j false = false)
    (hcol : ∀ r < m, at2 M r j 0 = 0) : ∀ k < 3, coord new k j = 0 := by
  intro k hk
  obtain ⟨x, hx, hxc⟩ := fitColumns_columns hd h3d hP hnew k hk
  have l1 : (data.map fun row => row.getD k 0).length = m := by simp [hd.1]
  have l2 : (P.map fun row => row.getD k 0).length = n := by simp [hP.1]
  obtain ⟨x', hx', hmin⟩ := linearFitFixed_minNorm hls (R := M) (Q := data.map fun row => row.getD k 0)
    (P := P.map fun row => row.getD k 0) (fixed := f) (by rw [l1, l2]; exact hs) (by rw [l2]; exact hfl)
  cases Except.ok.inj (hx.symm.trans hx')
  have hfix := (linearFitFixed_ok hx).2
  rw [l2] at hmin hfix
  have := hmin (Function.update (fun i => x.getD i 0) j 0)
    (fun i hi hfi => by
      have hne : i ≠ j := by rintro rfl; rw [hfj] at hfi; cases hfi
      rw [Function.update_of_ne hne]
      exact hfix i hi hfi)
    (le_of_eq (by
      unfold sqResid
      rw [l1]
      refine sum_congr rfl fun r hr => ?_
      congr 2
      refine sum_congr rfl fun i hi => ?_
      by_cases hij : i = j
      · subst hij
        have := hcol r (mem_range.1 hr)
        unfold at2 at this
        rw [this, zero_mul, zero_mul]
      · rw [Function.update_of_ne hij]))
  rw [hxc j hj]
  have e1 := sum_erase_add (range n) (fun i => if f.getD i false then 0 else x.getD i 0 ^ 2) (mem_range.2 hj)
  have e2 := sum_erase_add (range n)
    (fun i => if f.getD i false then 0 else Function.update (fun i => x.getD i 0) j 0 i ^ 2) (mem_range.2 hj)
  have e3 : ∑ i ∈ (range n).erase j, (if f.getD i false then 0 else x.getD i 0 ^ 2)
      = ∑ i ∈ (range n).erase j, if f.getD i false then 0 else Function.update (fun i => x.getD i 0) j 0 i ^ 2 := by
    refine sum_congr rfl fun i hi => ?_
    rw [Function.update_of_ne (ne_of_mem_erase hi)]
  rw [hfj, Function.update_self] at e2
  rw [hfj] at e1
  rw [← e1, ← e2, e3] at this
  simp only [Bool.false_eq_true, if_false] at this
  have h0 : x.getD j 0 ^ 2 ≤ 0 := by
    have h2 : (0 : K) ^ 2 = 0 := by ring
    linarith
  exact pow_eq_zero_iff two_ne_zero |>.1 (le_antisymm h0 (sq_nonneg _))

end

end PySpline
