import Verif.Lemmas.Cutoff
import Mathlib.Analysis.Matrix.Spectrum

/-!
# Over the reals every matrix has singular vectors
-/

namespace PySpline

open Finset

theorem exists_singularBasis (A : ℕ → ℕ → ℝ) (m n : ℕ) : ∃ v, SingularBasis A m n v := by
  let M : Matrix (Fin m) (Fin n) ℝ := fun r i => A r i
  have hH : (M.transpose * M).IsHermitian := by
    have := Matrix.isHermitian_conjTranspose_mul_self M
    rwa [Matrix.conjTranspose_eq_transpose_of_trivial] at this
  let e : Fin n → Fin n → ℝ := fun i => ⇑(hH.eigenvectorBasis i)
  have horth : ∀ i j, ∑ k, e i k * e j k = if i = j then 1 else 0 := by
    intro i j
    have := hH.eigenvectorBasis.inner_eq_ite i j
    rw [PiLp.inner_apply] at this
    rw [← this]
    refine sum_congr rfl fun k _ => ?_
    simp [e, mul_comm]
  let v : ℕ → ℕ → ℝ := fun i k => if h : i < n ∧ k < n then e ⟨i, h.1⟩ ⟨k, h.2⟩ else 0
  have hv : ∀ (i k : Fin n), v i k = e i k := fun i k => dif_pos ⟨i.2, k.2⟩
  have hin : ∀ i j : Fin n, ∑ k ∈ range n, v i k * v j k = if i = j then 1 else 0 := by
    intro i j
    rw [← horth, ← Fin.sum_univ_eq_sum_range (fun k => v i k * v j k)]
    exact sum_congr rfl fun k _ => by rw [hv, hv]
  have hmv : ∀ (i : Fin n) (r : Fin m), matVec A n (v i) r = M.mulVec (e i) r := by
    intro i r
    unfold matVec Matrix.mulVec dotProduct
    rw [← Fin.sum_univ_eq_sum_range (fun k => A r k * v i k)]
    exact sum_congr rfl fun k _ => by rw [hv]
  refine ⟨v, fun i hi => by simpa using hin ⟨i, hi⟩ ⟨i, hi⟩, fun i hi j hj hij => ?_, fun i hi j hj hij => ?_⟩
  · have := hin ⟨i, hi⟩ ⟨j, hj⟩
    rwa [if_neg (by simpa [Fin.ext_iff] using hij)] at this
  · rw [← Fin.sum_univ_eq_sum_range (fun r => matVec A n (v i) r * matVec A n (v j) r)]
    have e1 : ∑ r : Fin m, matVec A n (v i) r * matVec A n (v j) r
        = dotProduct (M.mulVec (e ⟨i, hi⟩)) (M.mulVec (e ⟨j, hj⟩)) :=
      sum_congr rfl fun r _ => by rw [← hmv ⟨i, hi⟩ r, ← hmv ⟨j, hj⟩ r]
    have e2 : dotProduct (M.mulVec (e ⟨i, hi⟩)) (M.mulVec (e ⟨j, hj⟩))
        = dotProduct (e ⟨i, hi⟩) ((M.transpose * M).mulVec (e ⟨j, hj⟩)) := by
      rw [← Matrix.mulVec_mulVec, Matrix.dotProduct_mulVec (e ⟨i, hi⟩), Matrix.vecMul_transpose]
    have e3 : (M.transpose * M).mulVec (e ⟨j, hj⟩) = hH.eigenvalues ⟨j, hj⟩ • e ⟨j, hj⟩ :=
      hH.mulVec_eigenvectorBasis ⟨j, hj⟩
    rw [e1, e2, e3, dotProduct_smul]
    have : dotProduct (e ⟨i, hi⟩) (e ⟨j, hj⟩) = 0 := by
      unfold dotProduct
      rw [horth, if_neg (by simpa [Fin.ext_iff] using hij)]
    rw [this, smul_zero]

/-- A solver with the cutoff exists over the reals. -/
theorem exists_isCutoffLstsq (ε : ℝ) : ∃ ls, IsCutoffLstsq ε ls := by
  refine ⟨fun n A b => (List.range n).map fun k => cutoffSolution (ε * (max A.length n : ℕ)) (fun r i => at2 A r i 0)
    A.length n (exists_singularBasis (fun r i => at2 A r i 0) A.length n).choose (fun r => b.getD r 0) k, ?_, ?_⟩
  · intro n A b _ _
    simp
  · intro n A b _ _
    refine ⟨_, (exists_singularBasis (fun r i => at2 A r i 0) A.length n).choose_spec, fun k hk => ?_⟩
    simp [List.getD_eq_getElem?_getD, hk]

end PySpline
