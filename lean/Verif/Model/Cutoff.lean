import Verif.Py
import Verif.Spec

/-!
# The cutoff of `np.linalg.lstsq`

`linear_fit_fixed` calls `np.linalg.lstsq(Rfree, Q - Qfixed, rcond=None)` (`fit/algorithms/fitting.py:61`).  With
`rcond=None` NumPy passes `eps * max(M, N)` to LAPACK, which treats the singular values that are not greater than
`rcond` times the largest one as zero.  The singular values themselves need square roots; their squares are
`‖A v‖²` for the right singular vectors `v`, which are orthonormal and have orthogonal images.
-/

namespace PySpline

open Finset

variable {K : Type} [Field K] [LinearOrder K]

/-- Entry `r` of `A x`, for `n` unknowns. -/
def matVec (A : ℕ → ℕ → K) (n : ℕ) (x : ℕ → K) (r : ℕ) : K := ∑ i ∈ range n, A r i * x i

/-- `‖A x‖²` for `m` rows and `n` unknowns. -/
def energy (A : ℕ → ℕ → K) (m n : ℕ) (x : ℕ → K) : K := ∑ r ∈ range m, matVec A n x r ^ 2

/-- Right singular vectors: orthonormal, with orthogonal images. -/
structure SingularBasis (A : ℕ → ℕ → K) (m n : ℕ) (v : ℕ → ℕ → K) : Prop where
  unit : ∀ i < n, ∑ k ∈ range n, v i k * v i k = 1
  orth : ∀ i < n, ∀ j < n, i ≠ j → ∑ k ∈ range n, v i k * v j k = 0
  image : ∀ i < n, ∀ j < n, i ≠ j → ∑ r ∈ range m, matVec A n (v i) r * matVec A n (v j) r = 0

/-- The solution with cutoff `δ`: the components along the singular vectors whose singular value is greater than `δ`
times every singular value (`fit/algorithms/fitting.py:61`). -/
def cutoffSolution (δ : K) (A : ℕ → ℕ → K) (m n : ℕ) (v : ℕ → ℕ → K) (b : ℕ → K) (k : ℕ) : K :=
  ∑ i ∈ range n, if ∀ j ∈ range n, δ ^ 2 * energy A m n (v j) < energy A m n (v i) then
    (∑ r ∈ range m, matVec A n (v i) r * b r) / energy A m n (v i) * v i k else 0

/-- `np.linalg.lstsq(A, b, rcond=None)[0]` in exact arithmetic, where `ε` is the `eps` of the floating-point type
(`fit/algorithms/fitting.py:61`). -/
structure IsCutoffLstsq (ε : K) (lstsq : ℕ → List (List K) → List K → List K) : Prop where
  length : ∀ n A b, A.length = b.length → (∀ row ∈ A, row.length = n) → (lstsq n A b).length = n
  value : ∀ n A b, A.length = b.length → (∀ row ∈ A, row.length = n) →
    ∃ v, SingularBasis (fun r i => at2 A r i 0) A.length n v ∧ ∀ k < n, (lstsq n A b).getD k 0
      = cutoffSolution (ε * (max A.length n : ℕ)) (fun r i => at2 A r i 0) A.length n v (fun r => b.getD r 0) k

end PySpline
