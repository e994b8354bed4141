import Mathlib.Algebra.Order.BigOperators.Group.Finset
import Mathlib.Data.Nat.Choose.Sum
import Mathlib.RingTheory.Polynomial.Bernstein
import Verif.Lemmas.OneBasis
import Verif.Props.Knots

/-!
# The basis functions without interior knots are the Bernstein polynomials
-/

set_option linter.unusedSectionVars false

namespace PySpline

open Spec

variable {K : Type} [Field K] [LinearOrder K] [IsStrictOrderedRing K]

theorem N_bernstein {V : ℕ → K} (hV : Monotone V) {p : ℕ} (h0 : ∀ i ≤ p, V i = 0)
    (h1 : ∀ i, p < i → i ≤ 2 * p + 1 → V i = 1) {u : K} (hu0 : 0 ≤ u) (hu1 : u < 1) :
    ∀ d ≤ p, ∀ k ≤ d, N V d (p - d + k) u = (d.choose k : K) * u ^ k * (1 - u) ^ (d - k) := by
  intro d
  induction d with
  | zero =>
    intro _ k hk
    obtain rfl : k = 0 := by omega
    unfold N
    rw [if_pos ⟨by rw [h0 _ (by omega)]; exact hu0, by rw [h1 _ (by omega) (by omega)]; exact hu1⟩]
    simp
  | succ d ih =>
    intro hd k hk
    have ih := ih (by omega)
    unfold N
    rw [h0 (p - (d + 1) + k) (by omega), sub_zero, sub_zero]
    have first : u / V (p - (d + 1) + k + d + 1) * N V d (p - (d + 1) + k) u
        = if k = 0 then 0 else (d.choose (k - 1) : K) * u ^ k * (1 - u) ^ (d + 1 - k) := by
      split
      · rw [N_zero_of_not_support hV (Or.inr (by rw [h0 _ (by omega)]; exact hu0)), mul_zero]
      · rw [h1 _ (by omega) (by omega), div_one, show p - (d + 1) + k = p - d + (k - 1) by omega, ih (k - 1) (by omega),
          show d + 1 - k = d - (k - 1) by omega]
        obtain ⟨j, rfl⟩ : ∃ j, k = j + 1 := ⟨k - 1, by omega⟩
        rw [Nat.add_sub_cancel, pow_succ]
        ring
    have second : (V (p - (d + 1) + k + d + 2) - u)
          / (V (p - (d + 1) + k + d + 2) - V (p - (d + 1) + k + 1)) * N V d (p - (d + 1) + k + 1) u
        = if k = d + 1 then 0 else (d.choose k : K) * u ^ k * (1 - u) ^ (d + 1 - k) := by
      split
      · rw [N_zero_of_not_support hV (Or.inl (by rw [h1 _ (by omega) (by omega)]; exact hu1)), mul_zero]
      · rw [h1 (p - (d + 1) + k + d + 2) (by omega) (by omega), h0 _ (by omega), sub_zero, div_one,
          show p - (d + 1) + k + 1 = p - d + k by omega, ih k (by omega), show d + 1 - k = (d - k) + 1 by omega, pow_succ]
        ring
    rw [first, second]
    rcases Nat.eq_zero_or_pos k with rfl | hk0
    · rw [if_pos rfl, if_neg (by omega)]
      simp
    · rw [if_neg (by omega)]
      obtain ⟨j, rfl⟩ : ∃ j, k = j + 1 := ⟨k - 1, by omega⟩
      split
      · obtain rfl : j = d := by omega
        simp
      · rw [Nat.add_sub_cancel, Nat.choose_succ_succ]
        push_cast
        ring

/-- The basis functions of the clamped knot vector `0, …, 0, 1, …, 1`. -/
theorem Nclosed_bernstein {p : ℕ} {U : List K} (hU : Clamped p (p + 1) U) (h0 : knotFn U 0 = 0)
    (h1 : knotFn U (p + 1 + p) = 1) {u : K} (hu0 : 0 ≤ u) (hu1 : u ≤ 1) {i : ℕ} (hi : i ≤ p) :
    Nclosed (knotFn U) p (p + 1) i u = (p.choose i : K) * u ^ i * (1 - u) ^ (p - i) := by
  unfold Nclosed
  rw [h1]
  split
  · rename_i h
    subst h
    split
    · obtain rfl : i = p := by omega
      simp
    · rw [sub_self, zero_pow (by omega), mul_zero]
  · rename_i h
    have := N_bernstein (monotone_knotFn hU.mono) (p := p) (fun i hi => (hU.left i hi).trans h0)
      (fun i h2 h3 => (hU.right i (by omega) (by omega)).trans h1) hu0 (lt_of_le_of_ne hu1 h) p le_rfl i hi
    rwa [Nat.sub_self, Nat.zero_add] at this

/-- Every parameter of the domain is regular if there are no interior knots. -/
theorem regular_bernstein {p : ℕ} {U : List K} (hU : Clamped p (p + 1) U) (h0 : knotFn U 0 = 0)
    (h1 : knotFn U (p + 1 + p) = 1) {u : K} (hu0 : 0 ≤ u) (hu1 : u ≤ 1) : Regular p (p + 1) U u where
  lo := by rw [hU.left p le_rfl, h0]; exact hu0
  hi := by rw [hU.right (p + 1) le_rfl (by omega), h1]; exact hu1
  simple := by
    intro i h2 h3 _
    obtain rfl : i = p := by omega
    rw [hU.left i le_rfl, h0, hU.right (i + 1) le_rfl (by omega), h1]
    exact one_pos
  last := fun _ => by rw [Nat.add_sub_cancel, hU.left p le_rfl, h0]; exact hu0

/-- The Bernstein polynomials reproduce constants and the identity. -/
theorem sum_bernstein_affine (p : ℕ) (hp : 1 ≤ p) (a b u : K) :
    ∑ i ∈ Finset.range (p + 1), (a + (i : K) / p * (b - a)) * ((p.choose i : K) * u ^ i * (1 - u) ^ (p - i))
      = a + u * (b - a) := by
  have hp0 : (p : K) ≠ 0 := by exact_mod_cast (by omega : p ≠ 0)
  have s0 : ∑ i ∈ Finset.range (p + 1), ((p.choose i : K) * u ^ i * (1 - u) ^ (p - i)) = 1 := by
    have := congrArg (Polynomial.eval u) (bernsteinPolynomial.sum K p)
    rw [Polynomial.eval_finsetSum] at this
    simpa [bernsteinPolynomial] using this
  have s1 : ∑ i ∈ Finset.range (p + 1), (i : K) * ((p.choose i : K) * u ^ i * (1 - u) ^ (p - i)) = p * u := by
    have := congrArg (Polynomial.eval u) (bernsteinPolynomial.sum_smul K p)
    rw [Polynomial.eval_finsetSum] at this
    simpa [bernsteinPolynomial, nsmul_eq_mul] using this
  have : ∀ i ∈ Finset.range (p + 1), (a + (i : K) / p * (b - a)) * ((p.choose i : K) * u ^ i * (1 - u) ^ (p - i))
      = a * ((p.choose i : K) * u ^ i * (1 - u) ^ (p - i))
        + (b - a) / p * ((i : K) * ((p.choose i : K) * u ^ i * (1 - u) ^ (p - i))) := fun i _ => by ring
  rw [Finset.sum_congr rfl this, Finset.sum_add_distrib, ← Finset.mul_sum, ← Finset.mul_sum, s0, s1]
  field_simp

end PySpline
