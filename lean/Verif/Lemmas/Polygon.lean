import Mathlib.Algebra.BigOperators.Intervals
import Verif.Lemmas.Insertion
import Verif.Lemmas.Refine
import Verif.Lemmas.StartValues
import Verif.SpecPolygon

/-!
# Lengths of control polygons and curves
-/

set_option linter.unusedSectionVars false

namespace PySpline

open Finset Spec

variable {K : Type} [Field K] [LinearOrder K] [IsStrictOrderedRing K]

namespace Spec.IsSeminorm
variable {norm : List K → K} (hn : IsSeminorm norm)
include hn

theorem zero : norm [0, 0, 0] = 0 := by
  have := hn.smul 0 0 0 0
  simpa using this

theorem nonneg (a b c : K) : 0 ≤ norm [a, b, c] := by
  have h := hn.triangle a b c ((-1) * a) ((-1) * b) ((-1) * c)
  rw [hn.smul] at h
  simp only [neg_mul, one_mul, add_neg_cancel, hn.zero, abs_neg, abs_one] at h
  linarith

/-- The triangle inequality for linear combinations. -/
theorem sum_le (w x y z : ℕ → K) (m : ℕ) (hw : ∀ i < m, 0 ≤ w i) :
    norm [∑ i ∈ range m, w i * x i, ∑ i ∈ range m, w i * y i, ∑ i ∈ range m, w i * z i]
      ≤ ∑ i ∈ range m, w i * norm [x i, y i, z i] := by
  induction m with
  | zero => simp [hn.zero]
  | succ m ih =>
    simp only [sum_range_succ]
    refine (hn.triangle _ _ _ _ _ _).trans (add_le_add (ih fun i hi => hw i (by omega)) ?_)
    rw [hn.smul, abs_of_nonneg (hw m (by omega))]

end Spec.IsSeminorm

/-- The increment of a polygon given by its three coordinates. -/
def polyStep (norm : List K → K) (x : ℕ → ℕ → K) (i : ℕ) : K :=
  norm [x 0 (i + 1) - x 0 i, x 1 (i + 1) - x 1 i, x 2 (i + 1) - x 2 i]

theorem polygonLength_eq {norm : List K → K} {Q : List (List K)} {n : ℕ} (hQ : Q.length = n + 1) {x : ℕ → ℕ → K}
    (hx : ∀ y < 3, ∀ i ≤ n, coord Q y i = x y i) :
    polygonLength norm Q = ∑ i ∈ range n, polyStep norm x i := by
  unfold polygonLength polyStep
  rw [hQ, Nat.add_sub_cancel]
  refine sum_congr rfl fun i hi => ?_
  have := mem_range.1 hi
  rw [hx 0 (by omega) i (by omega), hx 1 (by omega) i (by omega), hx 2 (by omega) i (by omega),
    hx 0 (by omega) (i + 1) (by omega), hx 1 (by omega) (i + 1) (by omega), hx 2 (by omega) (i + 1) (by omega)]

/-- One insertion does not lengthen the polygon. -/
theorem boehm_polygon {norm : List K → K} (hn : IsSeminorm norm) {V : ℕ → K} {p k n : ℕ} {u : K}
    (hA : ∀ i, 0 ≤ boehmA V p k u i ∧ boehmA V p k u i ≤ 1) (hpk : p ≤ k) (hk : k ≤ n) (x : ℕ → ℕ → K) :
    ∑ i ∈ range (n + 1), polyStep norm (fun y => boehm V p k u (x y)) i ≤ ∑ i ∈ range n, polyStep norm x i := by
  set A := boehmA V p k u with hAdef
  have a0 : A 0 = 1 := by rw [hAdef]; unfold boehmA; rw [if_pos (by omega)]
  have a1 : A (n + 1) = 0 := by
    rw [hAdef]; unfold boehmA
    by_cases h : n + 1 + p ≤ k
    · omega
    · rw [if_neg h, if_pos (by omega)]
  have step : ∀ i, polyStep norm (fun y => boehm V p k u (x y)) i
      ≤ A (i + 1) * polyStep norm x i + (1 - A i) * polyStep norm x (i - 1) := by
    intro i
    have e : ∀ y, boehm V p k u (x y) (i + 1) - boehm V p k u (x y) i
        = A (i + 1) * (x y (i + 1) - x y i) + (1 - A i) * (x y (i - 1 + 1) - x y (i - 1)) := by
      intro y
      unfold boehm
      rw [← hAdef, Nat.add_sub_cancel]
      rcases Nat.eq_zero_or_pos i with rfl | hi
      · rw [a0]; ring
      · rw [Nat.sub_add_cancel hi]; ring
    unfold polyStep
    rw [e, e, e]
    refine (hn.triangle _ _ _ _ _ _).trans ?_
    rw [hn.smul, hn.smul, abs_of_nonneg (hA (i + 1)).1, abs_of_nonneg (by linarith [(hA i).2])]
  refine (sum_le_sum fun i _ => step i).trans (le_of_eq ?_)
  rw [sum_add_distrib, sum_range_succ, a1, zero_mul, add_zero, sum_range_succ' (fun i => (1 - A i) * _), a0, sub_self,
    zero_mul, add_zero, ← sum_add_distrib]
  refine sum_congr rfl fun i _ => ?_
  rw [Nat.add_sub_cancel]
  ring

/-- A B-spline function as the sum of its steps. -/
theorem curve_steps {p m : ℕ} {U : List K} (hU : Clamped p (m + 1) U) (c : ℕ → K) {u : K} (h1 : knotFn U p ≤ u)
    (h2 : u ≤ knotFn U (m + 1)) :
    curve (knotFn U) p (m + 1) c u
      = c 0 + ∑ i ∈ range m, curve (knotFn U) p (m + 1) (fun j => if i < j then 1 else 0) u * (c (i + 1) - c i) := by
  have hs := sum_Nclosed hU h1 h2
  unfold curve
  simp only [sum_mul]
  rw [sum_comm]
  have e0 : c 0 = ∑ j ∈ range (m + 1), c 0 * Nclosed (knotFn U) p (m + 1) j u := by rw [← mul_sum, hs, mul_one]
  conv_rhs => rw [e0, ← sum_add_distrib]
  refine sum_congr rfl fun j hj => ?_
  have hj' : j ≤ m := by have := mem_range.1 hj; omega
  have key : ∑ i ∈ range m, (if i < j then (1 : K) else 0) * (c (i + 1) - c i) = c j - c 0 := by
    simp only [ite_mul, one_mul, zero_mul]
    rw [← sum_filter, show (range m).filter (fun i => i < j) = range j by ext i; simp; omega]
    exact sum_range_sub c j
  have : ∑ i ∈ range m, (if i < j then (1 : K) else 0) * Nclosed (knotFn U) p (m + 1) j u * (c (i + 1) - c i)
      = Nclosed (knotFn U) p (m + 1) j u * (c j - c 0) := by
    rw [← key, mul_sum]
    exact sum_congr rfl fun i _ => by ring
  rw [this]
  ring

/-- The polygon through points of the curve is not longer than the control polygon. -/
theorem curve_polygon {norm : List K → K} (hn : IsSeminorm norm) {p m : ℕ} {U : List K} (hU : Clamped p (m + 1) U)
    (hp : 1 ≤ p) (x : ℕ → ℕ → K) (M : ℕ) (t : ℕ → K) (ht : ∀ j < M, t j ≤ t (j + 1))
    (h0 : ∀ j ≤ M, knotFn U p ≤ t j ∧ t j ≤ knotFn U (m + 1)) :
    ∑ j ∈ range M, polyStep norm (fun y j => curve (knotFn U) p (m + 1) (x y) (t j)) j
      ≤ ∑ i ∈ range m, polyStep norm x i := by
  set S : ℕ → K → K := fun i u => curve (knotFn U) p (m + 1) (fun j => if i < j then 1 else 0) u with hS
  have hV := monotone_knotFn hU.mono
  have mono : ∀ i j, j < M → S i (t j) ≤ S i (t (j + 1)) := by
    intro i j hj
    refine curve_monotone hU hp (fun a b hab _ => ?_) (by rw [← hU.left p le_rfl]; exact (h0 j hj.le).1) (ht j hj)
      (by rw [← hU.right (m + 1) le_rfl (by omega)]; exact (h0 (j + 1) hj).2)
    by_cases h : i < a
    · rw [if_pos h, if_pos (by omega)]
    · rw [if_neg h]; split <;> simp
  have bound : ∀ i j, j ≤ M → 0 ≤ S i (t j) ∧ S i (t j) ≤ 1 := by
    intro i j hj
    have hN : ∀ a, 0 ≤ Nclosed (knotFn U) p (m + 1) a (t j) := fun a => by
      unfold Nclosed
      split
      · split <;> simp
      · exact N_nonneg hV p a _
    refine ⟨sum_nonneg fun a _ => mul_nonneg (by dsimp only; split <;> simp) (hN a), ?_⟩
    rw [← sum_Nclosed hU (h0 j hj).1 (h0 j hj).2]
    refine sum_le_sum fun a _ => ?_
    dsimp only
    split
    · rw [one_mul]
    · rw [zero_mul]; exact hN a
  have step : ∀ j < M, polyStep norm (fun y j => curve (knotFn U) p (m + 1) (x y) (t j)) j
      ≤ ∑ i ∈ range m, (S i (t (j + 1)) - S i (t j)) * polyStep norm x i := by
    intro j hj
    have e : ∀ y, curve (knotFn U) p (m + 1) (x y) (t (j + 1)) - curve (knotFn U) p (m + 1) (x y) (t j)
        = ∑ i ∈ range m, (S i (t (j + 1)) - S i (t j)) * (x y (i + 1) - x y i) := by
      intro y
      rw [curve_steps hU (x y) (h0 (j + 1) hj).1 (h0 (j + 1) hj).2, curve_steps hU (x y) (h0 j hj.le).1 (h0 j hj.le).2,
        add_sub_add_left_eq_sub, ← sum_sub_distrib]
      exact sum_congr rfl fun i _ => (sub_mul _ _ _).symm
    unfold polyStep
    rw [e, e, e]
    exact hn.sum_le _ _ _ _ _ fun i _ => sub_nonneg.2 (mono i j hj)
  refine (sum_le_sum fun j hj => step j (mem_range.1 hj)).trans ?_
  rw [sum_comm]
  refine sum_le_sum fun i _ => ?_
  rw [← sum_mul, sum_range_sub fun j => S i (t j)]
  have h1 := (bound i M le_rfl).2
  have h2 := (bound i 0 (Nat.zero_le _)).1
  have h3 : 0 ≤ polyStep norm x i := hn.nonneg _ _ _
  nlinarith

/-- The Euclidean norm is a seminorm. -/
theorem isSeminorm_euclid : IsSeminorm euclid where
  triangle := isNorm_euclid.triangle
  smul t a b c := by
    unfold euclid
    simp only [List.map_cons, List.map_nil, List.sum_cons, List.sum_nil, add_zero]
    rw [show (t * a) ^ 2 + ((t * b) ^ 2 + (t * c) ^ 2) = t ^ 2 * (a ^ 2 + (b ^ 2 + c ^ 2)) by ring,
      Real.sqrt_mul (sq_nonneg t), Real.sqrt_sq_eq_abs]

theorem isSeminorm_sum : IsSeminorm (fun l : List K => (l.map fun x => |x|).sum) where
  triangle := isNorm_sum.triangle
  smul t a b c := by
    simp only [List.map_cons, List.map_nil, List.sum_cons, List.sum_nil, add_zero, abs_mul]
    ring

end PySpline
