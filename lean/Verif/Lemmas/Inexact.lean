import Verif.Props.FitProject
import Mathlib.Algebra.Order.BigOperators.Ring.Finset
import Mathlib.LinearAlgebra.Basis.VectorSpace
import Mathlib.LinearAlgebra.StdBasis

/-!
# Auxiliary lemmas for `Props/Inexact.lean`
-/

set_option linter.unusedSectionVars false

namespace PySpline

open Spec Finset

variable {K : Type} [Field K] [LinearOrder K] [IsStrictOrderedRing K]

/-- If the values of a linear family determine the coefficients, they bound them. -/
theorem exists_stability {n m : ℕ} {F : (ℕ → K) → ℕ → K}
    (hF : ∀ x e s r, F (fun i => x i + s * e i) r = F x r + s * F e r)
    (hloc : ∀ x y, (∀ i < n, x i = y i) → ∀ r, F x r = F y r) (zero : ℕ → Prop)
    (hinj : ∀ e : ℕ → K, (∀ i < n, zero i → e i = 0) → (∀ r < m, F e r = 0) → ∀ i < n, e i = 0) :
    ∃ κ : K, 0 ≤ κ ∧ ∀ e : ℕ → K, (∀ i < n, zero i → e i = 0) → ∀ i < n, e i ^ 2 ≤ κ * ∑ r ∈ range m, F e r ^ 2 := by
  classical
  let ext : (Fin n → K) → ℕ → K := fun e i => if h : i < n then e ⟨i, h⟩ else 0
  have e0 : ∀ r, F (fun _ => 0) r = 0 := fun r => by
    have := hF (fun _ => 0) (fun _ => 0) 1 r
    simp only [mul_zero, add_zero] at this
    linarith
  have hadd : ∀ x y : ℕ → K, ∀ r, F (fun i => x i + y i) r = F x r + F y r := fun x y r => by
    have := hF x y 1 r
    simpa using this
  have hsmul : ∀ (a : K) (x : ℕ → K) r, F (fun i => a * x i) r = a * F x r := fun a x r => by
    have := hF (fun _ => 0) x a r
    rw [e0] at this
    simpa using this
  let L : (Fin n → K) →ₗ[K] (Fin m → K) × (Fin n → K) :=
    { toFun := fun e => (fun r => F (ext e) r, fun i => if zero i then e i else 0)
      map_add' := fun x y => by
        refine Prod.ext (funext fun r => ?_) (funext fun i => ?_)
        · show F (ext (x + y)) r = F (ext x) r + F (ext y) r
          rw [← hadd]
          congr 1
          funext i
          simp only [ext]
          split <;> simp
        · show (if zero i then (x + y) i else 0) = (if zero i then x i else 0) + (if zero i then y i else 0)
          split <;> simp
      map_smul' := fun a x => by
        refine Prod.ext (funext fun r => ?_) (funext fun i => ?_)
        · show F (ext (a • x)) r = a * F (ext x) r
          rw [← hsmul]
          congr 1
          funext i
          simp only [ext]
          split <;> simp
        · show (if zero i then (a • x) i else 0) = a * (if zero i then x i else 0)
          split <;> simp }
  have hL : LinearMap.ker L = ⊥ := by
    rw [LinearMap.ker_eq_bot']
    intro e he
    have h1 : ∀ r : Fin m, F (ext e) r = 0 := fun r => congrFun (congrArg Prod.fst he) r
    have h2 : ∀ i : Fin n, (if zero i then e i else 0) = 0 := fun i => congrFun (congrArg Prod.snd he) i
    funext i
    have := hinj (ext e) (fun j hj hz => by
      have := h2 ⟨j, hj⟩
      rw [if_pos hz] at this
      simpa [ext, hj] using this) (fun r hr => h1 ⟨r, hr⟩) i i.2
    simpa [ext] using this
  obtain ⟨g, hg⟩ := LinearMap.exists_leftInverse_of_injective L hL
  let B : Fin n → Fin m → K := fun i r => g (Pi.single r 1, 0) i
  refine ⟨∑ i, ∑ r, B i r ^ 2, sum_nonneg fun i _ => sum_nonneg fun r _ => sq_nonneg _, fun e he i hi => ?_⟩
  have hx : ∀ j < n, ext (fun i : Fin n => e i) j = e j := fun j hj => by simp [ext, hj]
  have hLe : L (fun i : Fin n => e i) = (fun r : Fin m => F e r, 0) := by
    refine Prod.ext (funext fun r => hloc _ _ hx r) (funext fun i => ?_)
    show (if zero i then e i else 0) = 0
    split
    · exact he i i.2 ‹_›
    · rfl
  have hei : e i = ∑ r : Fin m, B ⟨i, hi⟩ r * F e r := by
    have h1 : g (L fun i : Fin n => e i) = fun i : Fin n => e i := by
      rw [← LinearMap.comp_apply, hg]
      rfl
    have h2 : ((fun r : Fin m => F e r, 0) : (Fin m → K) × (Fin n → K))
        = ∑ r : Fin m, F e r • ((Pi.single r 1, 0) : (Fin m → K) × (Fin n → K)) := by
      refine Prod.ext ?_ ?_
      · rw [Prod.fst_sum]
        funext q
        simp [Pi.single_apply]
      · rw [Prod.snd_sum]
        simp
    have h3 := congrFun h1 ⟨i, hi⟩
    rw [hLe, h2, map_sum, Finset.sum_apply] at h3
    rw [← h3]
    refine sum_congr rfl fun r _ => ?_
    rw [map_smul, Pi.smul_apply, smul_eq_mul, mul_comm]
  rw [hei, ← Fin.sum_univ_eq_sum_range (fun r => F e r ^ 2) m]
  refine (Finset.sum_mul_sq_le_sq_mul_sq _ _ _).trans ?_
  refine mul_le_mul_of_nonneg_right ?_ (sum_nonneg fun r _ => sq_nonneg _)
  exact single_le_sum (f := fun i => ∑ r, B i r ^ 2) (fun i _ => sum_nonneg fun r _ => sq_nonneg _) (mem_univ _)

/-- The distance to the solution of the normal equations, from the residual of the normal equations. -/
theorem normal_gradient {n m : ℕ} {F : (ℕ → K) → ℕ → K} (hn : 0 < n)
    (hF : ∀ x e s r, F (fun i => x i + s * e i) r = F x r + s * F e r) {free : (ℕ → K) → Prop} {κ G : K}
    (hκ0 : 0 ≤ κ) (hκ : ∀ e, free e → ∀ i < n, e i ^ 2 ≤ κ * ∑ r ∈ range m, F e r ^ 2)
    {x z d : ℕ → K} (hx : ∀ e, free e → ∑ r ∈ range m, (F x r - d r) * F e r = 0)
    (hz : free fun i => z i + (-1) * x i) (hG : 0 ≤ G)
    (hg : ∀ e, free e → ∀ B, (∀ i < n, |e i| ≤ B) → ∑ r ∈ range m, (F z r - d r) * F e r ≤ G * B) :
    (∀ i < n, |z i - x i| ≤ κ * G) ∧ ∑ r ∈ range m, (F z r - F x r) ^ 2 ≤ κ * G ^ 2 := by
  have hD : ∑ r ∈ range m, (F z r - d r) * F (fun i => z i + (-1) * x i) r = ∑ r ∈ range m, (F z r - F x r) ^ 2 := by
    rw [← sub_zero (∑ r ∈ range m, (F z r - d r) * F (fun i => z i + (-1) * x i) r), ← hx _ hz, ← sum_sub_distrib]
    refine sum_congr rfl fun r _ => ?_
    rw [hF]
    ring
  have hDe : ∑ r ∈ range m, F (fun i => z i + (-1) * x i) r ^ 2 = ∑ r ∈ range m, (F z r - F x r) ^ 2 :=
    sum_congr rfl fun r _ => by rw [hF]; ring
  obtain ⟨q, hq, hmax⟩ := exists_max_image (range n) (fun i => |z i + (-1) * x i|) ⟨0, mem_range.2 hn⟩
  set M := |z q + (-1) * x q| with hM
  have hM0 : 0 ≤ M := abs_nonneg _
  have h1 := hg _ hz M fun i hi => hmax i (mem_range.2 hi)
  rw [hD] at h1
  have h2 := hκ _ hz q (mem_range.1 hq)
  rw [hDe, ← sq_abs, ← hM] at h2
  have h3 : M ^ 2 ≤ κ * (G * M) := h2.trans (mul_le_mul_of_nonneg_left h1 hκ0)
  have h4 : M ≤ κ * G := by
    rcases hM0.lt_or_eq with h | h
    · by_contra hlt
      have := mul_lt_mul_of_pos_right (not_le.1 hlt) h
      nlinarith
    · rw [← h]; positivity
  refine ⟨fun i hi => ?_, ?_⟩
  · have := hmax i (mem_range.2 hi)
    rw [show z i + (-1) * x i = z i - x i by ring] at this
    exact this.trans h4
  · calc _ ≤ G * M := h1
      _ ≤ G * (κ * G) := mul_le_mul_of_nonneg_left h4 hG
      _ = κ * G ^ 2 := by ring

theorem surface_local {p n q l : ℕ} {U V x y : ℕ → K} (h : ∀ i < n * l, x i = y i) (u v : K) :
    surface U p n V q l x u v = surface U p n V q l y u v := by
  unfold surface
  refine sum_congr rfl fun i hi => sum_congr rfl fun j hj => ?_
  have h1 : i * l + j < (i + 1) * l := by rw [add_mul, one_mul]; have := mem_range.1 hj; omega
  rw [h _ (lt_of_lt_of_le h1 (Nat.mul_le_mul_right l (mem_range.1 hi)))]

end PySpline
