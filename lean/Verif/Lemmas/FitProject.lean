import Verif.Props.FitUnique
import Mathlib.Order.CountableDenseLinearOrder
import Mathlib.LinearAlgebra.FiniteDimensional.Basic
import Mathlib.LinearAlgebra.FiniteDimensional.Lemmas

/-!
# Auxiliary lemmas for `Props/FitProject.lean`
-/

set_option linter.unusedSectionVars false

namespace PySpline

open Spec Finset

variable {K : Type} [Field K] [LinearOrder K] [IsStrictOrderedRing K]

section
variable {m : ℕ} {F : (ℕ → K) → ℕ → K}

/-- Pythagoras for a solution of the normal equations. -/
theorem normal_projection (hF : ∀ x e s r, F (fun i => x i + s * e i) r = F x r + s * F e r) {free : (ℕ → K) → Prop}
    {x d : ℕ → K} (hx : ∀ e, free e → ∑ r ∈ range m, (F x r - d r) * F e r = 0) {z : ℕ → K}
    (hz : free fun i => z i + (-1) * x i) :
    ∑ r ∈ range m, (F z r - d r) ^ 2 = ∑ r ∈ range m, (F x r - d r) ^ 2 + ∑ r ∈ range m, (F z r - F x r) ^ 2 := by
  have h := hx _ hz
  have e : ∑ r ∈ range m, (F z r - d r) ^ 2 = ∑ r ∈ range m, (F x r - d r) ^ 2 + ∑ r ∈ range m, (F z r - F x r) ^ 2
      + 2 * ∑ r ∈ range m, (F x r - d r) * F (fun i => z i + (-1) * x i) r := by
    rw [mul_sum, ← sum_add_distrib, ← sum_add_distrib]
    refine sum_congr rfl fun r _ => ?_
    rw [hF]
    ring
  rw [e, h]
  ring

/-- Solutions of the normal equations for two data sets. -/
theorem normal_nonexpansive (hF : ∀ x e s r, F (fun i => x i + s * e i) r = F x r + s * F e r) {free : (ℕ → K) → Prop}
    {x y d d' : ℕ → K} (hx : ∀ e, free e → ∑ r ∈ range m, (F x r - d r) * F e r = 0)
    (hy : ∀ e, free e → ∑ r ∈ range m, (F y r - d' r) * F e r = 0) (hxy : free fun i => x i + (-1) * y i) :
    ∑ r ∈ range m, (F x r - F y r) ^ 2 ≤ ∑ r ∈ range m, (d r - d' r) ^ 2 := by
  have h1 := hx _ hxy
  have h2 := hy _ hxy
  have e : ∑ r ∈ range m, (d r - d' r) ^ 2 = ∑ r ∈ range m, (F x r - F y r) ^ 2
      + ∑ r ∈ range m, ((d r - d' r) - (F x r - F y r)) ^ 2
      + -2 * (∑ r ∈ range m, (F x r - d r) * F (fun i => x i + (-1) * y i) r
          - ∑ r ∈ range m, (F y r - d' r) * F (fun i => x i + (-1) * y i) r) := by
    rw [← sum_sub_distrib, mul_sum, ← sum_add_distrib, ← sum_add_distrib]
    refine sum_congr rfl fun r _ => ?_
    rw [hF]
    ring
  rw [e, h1, h2]
  have : 0 ≤ ∑ r ∈ range m, ((d r - d' r) - (F x r - F y r)) ^ 2 := sum_nonneg fun r _ => sq_nonneg _
  linarith

theorem normal_values (hF : ∀ x e s r, F (fun i => x i + s * e i) r = F x r + s * F e r) {free : (ℕ → K) → Prop}
    {x y d : ℕ → K} (hx : ∀ e, free e → ∑ r ∈ range m, (F x r - d r) * F e r = 0)
    (hy : ∀ e, free e → ∑ r ∈ range m, (F y r - d r) * F e r = 0) (hxy : free fun i => x i + (-1) * y i) :
    ∀ r < m, F x r = F y r := by
  have h := normal_nonexpansive hF hx hy hxy
  simp only [sub_self, ne_eq, OfNat.ofNat_ne_zero, not_false_eq_true, zero_pow, sum_const_zero] at h
  intro r hr
  have := (sum_eq_zero_iff_of_nonneg fun r _ => sq_nonneg _).1 (le_antisymm h (sum_nonneg fun r _ => sq_nonneg _)) r
    (mem_range.2 hr)
  exact sub_eq_zero.1 (pow_eq_zero_iff two_ne_zero |>.1 this)

/-- Normal equations are linear in the data. -/
theorem normal_comb (hF : ∀ x e s r, F (fun i => x i + s * e i) r = F x r + s * F e r) {free : (ℕ → K) → Prop}
    {x y d d' : ℕ → K} (hx : ∀ e, free e → ∑ r ∈ range m, (F x r - d r) * F e r = 0)
    (hy : ∀ e, free e → ∑ r ∈ range m, (F y r - d' r) * F e r = 0) (a b : K) {d'' : ℕ → K}
    (hd : ∀ r < m, d'' r = a * d r + b * d' r) :
    ∀ e, free e → ∑ r ∈ range m, (F (fun i => a * x i + b * y i) r - d'' r) * F e r = 0 := by
  intro e he
  have e0 : ∀ r, F (fun _ => 0) r = 0 := fun r => by
    have := hF (fun _ => 0) (fun _ => 0) 1 r
    simp only [mul_zero, add_zero] at this
    linarith
  have e1 : ∀ r, F (fun i => a * x i + b * y i) r = a * F x r + b * F y r := by
    intro r
    have h1 := hF (fun i => (0 : K) + a * x i) y b r
    have h2 := hF (fun _ => 0) x a r
    rw [h2, e0] at h1
    simpa using h1
  have : ∑ r ∈ range m, (F (fun i => a * x i + b * y i) r - d'' r) * F e r
      = a * ∑ r ∈ range m, (F x r - d r) * F e r + b * ∑ r ∈ range m, (F y r - d' r) * F e r := by
    rw [mul_sum, mul_sum, ← sum_add_distrib]
    refine sum_congr rfl fun r hr => ?_
    rw [e1, hd r (mem_range.1 hr)]
    ring
  rw [this, hx e he, hy e he]
  ring

/-- A linear family of `q` coefficients that is determined by `q` values takes all values. -/
theorem exists_of_injective {q : ℕ} (G : (Fin q → K) → Fin q → K)
    (hadd : ∀ x y, G (x + y) = G x + G y) (hsmul : ∀ (s : K) x, G (s • x) = s • G x)
    (hinj : ∀ x, G x = 0 → x = 0) (w : Fin q → K) : ∃ x, G x = w := by
  let L : (Fin q → K) →ₗ[K] (Fin q → K) := { toFun := G, map_add' := hadd, map_smul' := hsmul }
  have h1 : Function.Injective L := by
    rw [← LinearMap.ker_eq_bot, LinearMap.ker_eq_bot']
    exact hinj
  obtain ⟨x, hx⟩ := (LinearMap.injective_iff_surjective.1 h1) w
  exact ⟨x, hx⟩

end

/-- Parameters matched to some of the basis functions can be completed to parameters for all of them. -/
theorem fill_parameters {p n m : ℕ} {U t : ℕ → K} {j : ℕ → ℕ} (hU : Monotone U)
    (hreg : ∀ i, 1 ≤ i → i + 1 < n → U i < U (i + p + 1))
    (hj : ∀ r < m, 1 ≤ j r ∧ j r + 1 < n ∧ U (j r) < t r ∧ t r < U (j r + p + 1))
    (hinc : ∀ r s, r < s → s < m → j r < j s ∧ t r < t s) :
    ∀ k, k + 1 < n → ∃ s : ℕ → K, (∀ i, 1 ≤ i → i ≤ k → U i < s i ∧ s i < U (i + p + 1)) ∧
      (∀ i, 1 ≤ i → i + 1 ≤ k → s i < s (i + 1)) ∧ (∀ r < m, j r ≤ k → s (j r) = t r) ∧
      ∀ r < m, 1 ≤ k → k < j r → s k < t r
  | 0, _ => ⟨fun _ => 0, fun i h1 h2 => by omega, fun i h1 h2 => by omega,
      fun r hr h => by have := (hj r hr).1; omega, fun r _ h _ => by omega⟩
  | k + 1, hk => by
    obtain ⟨s, h1, h2, h3, h4⟩ := fill_parameters hU hreg hj hinc k (by omega)
    -- a new value for the index `k + 1`
    obtain ⟨x, x1, x2, x3, x4⟩ : ∃ x, (U (k + 1) < x ∧ x < U (k + 1 + p + 1)) ∧ (1 ≤ k → s k < x) ∧
        (∀ r < m, j r = k + 1 → x = t r) ∧ ∀ r < m, k + 1 < j r → x < t r := by
      by_cases hex : ∃ r < m, j r = k + 1
      · obtain ⟨r, hr, hjr⟩ := hex
        refine ⟨t r, ?_, fun hk1 => h4 r hr hk1 (by omega), fun r' hr' hj' => ?_, fun r' hr' hj' => ?_⟩
        · have := (hj r hr).2.2
          rw [hjr] at this
          exact this
        · rcases lt_trichotomy r r' with h | h | h
          · have := (hinc r r' h hr').1; omega
          · rw [h]
          · have := (hinc r' r h hr).1; omega
        · rcases lt_trichotomy r r' with h | h | h
          · exact (hinc r r' h hr').2
          · rw [h] at hjr; omega
          · have := (hinc r' r h hr).1; omega
      · classical
        obtain ⟨x, hlo, hhi⟩ := Order.exists_between_finsets
          (if 1 ≤ k then {U (k + 1), s k} else {U (k + 1)} : Finset K)
          (insert (U (k + 1 + p + 1)) (((range m).filter fun r => k + 1 < j r).image t)) (by
            intro a ha b hb
            have hb' : b = U (k + 1 + p + 1) ∨ ∃ r < m, k + 1 < j r ∧ t r = b := by
              rw [mem_insert, mem_image] at hb
              rcases hb with h | ⟨r, hr, h⟩
              · exact Or.inl h
              · rw [mem_filter, mem_range] at hr
                exact Or.inr ⟨r, hr.1, hr.2, h⟩
            have ha' : a = U (k + 1) ∨ 1 ≤ k ∧ a = s k := by
              split at ha
              · rename_i hk1
                rw [mem_insert, mem_singleton] at ha
                exact ha.imp id fun h => ⟨hk1, h⟩
              · exact Or.inl (mem_singleton.1 ha)
            rcases ha' with rfl | ⟨hk1, rfl⟩ <;> rcases hb' with rfl | ⟨r, hr, hjr, rfl⟩
            · exact hreg _ (by omega) hk
            · exact (hU (by omega)).trans_lt (hj r hr).2.2.1
            · exact (h1 k hk1 le_rfl).2.trans_le (hU (by omega))
            · exact h4 r hr hk1 (by omega))
        refine ⟨x, ⟨hlo _ ?_, hhi _ (mem_insert_self _ _)⟩, fun hk1 => hlo _ ?_,
          fun r hr hjr => absurd ⟨r, hr, hjr⟩ hex, fun r hr hjr => hhi _ ?_⟩
        · split <;> simp
        · rw [if_pos hk1]; simp
        · exact mem_insert_of_mem (mem_image.2 ⟨r, mem_filter.2 ⟨mem_range.2 hr, hjr⟩, rfl⟩)
    refine ⟨fun i => if i = k + 1 then x else s i, fun i i1 i2 => ?_, fun i i1 i2 => ?_, fun r hr hjr => ?_,
      fun r hr _ hjr => ?_⟩
    · dsimp only
      split
      · rename_i h; rw [h]; exact x1
      · exact h1 i i1 (by omega)
    · dsimp only
      rw [if_neg (by omega)]
      split
      · rename_i h
        obtain rfl : i = k := by omega
        exact x2 i1
      · exact h2 i i1 (by omega)
    · dsimp only
      split
      · rename_i h; exact x3 r hr h
      · exact h3 r hr (by omega)
    · dsimp only
      rw [if_pos rfl]
      exact x4 r hr hjr

/-- The coefficients of the inner control points, ends zero. -/
def innerCoef (n : ℕ) (x : Fin (n - 2) → K) (i : ℕ) : K :=
  if h : 1 ≤ i ∧ i + 1 < n then x ⟨i - 1, by omega⟩ else 0

/-- Interpolation at interlacing parameters, ends prescribed. -/
theorem exists_interpolant {p n : ℕ} {U : List K} (hU : Clamped p n U) (hp : 1 ≤ p) {s : ℕ → K}
    (hs : ∀ i, 1 ≤ i → i + 1 < n → knotFn U i < s i ∧ s i < knotFn U (i + p + 1))
    (hinc : ∀ i, 1 ≤ i → i + 2 < n → s i < s (i + 1)) (base w : ℕ → K) :
    ∃ z : ℕ → K, z 0 = base 0 ∧ z (n - 1) = base (n - 1) ∧
      ∀ i, 1 ≤ i → i + 1 < n → curve (knotFn U) p n z (s i) = w i := by
  have hsz := hU.size
  obtain ⟨x, hx⟩ := exists_of_injective (q := n - 2)
    (fun (x : Fin (n - 2) → K) (l : Fin (n - 2)) => curve (knotFn U) p n (innerCoef n x) (s (l + 1)))
    (fun x y => by
      funext l
      simp only [Pi.add_apply]
      unfold curve
      rw [← sum_add_distrib]
      refine sum_congr rfl fun i _ => ?_
      unfold innerCoef
      split
      · rw [Pi.add_apply]; ring
      · ring)
    (fun a x => by
      funext l
      simp only [Pi.smul_apply, smul_eq_mul]
      unfold curve
      rw [mul_sum]
      refine sum_congr rfl fun i _ => ?_
      unfold innerCoef
      split
      · rw [Pi.smul_apply, smul_eq_mul]; ring
      · ring)
    (fun x hx => by
      have := eq_zero_of_determined (m := n - 2) (t := fun l => s (l + 1)) (e := innerCoef n x) hU hp
        ⟨fun i => i - 1, fun i i1 i2 => ⟨by dsimp only; omega, by
            dsimp only; rw [show i - 1 + 1 = i by omega]; exact hs i i1 i2⟩, fun i i1 i2 => by
            dsimp only
            rw [show i - 1 + 1 = i by omega, show i + 1 - 1 + 1 = i + 1 by omega]; exact hinc i i1 i2⟩
        (by unfold innerCoef; rw [dif_neg (by omega)]) (by unfold innerCoef; rw [dif_neg (by omega)])
        (fun r hr => congrFun hx ⟨r, hr⟩)
      funext l
      have h := this (l + 1) (by omega)
      unfold innerCoef at h
      rw [dif_pos (by omega)] at h
      exact h)
    fun l => w (l + 1) - curve (knotFn U) p n base (s (l + 1))
  refine ⟨fun i => base i + 1 * innerCoef n x i, ?_, ?_, fun i i1 i2 => ?_⟩
  · dsimp only; unfold innerCoef; rw [dif_neg (by omega)]; ring
  · dsimp only; unfold innerCoef; rw [dif_neg (by omega)]; ring
  · have h := congrFun hx ⟨i - 1, by omega⟩
    dsimp only at h
    rw [show i - 1 + 1 = i by omega] at h
    rw [curve_add_mul, h]
    ring

/-- Interpolation on an interlacing grid, boundary prescribed. -/
theorem exists_interpolant_surface {s : Surface K} (hs : ClampedSurface s) {a b : ℕ → K}
    (ha : ∀ i, 1 ≤ i → i + 1 < s.numU → knotFn s.kvU i < a i ∧ a i < knotFn s.kvU (i + s.degreeU + 1))
    (ha' : ∀ i, 1 ≤ i → i + 2 < s.numU → a i < a (i + 1))
    (hb : ∀ j, 1 ≤ j → j + 1 < s.numV → knotFn s.kvV j < b j ∧ b j < knotFn s.kvV (j + s.degreeV + 1))
    (hb' : ∀ j, 1 ≤ j → j + 2 < s.numV → b j < b (j + 1)) (base : ℕ → K) (w : ℕ → ℕ → K) :
    ∃ z : ℕ → K, (∀ i < s.numU, ∀ j < s.numV, OnBoundary s i j → z (i * s.numV + j) = base (i * s.numV + j)) ∧
      ∀ i j, 1 ≤ i → i + 1 < s.numU → 1 ≤ j → j + 1 < s.numV →
        surface (knotFn s.kvU) s.degreeU s.numU (knotFn s.kvV) s.degreeV s.numV z (a i) (b j) = w i j := by
  have su := hs.cu.size
  have sv := hs.cv.size
  have hrow := fun k => exists_interpolant hs.cv hs.dv hb hb'
    (fun j => curve (knotFn s.kvU) s.degreeU s.numU (fun i => base (i * s.numV + j)) (a k)) (w k)
  choose g g0 g1 g2 using hrow
  have hcol := fun j => exists_interpolant hs.cu hs.du ha ha' (fun i => base (i * s.numV + j)) fun k => g k j
  choose c c0 c1 c2 using hcol
  have hz : ∀ i, ∀ j < s.numV, (fun x : ℕ => if x % s.numV = 0 ∨ x % s.numV = s.numV - 1 then base x
      else c (x % s.numV) (x / s.numV)) (i * s.numV + j)
      = if j = 0 ∨ j = s.numV - 1 then base (i * s.numV + j) else c j i := by
    intro i j hj
    dsimp only
    have e1 : (i * s.numV + j) % s.numV = j := by
      rw [Nat.add_comm, Nat.add_mul_mod_self_right, Nat.mod_eq_of_lt hj]
    have e2 : (i * s.numV + j) / s.numV = i := by
      rw [Nat.add_comm, Nat.add_mul_div_right _ _ (by omega), Nat.div_eq_of_lt hj]; omega
    rw [e1, e2]
  refine ⟨fun x => if x % s.numV = 0 ∨ x % s.numV = s.numV - 1 then base x else c (x % s.numV) (x / s.numV), ?_, ?_⟩
  · intro i hi j hj h
    rw [hz i j hj]
    split
    · rfl
    · rename_i hne
      rcases h with rfl | h | h | h
      · exact c0 j
      · obtain rfl : i = s.numU - 1 := by omega
        exact c1 j
      · omega
      · omega
  · intro i j i1 i2 j1 j2
    rw [← g2 i j j1 j2]
    unfold surface
    rw [sum_comm]
    unfold curve
    refine sum_congr rfl fun l hl => ?_
    have hl := mem_range.1 hl
    rw [← sum_mul]
    congr 1
    by_cases hlb : l = 0 ∨ l = s.numV - 1
    · have : g i l = curve (knotFn s.kvU) s.degreeU s.numU (fun i => base (i * s.numV + l)) (a i) := by
        rcases hlb with rfl | rfl
        · exact g0 i
        · exact g1 i
      rw [this]
      unfold curve
      refine sum_congr rfl fun q _ => ?_
      rw [hz q l hl, if_pos hlb]
    · rw [← c2 l i i1 i2]
      unfold curve
      refine sum_congr rfl fun q _ => ?_
      rw [hz q l hl, if_neg hlb]

end PySpline
