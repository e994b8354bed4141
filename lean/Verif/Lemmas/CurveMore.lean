import Verif.Lemmas.Zeros
import Verif.Props.Variation

/-!
# Coefficients are determined by the spline; Lipschitz bound
-/

set_option linter.unusedSectionVars false

namespace PySpline

open Spec Finset

variable {K : Type} [Field K] [LinearOrder K] [IsStrictOrderedRing K]
variable {p n : ℕ} {U : List K}

/-- The mean of `p + 2` successive knots. -/
def knotMean (V : ℕ → K) (p j : ℕ) : K := (∑ i ∈ range (p + 2), V (j + i)) / (p + 2 : ℕ)

theorem knotMean_mem {V : ℕ → K} (hV : Monotone V) {j : ℕ} (h : V j < V (j + p + 1)) :
    V j < knotMean V p j ∧ knotMean V p j < V (j + p + 1) := by
  unfold knotMean
  have hpos : (0 : K) < ((p + 2 : ℕ) : K) := by exact_mod_cast Nat.succ_pos _
  have c : ∀ x : K, ∑ _i ∈ range (p + 2), x = x * ((p + 2 : ℕ) : K) := fun x => by
    rw [sum_const, card_range, nsmul_eq_mul, mul_comm]
  constructor
  · rw [lt_div_iff₀ hpos, ← c]
    exact sum_lt_sum (fun i _ => hV (by omega)) ⟨p + 1, mem_range.2 (by omega), by rw [← Nat.add_assoc]; exact h⟩
  · rw [div_lt_iff₀ hpos, ← c]
    exact sum_lt_sum (fun i hi => hV (by have := mem_range.1 hi; omega)) ⟨0, mem_range.2 (by omega), h⟩

theorem knotMean_lt {V : ℕ → K} (hV : Monotone V) {j : ℕ} (h : V j < V (j + p + 1)) :
    knotMean V p j < knotMean V p (j + 1) := by
  unfold knotMean
  have hpos : (0 : K) < ((p + 2 : ℕ) : K) := by exact_mod_cast Nat.succ_pos _
  refine div_lt_div_of_pos_right (sum_lt_sum (fun i _ => hV (by omega)) ?_) hpos
  by_contra hc
  push Not at hc
  have e : ∀ i, i ≤ p + 1 → V (j + i) = V j := by
    intro i
    induction i with
    | zero => exact fun _ => rfl
    | succ i ih =>
      intro hi
      rw [← ih (by omega)]
      refine le_antisymm ?_ (hV (by omega))
      have := hc i (mem_range.2 (by omega))
      rwa [show j + 1 + i = j + (i + 1) by omega] at this
  have := e (p + 1) le_rfl
  rw [show j + (p + 1) = j + p + 1 by omega] at this
  exact h.ne this.symm

/-- The coefficients of a spline are determined by its values inside the domain. -/
theorem coeff_eq_of_curve_eq (hU : Clamped p n U) (hp : 1 ≤ p) (hmult : ∀ j < n, knotFn U j < knotFn U (j + p + 1))
    {c d : ℕ → K} (h : ∀ u, knotFn U p < u → u < knotFn U n → curve (knotFn U) p n c u = curve (knotFn U) p n d u) :
    ∀ i < n, c i = d i := by
  have hV := monotone_knotFn hU.mono
  have key := schoenberg_whitney hU hp (fun i => if i < n then c i + (-1) * d i else 0) (A := 0) (B := n) le_rfl
    (fun i hi => if_neg (by omega)) (knotMean (knotFn U) p)
    (fun j _ hj => knotMean_lt hV (hmult j (by omega)))
    (fun j _ hj => knotMean_mem hV (hmult j hj)) (fun j _ hj => by
      obtain ⟨h1, h2⟩ := knotMean_mem hV (hmult j hj)
      have e : curve (knotFn U) p n (fun i => if i < n then c i + (-1) * d i else 0) (knotMean (knotFn U) p j)
          = curve (knotFn U) p n c (knotMean (knotFn U) p j) + (-1) * curve (knotFn U) p n d (knotMean (knotFn U) p j) := by
        unfold curve
        rw [mul_sum, ← sum_add_distrib]
        refine sum_congr rfl fun i hi => ?_
        beta_reduce
        rw [if_pos (mem_range.1 hi)]
        ring
      rw [e, h _ (lt_of_le_of_lt ?_ h1) (lt_of_lt_of_le h2 ?_)]
      · ring
      · rw [hU.left p le_rfl]
        exact hV (Nat.zero_le j)
      · rw [hU.right n le_rfl (by omega)]
        exact hV (by omega))
  intro i hi
  have := key i
  rw [if_pos hi] at this
  linear_combination this

/-- In a sorted list no element of which occurs more than `p + 1` times, elements at distance `p + 1` differ. -/
theorem knotFn_lt_of_count {l : List K} (hl : l.Pairwise (· ≤ ·)) (hc : ∀ v, l.count v ≤ p + 1) {j : ℕ}
    (hj : j + p + 1 < l.length) : knotFn l j < knotFn l (j + p + 1) := by
  have hV := monotone_knotFn hl
  refine lt_of_le_of_ne (hV (by omega)) fun heq => ?_
  have hrep : (l.drop j).take (p + 2) = List.replicate (p + 2) (knotFn l j) := by
    refine List.eq_replicate_iff.2 ⟨by simp; omega, fun b hb => ?_⟩
    obtain ⟨i, hi, rfl⟩ := List.getElem_of_mem hb
    have hi' : i < p + 2 := by simp at hi; omega
    rw [List.getElem_take, List.getElem_drop]
    have e : l[j + i]'(by omega) = knotFn l (j + i) := by
      rw [knotFn_eq (by omega)]
    rw [e]
    exact le_antisymm (heq ▸ hV (by omega)) (hV (by omega))
  have h1 : (List.replicate (p + 2) (knotFn l j)).Sublist l := by
    rw [← hrep]
    exact (List.take_sublist _ _).trans (List.drop_sublist _ _)
  have h2 := h1.count_le (knotFn l j)
  rw [List.count_replicate_self] at h2
  have := hc (knotFn l j)
  omega

theorem knotFn_mem {l : List K} {i : ℕ} (hi : i < l.length) : knotFn l i ∈ l := by
  rw [knotFn_eq hi]
  exact List.getElem_mem hi

/-- The ends of a sorted list bound its elements. -/
theorem knotFn_bounds {l : List K} (hl : l.Pairwise (· ≤ ·)) {m : ℕ} (hm : l.length = m + 1) {x : K} (hx : x ∈ l) :
    knotFn l 0 ≤ x ∧ x ≤ knotFn l m := by
  have hV := monotone_knotFn hl
  obtain ⟨i, hi, rfl⟩ := List.getElem_of_mem hx
  rw [← knotFn_eq hi]
  exact ⟨hV (Nat.zero_le i), hV (by omega)⟩

/-- The Greville abscissae. -/
def greville (V : ℕ → K) (p i : ℕ) : K := (∑ j ∈ range p, V (i + 1 + j)) / p

theorem curve_greville (hU : Clamped p n U) (hp : 1 ≤ p) {u : K} (h1 : knotFn U p ≤ u) (h2 : u ≤ knotFn U n) :
    curve (knotFn U) p n (greville (knotFn U) p) u = u := by
  have h := curve_power hU hp h1 h2
  rw [pow_one] at h
  conv_rhs => rw [← h]
  unfold curve
  refine sum_congr rfl fun i _ => ?_
  congr 1
  unfold powerCoeff greville
  rw [Nat.choose_one_right]
  simp [Multiset.esymm, Multiset.powersetCard_one, Finset.sum]

theorem greville_succ_sub (V : ℕ → K) (hp : 1 ≤ p) (i : ℕ) :
    greville V p (i + 1) - greville V p i = (V (i + p + 1) - V (i + 1)) / p := by
  unfold greville
  rw [← sub_div]
  congr 1
  obtain ⟨q, rfl⟩ : ∃ q, p = q + 1 := ⟨p - 1, by omega⟩
  rw [sum_range_succ, sum_range_succ' (fun j => V (i + 1 + j))]
  rw [show i + 1 + 1 + q = i + (q + 1) + 1 by omega, sum_congr rfl fun j _ => by
    rw [show i + 1 + 1 + j = i + 1 + (j + 1) by omega]]
  ring_nf

/-- A spline is Lipschitz; the constant is the bound of the coefficients of its derivative. -/
theorem curve_lipschitz (hU : Clamped p n U) (hp : 1 ≤ p) {c : ℕ → K} {L : K}
    (hc : ∀ i, i + 1 < n → |c (i + 1) - c i| * p ≤ L * (knotFn U (i + p + 1) - knotFn U (i + 1))) {s t : K}
    (h0 : knotFn U p ≤ s) (hst : s ≤ t) (h1 : t ≤ knotFn U n) :
    |curve (knotFn U) p n c t - curve (knotFn U) p n c s| ≤ L * (t - s) := by
  have hp0 : (0 : K) < p := by exact_mod_cast hp
  have step : ∀ i, i + 1 < n → |c (i + 1) - c i| ≤ L * (greville (knotFn U) p (i + 1) - greville (knotFn U) p i) := by
    intro i hi
    rw [greville_succ_sub _ hp, mul_div_assoc', le_div_iff₀ hp0]
    exact hc i hi
  have gen : ∀ σ : K, (σ = 1 ∨ σ = -1) →
      σ * (curve (knotFn U) p n c t - curve (knotFn U) p n c s) ≤ L * (t - s) := by
    intro σ hσ
    have hmono : ∀ i j, i ≤ j → j < n → L * greville (knotFn U) p i + (-σ) * c i
        ≤ L * greville (knotFn U) p j + (-σ) * c j := by
      intro i j hij
      induction j, hij using Nat.le_induction with
      | base => intro _; exact le_rfl
      | succ j _ ih =>
        intro hj
        refine (ih (by omega)).trans ?_
        have := step j hj
        rw [abs_le] at this
        rcases hσ with rfl | rfl <;> linarith [this.1, this.2]
    have key := curve_monotone hU hp hmono (by rw [← hU.left p le_rfl]; exact h0) hst
      (by rw [← hU.right n le_rfl (by omega)]; exact h1)
    have e : ∀ u, knotFn U p ≤ u → u ≤ knotFn U n →
        curve (knotFn U) p n (fun i => L * greville (knotFn U) p i + (-σ) * c i) u
          = L * u + (-σ) * curve (knotFn U) p n c u := by
      intro u h2 h3
      have g := curve_greville hU hp h2 h3
      unfold curve at g ⊢
      conv_rhs => enter [1, 2]; rw [← g]
      rw [mul_sum, mul_sum, ← sum_add_distrib]
      exact sum_congr rfl fun i _ => by ring
    rw [e s h0 (hst.trans h1), e t (h0.trans hst) h1] at key
    linarith
  rw [abs_le]
  constructor
  · have := gen (-1) (Or.inr rfl)
    linarith
  · have := gen 1 (Or.inl rfl)
    linarith

end PySpline
