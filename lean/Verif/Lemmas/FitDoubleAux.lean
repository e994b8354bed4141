import Verif.Lemmas.RoundedFit
import Verif.Props.Double

/-!
# Auxiliary lemmas for `Props/FitDouble.lean`
-/

set_option linter.unusedSectionVars false

namespace PySpline

open Spec Finset

section
variable {K : Type} [Field K] [LinearOrder K] [IsStrictOrderedRing K]

theorem SumFl_id (l : List K) (s : K) : SumFl id l s ↔ s = l.sum := by
  have key : ∀ {l : List K} {s : K}, SumFl id l s → s = l.sum := by
    intro l s h
    induction h with
    | nil => rfl
    | one a => simp
    | add _ _ _ _ i1 i2 => rw [List.sum_append, i1, i2]; rfl
    | perm hp _ i => rw [← hp.sum_eq]; exact i
  constructor
  · exact key
  · rintro rfl
    obtain ⟨s, hs⟩ := SumFl.exists id l
    rwa [← key hs]

/-- The values are near the closed Cox–de Boor functions. -/
theorem oneBasisFunctionFl_closed {ρ : K} {fl : K → K} (hf : Accurate ρ fl) {p n : ℕ} {U : List K}
    (hU : Clamped p n U) (hfirst : knotFn U p < knotFn U (p + 1)) {i : ℕ} (hi : i < n) (u : K) :
    ∃ x', oneBasisFunctionFl fl p U i u = .ok x' ∧ Near ρ (5 * p) x' (Nclosed (knotFn U) p n i u) := by
  have hlen := hU.len
  have hV := monotone_knotFn hU.mono
  obtain ⟨x', e, h⟩ := oneBasisFunctionFl_near hf hV u (p := p) (i := i) (by omega)
  have e' := oneBasisFunction_spec hV u (p := p) (i := i) (by omega)
  rw [one_basis_function_cox_de_boor hU hfirst hi] at e'
  have e'' := Except.ok.inj e'
  rw [← e''] at h
  exact ⟨x', e, h⟩

end

theorem pow_error_large (k : ℕ) (hk : k ≤ 10 ^ 10) :
    1 - 1 / (8 * 10 ^ 5) ≤ (1 - 1 / 2 ^ 53 : ℚ) ^ k := by
  have h := one_add_mul_le_pow (a := (-(1 / 2 ^ 53) : ℚ)) (by norm_num) k
  have hk' : (k : ℚ) ≤ 10 ^ 10 := by exact_mod_cast hk
  rw [← sub_eq_add_neg] at h
  refine le_trans ?_ h
  have : (k : ℚ) * (1 / 2 ^ 53) ≤ 10 ^ 10 * (1 / 2 ^ 53) :=
    mul_le_mul_of_nonneg_right hk' (by norm_num)
  have h2 : (10 ^ 10 * (1 / 2 ^ 53) : ℚ) ≤ 1 / (8 * 10 ^ 5) := by norm_num
  linarith

theorem fl64_abs_le (x : ℚ) : (1 - 1 / 2 ^ 53) * |fl64 x| ≤ |x| := by
  rcases le_total 0 x with h | h
  · rw [abs_of_nonneg h, abs_of_nonneg (fl64_nonneg h)]
    exact accurate_fl64.upper x h
  · have := accurate_fl64.upper (-x) (by linarith)
    rw [rounding_fl64.neg] at this
    rw [abs_of_nonpos h, ← abs_neg, abs_of_nonneg]
    · exact this
    · have := fl64_nonneg (x := -x) (by linarith)
      rwa [rounding_fl64.neg] at this

theorem abs_le_fl64 (x : ℚ) : (1 - 1 / 2 ^ 53) * |x| ≤ |fl64 x| := by
  rcases le_total 0 x with h | h
  · rw [abs_of_nonneg h]
    exact (accurate_fl64.lower x h).trans (le_abs_self _)
  · have := accurate_fl64.lower (-x) (by linarith)
    rw [rounding_fl64.neg] at this
    rw [abs_of_nonpos h]
    exact this.trans (neg_le_abs _)

/-- With at most `10 ^ 10` roundings the test passes. -/
theorem isclose_of_near {k m : ℕ} {total : ℚ} (hk : k ≤ 10 ^ 10)
    (h : Near (1 - 1 / 2 ^ 53) k total (m : ℚ)) :
    iscloseFl fl64 total (m : ℚ) rtolDefault atolDefault = true := by
  unfold iscloseFl atolDefault rtolDefault
  rw [decide_eq_true_iff]
  have hm : (0 : ℚ) ≤ m := Nat.cast_nonneg m
  have hp := pow_error_large k hk
  have h1 : (m : ℚ) * (1 - 1 / (8 * 10 ^ 5)) ≤ total :=
    (mul_le_mul_of_nonneg_left hp hm).trans h.2.1
  have h2 : total * (1 - 1 / (8 * 10 ^ 5)) ≤ m := by
    refine le_trans (mul_le_mul_of_nonneg_left hp ?_) h.2.2
    exact h.nonneg accurate_fl64.pos
  have h3 : |total - m| ≤ 2 / 10 ^ 6 * m := by rw [abs_le]; constructor <;> linarith
  have h4 := fl64_abs_le (total - m)
  have h5 : |fl64 (total - m)| ≤ 3 / 10 ^ 6 * m := by linarith [abs_nonneg (fl64 (total - m))]
  refine h5.trans ?_
  rw [abs_of_nonneg hm]
  have a1 := accurate_fl64.lower (1 / 10 ^ 5) (by norm_num)
  have a2 : (1 - 1 / 2 ^ 53) * (1 / 10 ^ 5) * (m : ℚ) ≤ fl64 (1 / 10 ^ 5) * m :=
    mul_le_mul_of_nonneg_right a1 hm
  have b0 : 0 ≤ fl64 (1 / 10 ^ 5) * (m : ℚ) := le_trans (mul_nonneg (by norm_num) hm) a2
  have a3 := accurate_fl64.lower _ b0
  have a4 := fl64_nonneg (x := 1 / 10 ^ 8) (by norm_num)
  have a5 := accurate_fl64.lower (fl64 (1 / 10 ^ 8) + fl64 (fl64 (1 / 10 ^ 5) * m))
    (add_nonneg a4 (fl64_nonneg b0))
  linarith

/-- With at most `10 ^ 8` roundings and a missing row for every `99000`, the test fails. -/
theorem not_isclose_of_near {k m c : ℕ} {total : ℚ} (hk : k ≤ 10 ^ 8) (hc : c ≤ m) (h0 : 1 ≤ c)
    (hm : m ≤ 99000 * c) (h : Near (1 - 1 / 2 ^ 53) k total (m - c : ℚ)) :
    iscloseFl fl64 total (m : ℚ) rtolDefault atolDefault = false := by
  unfold iscloseFl atolDefault rtolDefault
  rw [decide_eq_false_iff_not, not_le]
  have hm0 : (0 : ℚ) ≤ m := Nat.cast_nonneg m
  have hc1 : (1 : ℚ) ≤ c := by exact_mod_cast h0
  have hcm : (c : ℚ) ≤ m := by exact_mod_cast hc
  have hm' : (m : ℚ) ≤ 99000 * c := by exact_mod_cast hm
  have ht := h.nonneg accurate_fl64.pos
  have hp : 1 - 1 / (8 * 10 ^ 7) ≤ (1 - 1 / 2 ^ 53 : ℚ) ^ k := by
    have h := one_add_mul_le_pow (a := (-(1 / 2 ^ 53) : ℚ)) (by norm_num) k
    have hk' : (k : ℚ) ≤ 10 ^ 8 := by exact_mod_cast hk
    rw [← sub_eq_add_neg] at h
    refine le_trans ?_ h
    have : (k : ℚ) * (1 / 2 ^ 53) ≤ 10 ^ 8 * (1 / 2 ^ 53) :=
      mul_le_mul_of_nonneg_right hk' (by norm_num)
    have h2 : (10 ^ 8 * (1 / 2 ^ 53) : ℚ) ≤ 1 / (8 * 10 ^ 7) := by norm_num
    linarith
  have h2 : total * (1 - 1 / (8 * 10 ^ 7)) ≤ m - c :=
    (mul_le_mul_of_nonneg_left hp ht).trans h.2.2
  have h3 : 998 / 1000 * (c : ℚ) ≤ |total - m| := by
    rw [abs_sub_comm]
    refine le_trans ?_ (le_abs_self _)
    linarith
  have h4 := abs_le_fl64 (total - m)
  rw [abs_of_nonneg hm0]
  have a1 := accurate_fl64.upper (1 / 10 ^ 5) (by norm_num)
  have n1 := fl64_nonneg (x := 1 / 10 ^ 5) (by norm_num)
  have n2 := fl64_nonneg (x := 1 / 10 ^ 8) (by norm_num)
  have a2 := mul_le_mul_of_nonneg_right a1 hm0
  have a3 := accurate_fl64.upper (fl64 (1 / 10 ^ 5) * m) (mul_nonneg n1 hm0)
  have a4 := accurate_fl64.upper (1 / 10 ^ 8) (by norm_num)
  have n3 := fl64_nonneg (mul_nonneg n1 hm0)
  have a5 := accurate_fl64.upper _ (add_nonneg n2 n3)
  set A := fl64 (1 / 10 ^ 5) * (m : ℚ)
  set B := fl64 A
  set C := fl64 (1 / 10 ^ 8)
  set D := fl64 (C + B)
  have e1 : A ≤ (1001 / 1000) * (1 / 10 ^ 5 * m) := by
    have : (1 - 1 / 2 ^ 53) * A ≤ 1 / 10 ^ 5 * m := by
      calc _ = (1 - 1 / 2 ^ 53) * fl64 (1 / 10 ^ 5) * (m : ℚ) := by ring
        _ ≤ _ := a2
    linarith [mul_nonneg n1 hm0]
  have e2 : B ≤ (1001 / 1000) * A := by linarith
  have e3 : C ≤ (1001 / 1000) * (1 / 10 ^ 8) := by linarith
  have e4 : D ≤ (1001 / 1000) * (C + B) := by linarith
  linarith

theorem sum_ite_zero_one (m : ℕ) (P : ℕ → Prop) [DecidablePred P] :
    ∑ r ∈ range m, (if P r then (0 : ℚ) else 1) = m - ((range m).filter P).card := by
  have e : ∀ r ∈ range m, (if P r then (0 : ℚ) else 1) = 1 - if P r then 1 else 0 := by
    intro r _; split_ifs <;> norm_num
  rw [sum_congr rfl e, sum_sub_distrib, ← sum_filter]
  simp

theorem sum_Nclosed_grid (s : Surface ℚ) (x y : ℚ) : ∑ t ∈ range (s.numU * s.numV),
      Nclosed (knotFn s.kvU) s.degreeU s.numU (t / s.numV) x * Nclosed (knotFn s.kvV) s.degreeV s.numV (t % s.numV) y
    = (∑ i ∈ range s.numU, Nclosed (knotFn s.kvU) s.degreeU s.numU i x) *
      ∑ j ∈ range s.numV, Nclosed (knotFn s.kvV) s.degreeV s.numV j y := by
  rw [sum_grid, sum_mul]
  refine sum_congr rfl fun i _ => ?_
  rw [mul_sum]
  refine sum_congr rfl fun j hj => ?_
  have hj' := mem_range.1 hj
  rw [mul_comm i, Nat.mul_add_div (by omega), Nat.div_eq_of_lt hj', add_zero, Nat.mul_add_mod, Nat.mod_eq_of_lt hj']

end PySpline
