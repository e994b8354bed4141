import Verif.Lemmas.IeeeSolveClose
import Verif.Props.IeeeFit

/-!
# The matrices of the fits in double precision, for the solver
-/

set_option linter.unusedSectionVars false
set_option exponentiation.threshold 1100

namespace PySpline

open Spec Ext Finset

/-- The sizes for double precision, if the error of an entry is at most `a / 2 ^ 55`. -/
theorem solveSizes_binary64 {B ε : ℚ} {k n a : ℕ} (hsize : k + n + 2 + a * n ≤ 2 ^ 52)
    (hB : 1 / 2 ^ 1000 ≤ B) (hB' : 8 * B ≤ 2 ^ 1023) (ha : 1 ≤ a)
    (hε : (k + n + 2 + a * n : ℕ) / 2 ^ 52 ≤ ε) (hε1 : ε ≤ 1) :
    SolveSizes (1 - 1 / 2 ^ 53 : ℚ) (1 / 2 ^ 1075) (2 ^ 1023) (4 * a / 2 ^ 55) B ε k n := by
  have ha' : (1 : ℚ) ≤ a := by exact_mod_cast ha
  have hB0 : (0 : ℚ) ≤ B := le_trans (by positivity) hB
  refine ⟨by positivity, hB0, ?_, ?_, hε1, le_trans (by norm_num) (pow_le_pow_right₀ (by norm_num) (show 2 ≤ 1023 by norm_num)),
    hB'⟩
  · have h1 : (1 : ℚ) / 2 ^ 1075 ≤ 1 / 2 ^ 55 * (1 / 2 ^ 1000) := by
      rw [one_div_mul_one_div, ← pow_add]
      exact one_div_le_one_div_of_le (by positivity) (pow_le_pow_right₀ (by norm_num) (by norm_num))
    refine h1.trans (mul_le_mul ?_ hB (by positivity) (by positivity))
    exact div_le_div_of_nonneg_right (by linarith) (by norm_num)
  · have h1 : 1 + (n : ℚ) * (4 * a / 2 ^ 55) ≤ (1 / (1 - 1 / 2 ^ 53 : ℚ)) ^ (a * n) := by
      have h2 := one_add_mul_le_pow (a := (1 / 2 ^ 53 : ℚ)) (by norm_num) (a * n)
      have h3 : (1 + 1 / 2 ^ 53 : ℚ) ^ (a * n) ≤ (1 / (1 - 1 / 2 ^ 53 : ℚ)) ^ (a * n) :=
        pow_le_pow_left₀ (by norm_num) (by norm_num) _
      refine le_trans (le_of_eq ?_) (h2.trans h3)
      push_cast
      ring
    calc _ ≤ (1 / (1 - 1 / 2 ^ 53 : ℚ)) ^ (k + n + 2) * (1 / (1 - 1 / 2 ^ 53 : ℚ)) ^ (a * n) :=
          mul_le_mul_of_nonneg_left h1 (pow_nonneg (by norm_num) _)
      _ = (1 / (1 - 1 / 2 ^ 53 : ℚ)) ^ (k + n + 2 + a * n) := (pow_add _ _ _).symm
      _ ≤ 1 + ε := pow_fl64_le hsize hε

/-- The matrix of `single_fit_curve`. -/
theorem curve_matrix_binary64 {c : Curve ℚ} {data : List (List ℚ)} {m n : ℕ}
    (hU : Clamped c.degree n c.kv) (hp10 : c.degree ≤ 10)
    (hfirst : knotFn c.kv c.degree < knotFn c.kv (c.degree + 1))
    (hn : c.ctrlpts.length = n) (hd : Shape data m 4) (hrep : ∀ x ∈ c.kv, bin64 x = fin x)
    (hdata : ∀ r < m, bin64 (at2 data r 3 0) = fin (at2 data r 3 0))
    (hδ : ∀ x ∈ c.kv, ∀ y ∈ c.kv, x < y → 1 / 2 ^ 1000 ≤ y - x)
    (hH : knotFn c.kv (n + c.degree) - knotFn c.kv 0 ≤ 2 ^ 1000) :
    ∃ L, curveMatrixR bin64 c.lift (lift2 data) = .ok L ∧ Shape L m n ∧
      ∀ r < m, ∀ i < n, IsNear bin64 (1 - 1 / 2 ^ 53) (5 * c.degree) (5 / 2 ^ 55) (at2 L r i 0)
        (Nclosed (knotFn c.kv) c.degree n i (at2 data r 3 0)) := by
  have hd4 : ∀ r, at2 (lift2 data) r 3 0 = fin (at2 data r 3 0) := fun r => at2_lift2 data r 3
  have h : ∀ r i, ∃ e, r < m → i < n → oneBasisFunctionR bin64 c.degree (lift1 c.kv) i (fin (at2 data r 3 0)) = .ok e ∧
      IsNear bin64 (1 - 1 / 2 ^ 53) (5 * c.degree) (5 / 2 ^ 55) e
        (Nclosed (knotFn c.kv) c.degree n i (at2 data r 3 0)) := by
    intro r i
    by_cases hi : r < m ∧ i < n
    · obtain ⟨x, hx⟩ := one_basis_entry_binary64 hU hp10 hfirst hrep (hdata r hi.1) hδ hH hi.2
      exact ⟨x, fun _ _ => hx⟩
    · exact ⟨0, fun h1 h2 => absurd ⟨h1, h2⟩ hi⟩
  choose B hB using h
  obtain ⟨L, hL, hs, hv⟩ := curveMatrixR_spec (rd := bin64) (c := c.lift) B (shape_lift2 hd) (n := n)
    (by show (lift2 c.ctrlpts).length = n; rw [List.length_map]; exact hn)
    (fun r hr i hi => by rw [hd4]; exact (hB r i hr hi).1)
  exact ⟨L, hL, hs, fun r hr i hi => by rw [hv r hr i hi]; exact (hB r i hr hi).2⟩

/-- The matrix of `single_fit_surface`. -/
theorem surface_matrix_binary64 {s : Surface ℚ} {data : List (List ℚ)} {m : ℕ}
    (hs : ClampedSurface s) (hpu : s.degreeU ≤ 7) (hpv : s.degreeV ≤ 7)
    (fu : knotFn s.kvU s.degreeU < knotFn s.kvU (s.degreeU + 1))
    (fv : knotFn s.kvV s.degreeV < knotFn s.kvV (s.degreeV + 1)) (hd : Shape data m 5)
    (hru : ∀ x ∈ s.kvU, bin64 x = fin x) (hrv : ∀ x ∈ s.kvV, bin64 x = fin x)
    (hdata : ∀ r < m, bin64 (at2 data r 3 0) = fin (at2 data r 3 0) ∧ bin64 (at2 data r 4 0) = fin (at2 data r 4 0))
    (hδu : ∀ x ∈ s.kvU, ∀ y ∈ s.kvU, x < y → 1 / 2 ^ 1000 ≤ y - x)
    (hδv : ∀ x ∈ s.kvV, ∀ y ∈ s.kvV, x < y → 1 / 2 ^ 1000 ≤ y - x)
    (hHu : knotFn s.kvU (s.numU + s.degreeU) - knotFn s.kvU 0 ≤ 2 ^ 1000)
    (hHv : knotFn s.kvV (s.numV + s.degreeV) - knotFn s.kvV 0 ≤ 2 ^ 1000)
    (hu : ∀ r < m, knotFn s.kvU s.degreeU ≤ at2 data r 3 0 ∧ at2 data r 3 0 ≤ knotFn s.kvU s.numU)
    (hv : ∀ r < m, knotFn s.kvV s.degreeV ≤ at2 data r 4 0 ∧ at2 data r 4 0 ≤ knotFn s.kvV s.numV) :
    ∃ L, surfaceMatrixR bin64 s.lift (lift2 data) = .ok L ∧ Shape L m (s.numU * s.numV) ∧
      ∀ r < m, ∀ x < s.numU * s.numV,
        IsNear bin64 (1 - 1 / 2 ^ 53) (5 * s.degreeU + 5 * s.degreeV + 1) (51 / 2 ^ 55) (at2 L r x 0)
          (Nclosed (knotFn s.kvU) s.degreeU s.numU (x / s.numV) (at2 data r 3 0) *
            Nclosed (knotFn s.kvV) s.degreeV s.numV (x % s.numV) (at2 data r 4 0)) := by
  have hA : ∀ r i, ∃ e, r < m → i < s.numU →
      oneBasisFunctionR bin64 s.degreeU (lift1 s.kvU) i (fin (at2 data r 3 0)) = .ok e ∧
      IsNear bin64 (1 - 1 / 2 ^ 53) (5 * s.degreeU) (5 / 2 ^ 55) e
        (Nclosed (knotFn s.kvU) s.degreeU s.numU i (at2 data r 3 0)) := by
    intro r i
    by_cases hi : r < m ∧ i < s.numU
    · obtain ⟨x, hx⟩ := one_basis_entry_binary64 hs.cu (by omega) fu hru (hdata r hi.1).1 hδu hHu hi.2
      exact ⟨x, fun _ _ => hx⟩
    · exact ⟨0, fun h1 h2 => absurd ⟨h1, h2⟩ hi⟩
  have hB : ∀ r i, ∃ e, r < m → i < s.numV →
      oneBasisFunctionR bin64 s.degreeV (lift1 s.kvV) i (fin (at2 data r 4 0)) = .ok e ∧
      IsNear bin64 (1 - 1 / 2 ^ 53) (5 * s.degreeV) (5 / 2 ^ 55) e
        (Nclosed (knotFn s.kvV) s.degreeV s.numV i (at2 data r 4 0)) := by
    intro r i
    by_cases hi : r < m ∧ i < s.numV
    · obtain ⟨x, hx⟩ := one_basis_entry_binary64 hs.cv (by omega) fv hrv (hdata r hi.1).2 hδv hHv hi.2
      exact ⟨x, fun _ _ => hx⟩
    · exact ⟨0, fun h1 h2 => absurd ⟨h1, h2⟩ hi⟩
  choose A hA using hA
  choose B hB using hB
  obtain ⟨L, hL, hLs, hLv⟩ := surfaceMatrixR_spec (rd := bin64) (s := s.lift) A B (shape_lift2 hd)
    (by show (lift2 s.ctrlpts).length = _; rw [List.length_map]; exact hs.shape.1)
    (fun r hr i hi => by rw [at2_lift2]; exact (hA r i hr hi).1)
    (fun r hr i hi => by rw [at2_lift2]; exact (hB r i hr hi).1)
  have one_le : ∀ {p n : ℕ} {U : List ℚ}, Clamped p n U → ∀ {i : ℕ} {x : ℚ}, i < n → knotFn U p ≤ x → x ≤ knotFn U n →
      Nclosed (knotFn U) p n i x ≤ 1 := by
    intro p n U hU i x hi h1 h2
    rw [← sum_Nclosed hU h1 h2]
    exact single_le_sum (f := fun i => Nclosed (knotFn U) p n i x)
      (fun j _ => Nclosed_nonneg (monotone_knotFn hU.mono) _ _ _ _) (mem_range.2 hi)
  have hnear : ∀ r < m, ∀ i < s.numU, ∀ j < s.numV,
      IsNear bin64 (1 - 1 / 2 ^ 53) (5 * s.degreeU + 5 * s.degreeV + 1) (51 / 2 ^ 55) (at2 L r (i * s.numV + j) 0)
        (Nclosed (knotFn s.kvU) s.degreeU s.numU i (at2 data r 3 0) *
          Nclosed (knotFn s.kvV) s.degreeV s.numV j (at2 data r 4 0)) := by
    intro r hr i hi j hj
    have := hLv r hr i hi j hj
    change at2 L r (i * s.numV + j) 0 = _ at this
    rw [this]
    refine ((hA r i hr hi).2.mul_both ieeeRounding_bin64 (hB r j hr hj).2 (one_le hs.cu hi (hu r hr).1 (hu r hr).2)
      (one_le hs.cv hj (hv r hr).1 (hv r hr).2) (by norm_num) (by norm_num) ?_ (pow_rho _ (by omega))).mono
      ieeeRounding_bin64 le_rfl ?_
    · exact le_trans (by norm_num) (pow_le_pow_right₀ (by norm_num) (show 3 ≤ 1023 by norm_num))
    · have : (1 : ℚ) / 2 ^ 1075 ≤ 1 / 2 ^ 55 := one_div_le_one_div_of_le (by norm_num)
        (pow_le_pow_right₀ (by norm_num) (by norm_num))
      norm_num at this ⊢
  refine ⟨L, hL, hLs, fun r hr x hx => ?_⟩
  have hnv : 0 < s.numV := Nat.pos_of_ne_zero fun h => by simp [h] at hx
  have := hnear r hr (x / s.numV) (by rwa [Nat.div_lt_iff_lt_mul hnv]) (x % s.numV) (Nat.mod_lt _ hnv)
  rwa [Nat.div_add_mod'] at this

end PySpline
