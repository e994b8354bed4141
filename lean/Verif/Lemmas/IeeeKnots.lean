import Verif.Lemmas.IeeeAux

/-!
# Helper lemmas for `Props/IeeeKnots.lean`
-/

set_option exponentiation.threshold 1100

namespace PySpline

open Spec Ext

local notation "q₀" => ((2 : ℚ) ^ (-1074 : ℤ))

theorem fl64s_mono_nonneg {x y : ℚ} (h0 : 0 ≤ x) (h : x ≤ y) : fl64s x ≤ fl64s y := by
  rcases h0.lt_or_eq with h0 | rfl
  · rcases lt_or_ge y ((2 : ℚ) ^ (-1022 : ℤ)) with hy | hy
    · rw [fl64s_sub h0 (h.trans_lt hy), fl64s_sub (h0.trans_le h) hy]
      have := roundEven_mono (show x / q₀ ≤ y / q₀ from div_le_div_of_nonneg_right h q0_pos.le)
      exact mul_le_mul_of_nonneg_right (by exact_mod_cast this) q0_pos.le
    · rcases lt_or_ge x ((2 : ℚ) ^ (-1022 : ℤ)) with hx | hx
      · refine (fl64s_sub_le h0 hx).trans ?_
        rw [fl64s_normal hy]
        have e : fl64 ((2 : ℚ) ^ (-1022 : ℤ)) = (2 : ℚ) ^ (-1022 : ℤ) := by
          have := fl64pos_fix (m := 2 ^ 52) (e := -1022) le_rfl (by norm_num)
          rw [← zpow_split] at this
          rw [fl64_of_pos (zpow_pos (by norm_num) _), this]
        rw [← e]
        exact rounding_fl64.mono hy
      · rw [fl64s_normal hx, fl64s_normal hy]
        exact rounding_fl64.mono h
  · rw [fl64s_zero]
    exact fl64s_nonneg h

theorem fl64s_mono : Monotone fl64s := by
  intro x y h
  rcases le_total 0 x with hx | hx
  · exact fl64s_mono_nonneg hx h
  · rcases le_total 0 y with hy | hy
    · have := fl64s_nonneg (x := -x) (by linarith)
      rw [fl64s_neg] at this
      linarith [fl64s_nonneg hy]
    · have := fl64s_mono_nonneg (x := -y) (y := -x) (by linarith) (by linarith)
      rw [fl64s_neg, fl64s_neg] at this
      linarith

theorem abs_fl64s (x : ℚ) : |fl64s x| = fl64s |x| := by
  rcases le_total 0 x with h | h
  · rw [abs_of_nonneg h, abs_of_nonneg (fl64s_nonneg h)]
  · rw [abs_of_nonpos h, fl64s_neg, abs_of_nonpos]
    have := fl64s_nonneg (x := -x) (by linarith)
    rw [fl64s_neg] at this
    linarith

theorem bin64_abs_le {x : ℚ} (h : |x| ≤ 2 ^ 1023) : bin64 x = fin (fl64s x) := by
  rcases le_total 0 x with h0 | h0
  · rw [abs_of_nonneg h0] at h
    exact bin64_le h0 h
  · rw [abs_of_nonpos h0] at h
    have := ieeeRounding_bin64.neg (-x)
    rw [neg_neg, bin64_le (by linarith) h, fl64s_neg] at this
    rw [this]
    show fin (- -fl64s x) = _
    rw [neg_neg]

/-- Numbers near `1` pass the test for the last knot. -/
theorem iscloseR_bin64_near {v : ℚ} (h : |1 - v| ≤ 1 / 2 ^ 40) :
    iscloseR bin64 1 (fin v) rtolDefault atolDefault = true := by
  have hv := abs_le.1 h
  have hv1 : 1 / 2 ≤ v := by norm_num at hv ⊢; linarith
  have hv2 : v ≤ 2 := by norm_num at hv ⊢; linarith
  have hbig : (4 : ℚ) ≤ 2 ^ 1023 := le_trans (by norm_num) (pow_le_pow_right₀ (by norm_num) (show 2 ≤ 1023 by norm_num))
  unfold iscloseR
  rw [if_pos (by rfl)]
  have e1 : rnd bin64 ((1 : Ext ℚ) - fin v) = fin (fl64s (1 - v)) := by
    show bin64 (1 - v) = _
    refine bin64_abs_le (h.trans (le_trans ?_ hbig))
    norm_num
  have e2 : bin64 atolDefault = fin (fl64s atolDefault) := by decide +kernel
  have e3 : bin64 rtolDefault = fin (fl64s rtolDefault) := by decide +kernel
  have c1 : 1 / 10 ^ 6 ≤ fl64s (fl64s rtolDefault * (1 / 2)) := by decide +kernel
  have c2 : 0 ≤ fl64s rtolDefault := by decide +kernel
  have c3 : fl64s (fl64s rtolDefault * 2) ≤ 1 := by decide +kernel
  have c4 : 0 ≤ fl64s atolDefault := by decide +kernel
  have c5 : fl64s atolDefault ≤ 1 := by decide +kernel
  have c6 : fl64s (1 / 2 ^ 40) = 1 / 2 ^ 40 := by decide +kernel
  have c7 : 1 / 2 ^ 40 ≤ fl64s (1 / 10 ^ 6) := by decide +kernel
  have c8 : fl64s rtolDefault ≤ 1 := by decide +kernel
  have d1 : 1 / 10 ^ 6 ≤ fl64s (fl64s rtolDefault * v) := c1.trans (fl64s_mono (mul_le_mul_of_nonneg_left hv1 c2))
  have d2 : fl64s (fl64s rtolDefault * v) ≤ 1 := (fl64s_mono (mul_le_mul_of_nonneg_left hv2 c2)).trans c3
  have e4 : rnd bin64 (fin (fl64s rtolDefault) * Ext.abs (fin v)) = fin (fl64s (fl64s rtolDefault * v)) := by
    show bin64 (fl64s rtolDefault * |v|) = _
    rw [abs_of_nonneg (by linarith)]
    refine bin64_le (mul_nonneg c2 (by linarith)) (le_trans (mul_le_mul c8 hv2 (by linarith) zero_le_one) ?_)
    linarith
  have e5 : rnd bin64 (fin (fl64s atolDefault) + fin (fl64s (fl64s rtolDefault * v)))
      = fin (fl64s (fl64s atolDefault + fl64s (fl64s rtolDefault * v))) := by
    have : (0 : ℚ) < 1 / 10 ^ 6 := by norm_num
    exact bin64_le (by linarith) (by linarith)
  rw [e1, e2, e3, e4, e5]
  rw [show Ext.abs (fin (fl64s (1 - v))) = fin |fl64s (1 - v)| from rfl, le_lift, abs_fl64s]
  calc fl64s |1 - v| ≤ fl64s (1 / 2 ^ 40) := fl64s_mono h
    _ ≤ fl64s (1 / 10 ^ 6) := by rw [c6]; exact c7
    _ ≤ _ := fl64s_mono (by linarith)

/-- `normalize` of doubles whose range is neither tiny nor huge. -/
theorem normalizeR_bin64 {U : List ℚ} {lo hi : ℚ} (hlo : lo ∈ U) (hhi : hi ∈ U)
    (hb : ∀ x ∈ U, lo ≤ x ∧ x ≤ hi) (hrep : ∀ x ∈ U, bin64 x = fin x)
    (h1 : 1 / 2 ^ 1022 ≤ hi - lo) (h2 : hi - lo ≤ 2 ^ 1023) :
    ∃ g : ℚ → ℚ, normalizeR bin64 (lift1 U) = .ok (lift1 (U.map g)) ∧ Monotone g ∧ g lo = 0 ∧
      |1 - g hi| ≤ 1 / 2 ^ 40 := by
  have p1 : (0 : ℚ) < 1 / 2 ^ 1022 := one_div_pos.2 (pow_pos (by norm_num) _)
  have p2 : (0 : ℚ) < 2 ^ 1022 := pow_pos (by norm_num) _
  have p3 : (2 : ℚ) ^ 1023 = 2 ^ 1022 * 2 := pow_succ 2 1022
  have p4 : (1 : ℚ) / 2 ^ 1022 * 2 ^ 1022 = 1 := one_div_mul_cancel p2.ne'
  set R := fl64s (hi - lo) with hR
  have hRe : bin64 (hi - lo) = fin R := bin64_le (by linarith) h2
  have z1 : fl64s (1 / 2 ^ 1022) = 1 / 2 ^ 1022 := by decide +kernel
  have z2 : fl64s (2 ^ 1023) = 2 ^ 1023 := by decide +kernel
  have hR1 : 1 / 2 ^ 1022 ≤ R := by rw [← z1]; exact fl64s_mono h1
  have hR2 : R ≤ 2 ^ 1023 := by rw [← z2]; exact fl64s_mono h2
  have hR0 : 0 < R := p1.trans_le hR1
  have hq1 : 1 / R ≤ 2 ^ 1022 := by
    rw [div_le_iff₀ hR0]
    calc (1 : ℚ) = 2 ^ 1022 * (1 / 2 ^ 1022) := by rw [mul_comm, p4]
      _ ≤ _ := mul_le_mul_of_nonneg_left hR1 p2.le
  have hq0 : 0 < 1 / R := one_div_pos.2 hR0
  set f := fl64s (1 / R) with hf
  have hfe : bin64 (1 / R) = fin f := bin64_le hq0.le (by rw [p3]; linarith)
  have hf0 : 0 ≤ f := fl64s_nonneg hq0.le
  obtain ⟨n1, n2⟩ := fl64s_near hq0.le
  have hη : R * (1 / 2 ^ 1075) ≤ 1 / 2 ^ 52 := by
    have e : (2 : ℚ) ^ 1023 * (1 / 2 ^ 1075) = 1 / 2 ^ 52 := by
      rw [show (1075 : ℕ) = 1023 + 52 from rfl, pow_add]
      have : (2 : ℚ) ^ 1023 ≠ 0 := (pow_pos (by norm_num) _).ne'
      field_simp
    rw [← e]
    exact mul_le_mul_of_nonneg_right hR2 (one_div_pos.2 (pow_pos (by norm_num) _)).le
  have hRR : R * (1 / R) = 1 := mul_one_div_cancel hR0.ne'
  have hRf1 : 1 - 1 / 2 ^ 53 ≤ R * f + 1 / 2 ^ 52 := by
    have := mul_le_mul_of_nonneg_left n1 hR0.le
    rw [← mul_assoc, hRR, one_mul, mul_add] at this
    linarith
  have hRf2 : R * f * (1 - 1 / 2 ^ 53) ≤ 1 + 1 / 2 ^ 52 := by
    have := mul_le_mul_of_nonneg_left n2 hR0.le
    rw [← mul_assoc, mul_add, hRR] at this
    linarith
  have hRf3 : R * f ≤ 2 := by
    norm_num at hRf2 ⊢
    linarith
  have hRf0 : 0 ≤ R * f := mul_nonneg hR0.le hf0
  have hbig : (4 : ℚ) ≤ 2 ^ 1023 := le_trans (by norm_num) (pow_le_pow_right₀ (by norm_num) (show 2 ≤ 1023 by norm_num))
  refine ⟨fun x => fl64s (fl64s (x - lo) * f), ?_, fun x y h => ?_, ?_, ?_⟩
  · unfold normalizeR
    rw [(npMaxE_follows U).value (npMax_eq hhi fun x hx => (hb x hx).2), ok_bind,
      (npMinE_follows U).value (npMin_eq hlo fun x hx => (hb x hx).1), ok_bind]
    dsimp only
    have e1 : rnd bin64 ((fin hi : Ext ℚ) - fin lo) = fin R := hRe
    have e2 : rnd bin64 ((1 : Ext ℚ) / fin R) = fin f := by
      rw [show (1 : Ext ℚ) = fin 1 from rfl, fin_div _ hR0.ne']
      exact hfe
    have e3 : rnd bin64 ((fin lo : Ext ℚ) * 1) = fin lo := by
      show bin64 (lo * 1) = _
      rw [mul_one]
      exact hrep lo hlo
    rw [e1, e2, e3]
    congr 1
    unfold lift1
    rw [List.map_map, List.map_map, List.map_map]
    refine List.map_congr_left fun x hx => ?_
    have hx' := hb x hx
    have d0 : 0 ≤ x - lo := by linarith
    have e4 : bin64 (x - lo) = fin (fl64s (x - lo)) := bin64_le d0 (by linarith)
    show rnd bin64 (bin64 (x - lo) * fin f) = fin (fl64s (fl64s (x - lo) * f))
    rw [e4]
    have d1 : fl64s (x - lo) ≤ R := fl64s_mono (by linarith)
    refine bin64_le (mul_nonneg (fl64s_nonneg d0) hf0) ?_
    have := mul_le_mul_of_nonneg_right d1 hf0
    linarith
  · exact fl64s_mono (mul_le_mul_of_nonneg_right (fl64s_mono (by linarith)) hf0)
  · show fl64s (fl64s (lo - lo) * f) = 0
    rw [sub_self, fl64s_zero, zero_mul, fl64s_zero]
  · show |1 - fl64s (R * f)| ≤ _
    obtain ⟨m1, m2⟩ := fl64s_near hRf0
    have m3 := fl64s_nonneg hRf0
    have hη' : (1 : ℚ) / 2 ^ 1075 ≤ 1 / 2 ^ 60 := one_div_le_one_div_of_le (by norm_num)
      (pow_le_pow_right₀ (by norm_num) (by norm_num))
    generalize (1 : ℚ) / 2 ^ 1075 = η at *
    generalize fl64s (R * f) = v at *
    generalize R * f = w at *
    norm_num at hRf1 hRf2 m1 m2 hη' ⊢
    rw [abs_le]
    constructor <;> linarith

end PySpline
