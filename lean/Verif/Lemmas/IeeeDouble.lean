import Verif.Lemmas.Ieee

/-!
# Double precision with overflow and underflow
-/

set_option exponentiation.threshold 1100

namespace PySpline

open Ext

/-- The least positive double. -/
local notation "q₀" => ((2 : ℚ) ^ (-1074 : ℤ))

theorem q0_pos : (0 : ℚ) < q₀ := zpow_pos (by norm_num) _

theorem half_q0 : 1 / 2 * q₀ = 1 / 2 ^ 1075 := by
  rw [show (-1074 : ℤ) = -1075 + 1 by norm_num, zpow_add_one₀ (by norm_num), zpow_neg, one_div, one_div]
  rw [show ((1075 : ℤ)) = ((1075 : ℕ) : ℤ) by norm_num, zpow_natCast]
  ring

theorem fl64s_of_pos {x : ℚ} (h : 0 < x) : fl64s x = fl64sPos x := if_pos h

theorem fl64s_zero : fl64s 0 = 0 := by simp [fl64s]

theorem fl64s_neg (x : ℚ) : fl64s (-x) = -fl64s x := by
  unfold fl64s
  rcases lt_trichotomy x 0 with h | rfl | h
  · rw [if_pos (by linarith), if_neg (by linarith), if_pos h, neg_neg]
  · simp
  · rw [if_neg (by linarith), if_pos (by linarith), if_pos h, neg_neg]

/-- From `2 ^ -1022` on there is no underflow. -/
theorem fl64s_normal {x : ℚ} (h : (2 : ℚ) ^ (-1022 : ℤ) ≤ x) : fl64s x = fl64 x := by
  have hx : 0 < x := (zpow_pos (by norm_num) _).trans_le h
  have he : -1022 ≤ expo x := by
    have := (zpow_lt_zpow_iff_right₀ (by norm_num : (1 : ℚ) < 2)).1 (h.trans_lt (expo_spec hx).2)
    omega
  rw [fl64s_of_pos hx, fl64_of_pos hx, fl64sPos, fl64pos, ulp64, max_eq_left he]

theorem fl64s_sub {x : ℚ} (h0 : 0 < x) (h : x < (2 : ℚ) ^ (-1022 : ℤ)) :
    fl64s x = roundEven (x / q₀) * q₀ := by
  have he : expo x ≤ -1022 := by
    have := (zpow_lt_zpow_iff_right₀ (by norm_num : (1 : ℚ) < 2)).1 ((expo_spec h0).1.trans_lt h)
    omega
  rw [fl64s_of_pos h0, fl64sPos, ulp64, max_eq_right he]
  norm_num

theorem min_normal : (2 : ℚ) ^ (-1022 : ℤ) = ((2 ^ 52 : ℤ) : ℚ) * q₀ := by
  rw [zpow_split]
  norm_num

/-- Every double is a multiple of the least positive one. -/
theorem fl64s_multiple (x : ℚ) : ∃ z : ℤ, fl64s x = z * q₀ := by
  have pos : ∀ x : ℚ, 0 < x → ∃ z : ℤ, fl64s x = z * q₀ := by
    intro x hx
    obtain ⟨d, hd⟩ : ∃ d : ℕ, max (expo x) (-1022) - 52 = d + (-1074) :=
      ⟨(max (expo x) (-1022) + 1022).toNat, by have := le_max_right (expo x) (-1022); omega⟩
    refine ⟨roundEven (x / ulp64 x) * 2 ^ d, ?_⟩
    rw [fl64s_of_pos hx, fl64sPos]
    conv_lhs => rw [show ulp64 x = 2 ^ (max (expo x) (-1022) - 52) from rfl, hd, zpow_add₀ (by norm_num),
      zpow_natCast]
    have : ulp64 x = 2 ^ d * q₀ := by rw [ulp64, hd, zpow_add₀ (by norm_num), zpow_natCast]
    rw [this]
    push_cast
    ring
  rcases lt_trichotomy x 0 with h | rfl | h
  · obtain ⟨z, hz⟩ := pos (-x) (by linarith)
    refine ⟨-z, ?_⟩
    rw [fl64s_neg] at hz
    push_cast
    linarith
  · exact ⟨0, by simp [fl64s_zero]⟩
  · exact pos x h

/-- Multiples of the least positive double below `2 ^ -1022` are doubles. -/
theorem fl64s_fix_sub {z : ℤ} (h0 : 0 ≤ (z : ℚ) * q₀) (h : (z : ℚ) * q₀ < (2 : ℚ) ^ (-1022 : ℤ)) :
    fl64s (z * q₀) = z * q₀ := by
  rcases h0.lt_or_eq with h0 | h0
  · rw [fl64s_sub h0 h, mul_div_assoc, div_self q0_pos.ne', mul_one, roundEven_intCast]
  · rw [← h0, fl64s_zero]

theorem fl64s_nonneg {x : ℚ} (h : 0 ≤ x) : 0 ≤ fl64s x := by
  rcases h.lt_or_eq with h | rfl
  · rcases lt_or_ge x ((2 : ℚ) ^ (-1022 : ℤ)) with h' | h'
    · rw [fl64s_sub h h']
      have : roundEven ((0 : ℤ) : ℚ) ≤ roundEven (x / q₀) :=
        roundEven_mono (by push_cast; exact (div_pos h q0_pos).le)
      rw [roundEven_intCast] at this
      exact mul_nonneg (by exact_mod_cast this) q0_pos.le
    · rw [fl64s_normal h']; exact (fl64_pos h).le
  · rw [fl64s_zero]

theorem fl64s_sub_le {x : ℚ} (h0 : 0 < x) (h : x < (2 : ℚ) ^ (-1022 : ℤ)) : fl64s x ≤ (2 : ℚ) ^ (-1022 : ℤ) := by
  rw [fl64s_sub h0 h, min_normal]
  rw [min_normal] at h
  have := roundEven_mono (show x / q₀ ≤ ((2 ^ 52 : ℤ) : ℚ) by rw [div_le_iff₀ q0_pos]; exact h.le)
  rw [roundEven_intCast] at this
  exact mul_le_mul_of_nonneg_right (by exact_mod_cast this) q0_pos.le

theorem fl64s_idem_nonneg {x : ℚ} (h : 0 ≤ x) : fl64s (fl64s x) = fl64s x := by
  rcases h.lt_or_eq with h | rfl
  · rcases lt_or_ge x ((2 : ℚ) ^ (-1022 : ℤ)) with h' | h'
    · rcases (fl64s_sub_le h h').lt_or_eq with h2 | h2
      · obtain ⟨z, hz⟩ := fl64s_multiple x
        have h0 := fl64s_nonneg h.le
        rw [hz] at h0 h2 ⊢
        exact fl64s_fix_sub h0 h2
      · rw [h2, fl64s_normal le_rfl]
        have := fl64pos_fix (m := 2 ^ 52) (e := -1022) le_rfl (by norm_num)
        rw [← zpow_split] at this
        rw [fl64_of_pos (zpow_pos (by norm_num) _), this]
    · rw [fl64s_normal h', fl64s_normal, rounding_fl64.idem]
      have hx := (fl64pos_bounds h).1
      rw [fl64_of_pos h]
      refine le_trans (zpow_le_zpow_right₀ (by norm_num) ?_) hx
      have := (zpow_lt_zpow_iff_right₀ (by norm_num : (1 : ℚ) < 2)).1 (h'.trans_lt (expo_spec h).2)
      omega
  · rw [fl64s_zero, fl64s_zero]

theorem fl64s_idem (x : ℚ) : fl64s (fl64s x) = fl64s x := by
  rcases le_total 0 x with h | h
  · exact fl64s_idem_nonneg h
  · have := fl64s_idem_nonneg (x := -x) (by linarith)
    rw [fl64s_neg, fl64s_neg] at this
    linarith

/-- The error of a result that may underflow. -/
theorem fl64s_near {x : ℚ} (h : 0 ≤ x) :
    x * (1 - 1 / 2 ^ 53) ≤ fl64s x + 1 / 2 ^ 1075 ∧ fl64s x * (1 - 1 / 2 ^ 53) ≤ x + 1 / 2 ^ 1075 := by
  have e0 : (0 : ℚ) < 1 / 2 ^ 1075 := one_div_pos.2 (pow_pos (by norm_num) _)
  rcases h.lt_or_eq with h | rfl
  · rcases lt_or_ge x ((2 : ℚ) ^ (-1022 : ℤ)) with h' | h'
    · have hn := fl64s_nonneg h.le
      have e := fl64s_sub h h'
      have h1 := roundEven_near (x / q₀)
      have h2 : |fl64s x - x| ≤ 1 / 2 ^ 1075 := by
        rw [← half_q0, e]
        have : (roundEven (x / q₀) : ℚ) * q₀ - x = (roundEven (x / q₀) - x / q₀) * q₀ := by
          rw [sub_mul, div_mul_cancel₀ _ q0_pos.ne']
        rw [this, abs_mul, abs_of_pos q0_pos]
        exact mul_le_mul_of_nonneg_right h1 q0_pos.le
      obtain ⟨h3, h4⟩ := abs_le.1 h2
      constructor
      · have := mul_le_of_le_one_right h.le (show (1 - 1 / 2 ^ 53 : ℚ) ≤ 1 by norm_num)
        linarith
      · have := mul_le_of_le_one_right hn (show (1 - 1 / 2 ^ 53 : ℚ) ≤ 1 by norm_num)
        linarith
    · rw [fl64s_normal h']
      have a := accurate_fl64.lower x h.le
      have b := accurate_fl64.upper x h.le
      rw [mul_comm] at a b
      constructor <;> linarith
  · rw [fl64s_zero]; simp

/-- Sums of doubles do not underflow. -/
theorem fl64s_add {a b : ℚ} (ha : fl64s a = a) (hb : fl64s b = b) (h : 0 ≤ a + b) :
    (a + b) * (1 - 1 / 2 ^ 53) ≤ fl64s (a + b) ∧ fl64s (a + b) * (1 - 1 / 2 ^ 53) ≤ a + b := by
  rcases lt_or_ge (a + b) ((2 : ℚ) ^ (-1022 : ℤ)) with h' | h'
  · obtain ⟨y, hy⟩ := fl64s_multiple a
    obtain ⟨z, hz⟩ := fl64s_multiple b
    have e : a + b = ((y + z : ℤ) : ℚ) * q₀ := by
      rw [← ha, ← hb, hy, hz]; push_cast; ring
    have e' : fl64s (a + b) = a + b := by
      rw [e] at h h' ⊢
      exact fl64s_fix_sub h h'
    rw [e']
    have := mul_le_of_le_one_right h (show (1 - 1 / 2 ^ 53 : ℚ) ≤ 1 by norm_num)
    exact ⟨this, this⟩
  · have h0 : 0 < a + b := (zpow_pos (by norm_num) _).trans_le h'
    rw [fl64s_normal h']
    have a1 := accurate_fl64.lower _ h
    have b1 := accurate_fl64.upper _ h
    rw [mul_comm] at a1 b1
    exact ⟨a1, b1⟩

theorem bin64_eq_fin {x y : ℚ} (h : bin64 x = fin y) : y = fl64s x ∧ |fl64s x| < 2 ^ 1024 := by
  unfold bin64 at h
  split at h
  · rename_i h1
    exact ⟨(fin.inj h).symm, h1⟩
  · cases h

theorem bin64_fin {x : ℚ} (h : |fl64s x| < 2 ^ 1024) : bin64 x = fin (fl64s x) := if_pos h

theorem bin64_le {x : ℚ} (h0 : 0 ≤ x) (h : x ≤ 2 ^ 1023) : bin64 x = fin (fl64s x) := by
  apply bin64_fin
  rw [abs_of_nonneg (fl64s_nonneg h0)]
  have h1 := (fl64s_near h0).2
  have h2 : (1 : ℚ) / 2 ^ 1075 ≤ 1 := by
    rw [div_le_one (pow_pos (by norm_num) _)]
    exact one_le_pow₀ (by norm_num)
  have h3 : (1 : ℚ) < 2 ^ 1022 := one_lt_pow₀ (by norm_num) (by norm_num)
  have h4 : (2 : ℚ) ^ 1024 = 4 * 2 ^ 1022 := by rw [← show (2 : ℚ) ^ 2 = 4 by norm_num, ← pow_add]
  have h5 : (2 : ℚ) ^ 1023 = 2 * 2 ^ 1022 := by rw [pow_succ]; ring
  rw [h5] at h
  rw [h4]
  have h6 : fl64s x * (3 / 4) ≤ fl64s x * (1 - 1 / 2 ^ 53) :=
    mul_le_mul_of_nonneg_left (by norm_num) (fl64s_nonneg h0)
  have h7 := h6.trans h1
  generalize (2 : ℚ) ^ 1022 = B at *
  generalize (1 : ℚ) / 2 ^ 1075 = e at *
  generalize fl64s x = f at *
  clear h1 h6 h4 h5
  linarith

theorem neg_fin' (x : ℚ) : -(fin x : Ext ℚ) = fin (-x) := rfl

/-- Double precision is an instance. -/
theorem ieeeRounding_bin64 : IeeeRounding (1 - 1 / 2 ^ 53) (1 / 2 ^ 1075) (2 ^ 1023) bin64 where
  pos := by norm_num
  le_one := by norm_num
  eta := (one_div_pos.2 (pow_pos (by norm_num) _)).le
  zero := by decide +kernel
  one := by decide +kernel
  neg x := by
    unfold bin64
    rw [fl64s_neg, abs_neg]
    split
    · rfl
    · rename_i h
      have hx : x ≠ 0 := by
        rintro rfl
        rw [fl64s_zero, abs_zero] at h
        exact h (pow_pos (by norm_num) _)
      show inf _ = inf _
      congr 1
      rcases lt_or_gt_of_ne hx with h | h
      · simp [h, h.le]
      · simp [h, h.le]
  idem x y h := by
    obtain ⟨rfl, h1⟩ := bin64_eq_fin h
    rw [bin64_fin (by rwa [fl64s_idem]), fl64s_idem]
  near x h0 h := ⟨_, bin64_le h0 h, fl64s_nonneg h0, fl64s_near h0⟩
  add a b ha hb h0 h :=
    ⟨_, bin64_le h0 h, fl64s_nonneg h0, fl64s_add (bin64_eq_fin ha).1.symm (bin64_eq_fin hb).1.symm h0⟩

end PySpline
