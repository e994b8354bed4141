import Mathlib.Algebra.Order.Field.Basic
import Mathlib.Algebra.Order.Field.Power
import Mathlib.Data.Rat.Floor
import Mathlib.Tactic.Linarith
import Mathlib.Tactic.FieldSimp
import Mathlib.Tactic.Positivity
import Mathlib.Tactic.Ring
import Mathlib.Tactic.NormNum
import Mathlib.Data.Nat.Log

/-!
# Rounded arithmetic

`Rounding fl` is what the theorems about rounded arithmetic assume of the function `fl` that takes an
exact result to the stored number.  `fl64` is rounding to the nearest number with 53 significant
bits, ties to even: double precision without overflow and underflow.
-/

namespace PySpline

/-- A rounding function: monotone, odd, exact at `0` and `1`, idempotent. -/
structure Rounding {K : Type} [Field K] [LinearOrder K] (fl : K → K) : Prop where
  mono : Monotone fl
  neg : ∀ x, fl (-x) = -fl x
  one : fl 1 = 1
  idem : ∀ x, fl (fl x) = fl x

/-- The relative error is bounded: `fl x` and `x` differ by a factor between `ρ` and `1/ρ`. -/
structure Accurate {K : Type} [Field K] [LinearOrder K] (ρ : K) (fl : K → K) : Prop where
  pos : 0 < ρ
  le_one : ρ ≤ 1
  lower : ∀ x, 0 ≤ x → ρ * x ≤ fl x
  upper : ∀ x, 0 ≤ x → ρ * fl x ≤ x

/-- The exponent `e` of a positive number, `2 ^ e ≤ x < 2 ^ (e + 1)`. -/
def expo (x : ℚ) : ℤ :=
  let e : ℤ := (Nat.log2 x.num.natAbs : ℤ) - (Nat.log2 x.den : ℤ)
  if (2 : ℚ) ^ e ≤ x then e else e - 1

/-- The nearest integer, ties to even. -/
def roundEven (x : ℚ) : ℤ :=
  if x - ⌊x⌋ < 1 / 2 then ⌊x⌋
  else if 1 / 2 < x - ⌊x⌋ then ⌊x⌋ + 1
  else if ⌊x⌋ % 2 = 0 then ⌊x⌋ else ⌊x⌋ + 1

/-- Rounding of a positive number to 53 significant bits. -/
def fl64pos (x : ℚ) : ℚ := roundEven (x / 2 ^ (expo x - 52)) * 2 ^ (expo x - 52)

/-- Round to nearest with 53 significant bits and unbounded exponent. -/
def fl64 (x : ℚ) : ℚ := if 0 < x then fl64pos x else if x < 0 then -fl64pos (-x) else 0

theorem zpow_split (e : ℤ) : (2 : ℚ) ^ e = ((2 ^ 52 : ℤ) : ℚ) * 2 ^ (e - 52) := by
  have h : ((2 ^ 52 : ℤ) : ℚ) = 2 ^ (52 : ℤ) := by norm_num
  rw [h, ← zpow_add₀ (by norm_num)]
  congr 1; ring

theorem zpow_split' (e : ℤ) : (2 : ℚ) ^ (e + 1) = ((2 ^ 53 : ℤ) : ℚ) * 2 ^ (e - 52) := by
  have h : ((2 ^ 53 : ℤ) : ℚ) = 2 ^ (53 : ℤ) := by norm_num
  rw [h, ← zpow_add₀ (by norm_num)]
  congr 1; ring

theorem expo_spec {x : ℚ} (hx : 0 < x) : (2 : ℚ) ^ expo x ≤ x ∧ x < 2 ^ (expo x + 1) := by
  have hn : 0 < x.num := Rat.num_pos.2 hx
  obtain ⟨a, ha⟩ : ∃ a, a = x.num.natAbs := ⟨_, rfl⟩
  obtain ⟨d, hd'⟩ : ∃ d, d = x.den := ⟨_, rfl⟩
  have ha0 : a ≠ 0 := by omega
  have hd0 : d ≠ 0 := hd' ▸ x.den_nz
  have hxa : x = (a : ℚ) / d := by
    conv_lhs => rw [← Rat.num_div_den x]
    rw [ha, hd', Nat.cast_natAbs, abs_of_pos hn]
  have h1 : (2 : ℚ) ^ (Nat.log2 a : ℤ) ≤ a := by exact_mod_cast Nat.log2_self_le ha0
  have h2 : (a : ℚ) < 2 ^ ((Nat.log2 a : ℤ) + 1) := by
    have := Nat.lt_log2_self (n := a)
    exact_mod_cast this
  have h3 : (2 : ℚ) ^ (Nat.log2 d : ℤ) ≤ d := by exact_mod_cast Nat.log2_self_le hd0
  have h4 : (d : ℚ) < 2 ^ ((Nat.log2 d : ℤ) + 1) := by
    have := Nat.lt_log2_self (n := d)
    exact_mod_cast this
  have hd : (0 : ℚ) < d := by exact_mod_cast Nat.pos_of_ne_zero hd0
  have p2 : ∀ z : ℤ, (0 : ℚ) < 2 ^ z := fun z => zpow_pos (by norm_num) z
  have up : x < 2 ^ ((Nat.log2 a : ℤ) - (Nat.log2 d : ℤ) + 1) := by
    rw [hxa, div_lt_iff₀ hd]
    refine h2.trans_le ?_
    calc (2 : ℚ) ^ ((Nat.log2 a : ℤ) + 1)
        = 2 ^ ((Nat.log2 a : ℤ) - (Nat.log2 d : ℤ) + 1) * 2 ^ (Nat.log2 d : ℤ) := by
          rw [← zpow_add₀ (by norm_num)]; congr 1; ring
      _ ≤ _ := mul_le_mul_of_nonneg_left h3 (p2 _).le
  have low : (2 : ℚ) ^ ((Nat.log2 a : ℤ) - (Nat.log2 d : ℤ) - 1) < x := by
    rw [hxa, lt_div_iff₀ hd]
    refine lt_of_lt_of_le ?_ h1
    calc (2 : ℚ) ^ ((Nat.log2 a : ℤ) - (Nat.log2 d : ℤ) - 1) * d
        < 2 ^ ((Nat.log2 a : ℤ) - (Nat.log2 d : ℤ) - 1) * 2 ^ ((Nat.log2 d : ℤ) + 1) :=
          mul_lt_mul_of_pos_left h4 (p2 _)
      _ = 2 ^ (Nat.log2 a : ℤ) := by rw [← zpow_add₀ (by norm_num)]; congr 1; ring
  unfold expo
  dsimp only
  rw [← ha, ← hd']
  split
  · rename_i h
    exact ⟨h, up⟩
  · rename_i h
    refine ⟨low.le, ?_⟩
    rw [sub_add_cancel]
    exact not_le.1 h

theorem expo_unique {x : ℚ} {e : ℤ} (h1 : (2 : ℚ) ^ e ≤ x) (h2 : x < 2 ^ (e + 1)) : expo x = e := by
  have hx : 0 < x := (zpow_pos (by norm_num) e).trans_le h1
  obtain ⟨h3, h4⟩ := expo_spec hx
  have a : expo x < e + 1 := (zpow_lt_zpow_iff_right₀ (by norm_num : (1 : ℚ) < 2)).1 (h3.trans_lt h2)
  have b : e < expo x + 1 := (zpow_lt_zpow_iff_right₀ (by norm_num : (1 : ℚ) < 2)).1 (h1.trans_lt h4)
  omega

theorem expo_mono {x y : ℚ} (hx : 0 < x) (h : x ≤ y) : expo x ≤ expo y := by
  have h1 := (expo_spec hx).1
  have h2 := (expo_spec (hx.trans_le h)).2
  have : expo x < expo y + 1 :=
    (zpow_lt_zpow_iff_right₀ (by norm_num : (1 : ℚ) < 2)).1 (h1.trans_lt (h.trans_lt h2))
  omega

theorem roundEven_mono : Monotone roundEven := by
  intro x y h
  have hf : ⌊x⌋ ≤ ⌊y⌋ := Int.floor_le_floor h
  have b : ∀ z : ℚ, ⌊z⌋ ≤ roundEven z ∧ roundEven z ≤ ⌊z⌋ + 1 := by
    intro z
    unfold roundEven
    split_ifs <;> constructor <;> omega
  rcases hf.lt_or_eq with hf | hf
  · have h1 := (b x).2
    have h2 := (b y).1
    omega
  · unfold roundEven
    rw [hf]
    split_ifs <;> first | omega | (exfalso; linarith)

theorem roundEven_intCast (z : ℤ) : roundEven (z : ℚ) = z := by
  unfold roundEven
  rw [Int.floor_intCast, sub_self, if_pos (by norm_num)]

theorem roundEven_near (x : ℚ) : |(roundEven x : ℚ) - x| ≤ 1 / 2 := by
  have h1 := Int.floor_le x
  have h2 := Int.lt_floor_add_one x
  unfold roundEven
  rw [abs_le]
  split_ifs <;> push_cast <;> constructor <;> linarith

theorem fl64pos_bounds {x : ℚ} (hx : 0 < x) :
    (2 : ℚ) ^ expo x ≤ fl64pos x ∧ fl64pos x ≤ 2 ^ (expo x + 1) := by
  obtain ⟨h1, h2⟩ := expo_spec hx
  set q : ℚ := 2 ^ (expo x - 52) with hq
  have hq0 : 0 < q := zpow_pos (by norm_num) _
  have e1 : (2 : ℚ) ^ expo x = ((2 ^ 52 : ℤ) : ℚ) * q := zpow_split _
  have e2 : (2 : ℚ) ^ (expo x + 1) = ((2 ^ 53 : ℤ) : ℚ) * q := zpow_split' _
  have m1 := roundEven_mono (show ((2 ^ 52 : ℤ) : ℚ) ≤ x / q by rw [le_div_iff₀ hq0, ← e1]; exact h1)
  have m2 := roundEven_mono (show x / q ≤ ((2 ^ 53 : ℤ) : ℚ) by rw [div_le_iff₀ hq0, ← e2]; exact h2.le)
  rw [roundEven_intCast] at m1 m2
  unfold fl64pos
  rw [← hq, e1, e2]
  exact ⟨mul_le_mul_of_nonneg_right (by exact_mod_cast m1) hq0.le,
    mul_le_mul_of_nonneg_right (by exact_mod_cast m2) hq0.le⟩

theorem fl64pos_pos {x : ℚ} (hx : 0 < x) : 0 < fl64pos x :=
  (zpow_pos (by norm_num) _).trans_le (fl64pos_bounds hx).1

theorem fl64pos_mono {x y : ℚ} (hx : 0 < x) (h : x ≤ y) : fl64pos x ≤ fl64pos y := by
  rcases (expo_mono hx h).lt_or_eq with he | he
  · refine (fl64pos_bounds hx).2.trans (le_trans ?_ (fl64pos_bounds (hx.trans_le h)).1)
    exact zpow_le_zpow_right₀ (by norm_num) (by omega)
  · unfold fl64pos
    rw [he]
    have hq0 : (0 : ℚ) < 2 ^ (expo y - 52) := zpow_pos (by norm_num) _
    refine mul_le_mul_of_nonneg_right ?_ hq0.le
    exact_mod_cast roundEven_mono (div_le_div_of_nonneg_right h hq0.le)

/-- The relative error is at most `2⁻⁵³`. -/
theorem fl64pos_error {x : ℚ} (hx : 0 < x) : |fl64pos x - x| ≤ 1 / 2 ^ 53 * x := by
  have hq0 : (0 : ℚ) < 2 ^ (expo x - 52) := zpow_pos (by norm_num) _
  have h := roundEven_near (x / 2 ^ (expo x - 52))
  have e : fl64pos x - x = (roundEven (x / 2 ^ (expo x - 52)) - x / 2 ^ (expo x - 52))
      * 2 ^ (expo x - 52) := by
    unfold fl64pos; field_simp
  rw [e, abs_mul, abs_of_pos hq0]
  calc _ ≤ 1 / 2 * (2 : ℚ) ^ (expo x - 52) := mul_le_mul_of_nonneg_right h hq0.le
    _ = 1 / 2 ^ 53 * 2 ^ expo x := by
      rw [zpow_sub₀ (by norm_num)]
      norm_num
      ring
    _ ≤ _ := mul_le_mul_of_nonneg_left (expo_spec hx).1 (by norm_num)

/-- Every integer multiple of `2 ^ (e - 52)` in a binade is kept. -/
theorem fl64pos_fix {m : ℤ} {e : ℤ} (h1 : 2 ^ 52 ≤ m) (h2 : m ≤ 2 ^ 53) :
    fl64pos (m * 2 ^ (e - 52)) = m * 2 ^ (e - 52) := by
  have q : ∀ f : ℤ, (0 : ℚ) < 2 ^ (f - 52) := fun f => zpow_pos (by norm_num) _
  have key : ∀ (m : ℤ) (e : ℤ), 2 ^ 52 ≤ m → m < 2 ^ 53 →
      fl64pos (m * 2 ^ (e - 52)) = m * 2 ^ (e - 52) := by
    intro m e h1 h2
    have hx : expo ((m : ℚ) * 2 ^ (e - 52)) = e := by
      refine expo_unique ?_ ?_
      · rw [zpow_split e]
        exact mul_le_mul_of_nonneg_right (by exact_mod_cast h1) (q e).le
      · rw [zpow_split' e]
        exact mul_lt_mul_of_pos_right (by exact_mod_cast h2) (q e)
    unfold fl64pos
    rw [hx, mul_div_assoc, div_self (q e).ne', mul_one, roundEven_intCast]
  rcases h2.lt_or_eq with h2 | rfl
  · exact key m e h1 h2
  · have : ((2 ^ 53 : ℤ) : ℚ) * 2 ^ (e - 52) = ((2 ^ 52 : ℤ) : ℚ) * 2 ^ (e + 1 - 52) := by
      push_cast
      rw [show e + 1 - 52 = (e - 52) + 1 by ring, zpow_add_one₀ (by norm_num)]
      ring
    rw [this]
    exact key _ _ (le_refl _) (by norm_num)

theorem fl64pos_idem {x : ℚ} (hx : 0 < x) : fl64pos (fl64pos x) = fl64pos x := by
  have hq0 : (0 : ℚ) < 2 ^ (expo x - 52) := zpow_pos (by norm_num) _
  obtain ⟨h1, h2⟩ := fl64pos_bounds hx
  have e1 : (2 : ℚ) ^ expo x = ((2 ^ 52 : ℤ) : ℚ) * 2 ^ (expo x - 52) := zpow_split _
  have e2 : (2 : ℚ) ^ (expo x + 1) = ((2 ^ 53 : ℤ) : ℚ) * 2 ^ (expo x - 52) := zpow_split' _
  have hm : fl64pos x = (roundEven (x / 2 ^ (expo x - 52)) : ℚ) * 2 ^ (expo x - 52) := rfl
  rw [hm, e1] at h1
  rw [hm, e2] at h2
  conv_lhs => rw [hm]
  rw [fl64pos_fix, ← hm]
  · exact_mod_cast le_of_mul_le_mul_right h1 hq0
  · exact_mod_cast le_of_mul_le_mul_right h2 hq0

theorem fl64_of_pos {x : ℚ} (h : 0 < x) : fl64 x = fl64pos x := if_pos h

theorem fl64_zero : fl64 0 = 0 := by simp [fl64]

theorem fl64_neg (x : ℚ) : fl64 (-x) = -fl64 x := by
  unfold fl64
  rcases lt_trichotomy x 0 with h | rfl | h
  · rw [if_pos (by linarith), if_neg (by linarith), if_pos h, neg_neg]
  · simp
  · rw [if_neg (by linarith), if_pos (by linarith), if_pos h, neg_neg]

theorem fl64_mono_pos {x y : ℚ} (hx : 0 < x) (h : x ≤ y) : fl64 x ≤ fl64 y := by
  rw [fl64_of_pos hx, fl64_of_pos (hx.trans_le h)]
  exact fl64pos_mono hx h

theorem fl64_pos {x : ℚ} (h : 0 < x) : 0 < fl64 x := by rw [fl64_of_pos h]; exact fl64pos_pos h

/-- Rounding to double precision is a rounding function. -/
theorem rounding_fl64 : Rounding fl64 where
  mono := by
    intro x y h
    rcases lt_trichotomy 0 x with hx | rfl | hx
    · exact fl64_mono_pos hx h
    · rw [fl64_zero]
      rcases h.lt_or_eq with h | rfl
      · exact (fl64_pos h).le
      · rw [fl64_zero]
    · have nx : fl64 x = -fl64 (-x) := by rw [fl64_neg, neg_neg]
      rcases lt_trichotomy 0 y with hy | rfl | hy
      · have := fl64_pos hy
        have := fl64_pos (neg_pos.2 hx)
        linarith
      · have := fl64_pos (neg_pos.2 hx)
        rw [fl64_zero]; linarith
      · have ny : fl64 y = -fl64 (-y) := by rw [fl64_neg, neg_neg]
        rw [nx, ny]
        exact neg_le_neg (fl64_mono_pos (neg_pos.2 hy) (neg_le_neg h))
  neg := fl64_neg
  one := by decide +kernel
  idem := by
    intro x
    rcases lt_trichotomy 0 x with hx | rfl | hx
    · rw [fl64_of_pos hx, fl64_of_pos (fl64pos_pos hx), fl64pos_idem hx]
    · rw [fl64_zero, fl64_zero]
    · have nx : fl64 x = -fl64 (-x) := by rw [fl64_neg, neg_neg]
      rw [nx, fl64_neg, fl64_of_pos (neg_pos.2 hx), fl64_of_pos (fl64pos_pos (neg_pos.2 hx)),
        fl64pos_idem (neg_pos.2 hx)]

theorem accurate_fl64 : Accurate (1 - 1 / 2 ^ 53) fl64 where
  pos := by norm_num
  le_one := by norm_num
  lower := by
    intro x hx
    rcases hx.lt_or_eq with hx | rfl
    · rw [fl64_of_pos hx]
      have := (abs_le.1 (fl64pos_error hx)).1
      linarith
    · rw [fl64_zero, mul_zero]
  upper := by
    intro x hx
    rcases hx.lt_or_eq with hx | rfl
    · rw [fl64_of_pos hx]
      have := (abs_le.1 (fl64pos_error hx)).2
      have h2 : (1 - 1 / 2 ^ 53 : ℚ) * fl64pos x ≤ (1 - 1 / 2 ^ 53) * ((1 + 1 / 2 ^ 53) * x) :=
        mul_le_mul_of_nonneg_left (by linarith) (by norm_num)
      refine h2.trans ?_
      rw [← mul_assoc]
      have : (1 - 1 / 2 ^ 53 : ℚ) * (1 + 1 / 2 ^ 53) ≤ 1 := by norm_num
      nlinarith
    · rw [fl64_zero, mul_zero]

/-- One third, one tenth and their sum in double precision. -/
example : fl64 (1 / 3) = 6004799503160661 / 2 ^ 54 ∧ fl64 (1 / 10) = 3602879701896397 / 2 ^ 55 ∧
    fl64 (fl64 (1 / 10) + fl64 (2 / 10)) ≠ fl64 (3 / 10) ∧ fl64 (-3 / 4) = -3 / 4 := by decide +kernel

/-- No double lies strictly between `1 - 2^-53` and `1`. -/
theorem no_double_below_one {x : ℚ} (h1 : 1 - 1 / 2 ^ 53 < x) (h2 : x < 1) (h : fl64 x = x) : False := by
  have hx : 0 < x := lt_trans (by norm_num) h1
  have he : expo x = -1 := expo_unique (le_trans (by norm_num) h1.le) (by simpa using h2)
  rw [fl64_of_pos hx, fl64pos, he] at h
  have e : ((2 : ℚ) ^ ((-1 : ℤ) - 52)) = 1 / 2 ^ 53 := by norm_num
  rw [e] at h
  set r := roundEven (x / (1 / 2 ^ 53)) with hr
  rw [← h] at h1 h2
  have a1 : ((2 ^ 53 - 1 : ℤ) : ℚ) < r := by push_cast; linarith
  have a2 : (r : ℚ) < ((2 ^ 53 : ℤ) : ℚ) := by push_cast; linarith
  have b1 : (2 ^ 53 - 1 : ℤ) < r := by exact_mod_cast a1
  have b2 : r < (2 ^ 53 : ℤ) := by exact_mod_cast a2
  omega

theorem double_near_one {x : ℚ} (h1 : 1 - 1 / 2 ^ 53 ≤ x) (h2 : x ≤ 1) (h : fl64 x = x) :
    x = 1 ∨ x = 1 - 1 / 2 ^ 53 := by
  by_contra hc
  rw [not_or] at hc
  exact no_double_below_one (lt_of_le_of_ne h1 (Ne.symm hc.2)) (lt_of_le_of_ne h2 hc.1) h

/-! ## `fl64` returns the nearest double -/

theorem roundEven_nearest (x : ℚ) (k : ℤ) : |(roundEven x : ℚ) - x| ≤ |(k : ℚ) - x| := by
  have f1 := Int.floor_le x
  have f2 := Int.lt_floor_add_one x
  set m := ⌊x⌋ with hm
  have key : ∀ r : ℤ, (r = m ∧ x - m ≤ 1 / 2) ∨ (r = m + 1 ∧ 1 / 2 ≤ x - m) →
      |(r : ℚ) - x| ≤ |(k : ℚ) - x| := by
    intro r hr
    rcases le_or_gt k m with h | h
    · have hq : (k : ℚ) ≤ m := by exact_mod_cast h
      rw [abs_of_nonpos (a := (k : ℚ) - x) (by linarith), abs_le]
      rcases hr with ⟨rfl, h1⟩ | ⟨rfl, h1⟩
      · constructor <;> linarith
      · push_cast; constructor <;> linarith
    · have hq : (m : ℚ) + 1 ≤ k := by exact_mod_cast h
      rw [abs_of_nonneg (a := (k : ℚ) - x) (by linarith), abs_le]
      rcases hr with ⟨rfl, h1⟩ | ⟨rfl, h1⟩
      · constructor <;> linarith
      · push_cast; constructor <;> linarith
  apply key
  unfold roundEven
  rw [← hm]
  split
  · left; exact ⟨rfl, by linarith⟩
  · split
    · right; exact ⟨rfl, by linarith⟩
    · split
      · left; exact ⟨rfl, by linarith⟩
      · right; exact ⟨rfl, by linarith⟩

/-- `fl64 x` is a double, and no double is nearer to `x`. -/
theorem fl64_nearest_pos {x y : ℚ} (hx : 0 < x) (hy : fl64 y = y) : |fl64 x - x| ≤ |y - x| := by
  obtain ⟨e1, e2⟩ := expo_spec hx
  set q : ℚ := 2 ^ (expo x - 52) with hq
  have q0 : 0 < q := zpow_pos (by norm_num) _
  have e3 : fl64 x = roundEven (x / q) * q := by rw [fl64_of_pos hx, fl64pos]
  have key : ∀ k : ℤ, |fl64 x - x| ≤ |(k : ℚ) * q - x| := by
    intro k
    have h := mul_le_mul_of_nonneg_right (roundEven_nearest (x / q) k) q0.le
    rw [← abs_of_pos q0, ← abs_mul, ← abs_mul, abs_of_pos q0, sub_mul, sub_mul, div_mul_cancel₀ _ q0.ne'] at h
    rw [e3]; exact h
  have e4 : (2 : ℚ) ^ expo x = ((2 ^ 52 : ℤ) : ℚ) * q := zpow_split _
  -- numbers below the binade of `x` are farther away than its least element
  have low : y ≤ 2 ^ expo x → |fl64 x - x| ≤ |y - x| := by
    intro h
    refine (key (2 ^ 52)).trans ?_
    rw [← e4, abs_of_nonpos (by linarith), abs_of_nonpos (by linarith)]
    linarith
  rcases le_or_gt y 0 with h | h
  · exact low (h.trans (zpow_pos (by norm_num) _).le)
  rcases lt_or_ge (expo y) (expo x) with hlt | hge
  · refine low ((expo_spec h).2.le.trans ?_)
    exact zpow_le_zpow_right₀ (by norm_num) (by omega)
  · obtain ⟨R, hR⟩ : ∃ R : ℤ, y = R * 2 ^ (expo y - 52) :=
      ⟨roundEven (y / 2 ^ (expo y - 52)), by conv_lhs => rw [← hy, fl64_of_pos h, fl64pos]⟩
    obtain ⟨d, hd⟩ : ∃ d : ℕ, expo y - 52 = d + (expo x - 52) := ⟨(expo y - expo x).toNat, by omega⟩
    have hy3 : y = ((R * 2 ^ d : ℤ) : ℚ) * q := by
      rw [hd, zpow_add₀ (by norm_num), zpow_natCast] at hR
      rw [hq]
      push_cast
      rw [mul_assoc]
      exact hR
    rw [hy3]
    exact key _

theorem fl64_nearest (x : ℚ) {y : ℚ} (hy : fl64 y = y) : |fl64 x - x| ≤ |y - x| := by
  rcases lt_trichotomy x 0 with h | rfl | h
  · have := fl64_nearest_pos (x := -x) (y := -y) (by linarith) (by rw [fl64_neg, hy])
    rw [fl64_neg] at this
    rwa [← neg_sub', abs_neg, ← neg_sub', abs_neg] at this
  · rw [fl64_zero]; simp
  · exact fl64_nearest_pos h hy

/-- Ties are rounded to even: `2^53 + 1` down, `2^53 + 3` up; and `0.1` as Python prints it exactly. -/
example : fl64 (2 ^ 53 + 1) = 2 ^ 53 ∧ fl64 (2 ^ 53 + 3) = 2 ^ 53 + 4 ∧ fl64 (-(2 ^ 53 + 1)) = -2 ^ 53 ∧
    fl64 (1 / 10) = 3602879701896397 / 2 ^ 55 := by decide +kernel

end PySpline
