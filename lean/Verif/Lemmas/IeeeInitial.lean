import Verif.Lemmas.IeeeKnotRuns
import Verif.Props.KnotsDouble

/-!
# The initial curve in double precision
-/

set_option linter.unusedSectionVars false
set_option exponentiation.threshold 1100

namespace PySpline

open Spec Ext Finset

theorem bin64_normal {x : ℚ} (h : x = 0 ∨ (2 : ℚ) ^ (-1022 : ℤ) ≤ x) (h1 : x ≤ 2 ^ 1023) : bin64 x = fin (fl64 x) := by
  rcases h with rfl | h
  · rw [bin64_le le_rfl (by positivity), fl64s_zero, fl64_zero]
  · rw [bin64_le ((zpow_pos (by norm_num) _).le.trans h) h1, fl64s_normal h]

theorem bin64_stored {x y : ℚ} (h : bin64 x = fin y) : bin64 y = fin y := by
  obtain ⟨rfl, h1⟩ := bin64_eq_fin h
  have h2 : |fl64s (fl64s x)| < 2 ^ 1024 := by rw [fl64s_idem]; exact h1
  rw [bin64_fin h2, fl64s_idem]

/-- `np.linspace(0, 1, num)` in double precision: nothing underflows. -/
theorem linspace01R_bin64 {num : ℤ} (h : 2 ≤ num) (h' : num ≤ 2 ^ 50) :
    ∃ L, linspace01Fl fl64 num = .ok L ∧ linspace01R bin64 num = .ok (lift1 L) ∧ ∀ x ∈ L, bin64 x = fin x := by
  have hsmall : (2 : ℚ) ^ (-1022 : ℤ) ≤ 1 / 2 ^ 60 := by
    rw [zpow_neg, one_div]
    exact inv_anti₀ (by positivity) (by exact_mod_cast pow_le_pow_right₀ (by norm_num) (show 60 ≤ 1022 by norm_num))
  have hbig : (2 : ℚ) ^ 60 ≤ 2 ^ 1023 := pow_le_pow_right₀ (by norm_num) (by norm_num)
  have hq : (2 : ℚ) ≤ num := by exact_mod_cast h
  have hq' : (num : ℚ) ≤ 2 ^ 50 := by exact_mod_cast h'
  have hpos : (0 : ℚ) < (num : ℚ) - 1 := by linarith
  have d0 : (1 : ℚ) / 2 ^ 50 ≤ 1 / ((num : ℚ) - 1) := one_div_le_one_div_of_le hpos (by linarith)
  have d1 : 1 / ((num : ℚ) - 1) ≤ 1 := by rw [div_le_one hpos]; linarith
  have s0 := fl64_lower (x := 1 / ((num : ℚ) - 1)) (by positivity)
  have s1 := fl64_upper (x := 1 / ((num : ℚ) - 1)) (by positivity)
  set st := fl64 (1 / ((num : ℚ) - 1)) with hst
  have t0 : (1 : ℚ) / 2 ^ 60 ≤ st := le_trans (by norm_num at *; linarith) s0
  have t1 : st ≤ 2 := s1.trans (by norm_num at *; linarith)
  have hstep : rnd bin64 (1 / fin ((num : ℚ) - 1)) = fin st := by
    show rnd bin64 (fin 1 / fin ((num : ℚ) - 1)) = _
    rw [fin_div _ hpos.ne']
    exact bin64_normal (Or.inr (hsmall.trans (le_trans (by norm_num) d0))) (d1.trans (le_trans (by norm_num) hbig))
  have ent : ∀ i : ℕ, i < num.toNat → rnd bin64 (fin (i : ℚ) * fin st) = fin (fl64 ((i : ℚ) * st)) := by
    intro i hi
    have hiq : (i : ℚ) ≤ 2 ^ 50 := by
      have : (i : ℤ) ≤ 2 ^ 50 := by omega
      exact_mod_cast this
    refine bin64_normal ?_ ?_
    · rcases Nat.eq_zero_or_pos i with rfl | hp
      · left; simp
      · right
        have : (1 : ℚ) ≤ i := by exact_mod_cast hp
        have hst0 : 0 ≤ st := le_trans (by positivity) t0
        exact hsmall.trans (t0.trans (by nlinarith))
    · have hst0 : 0 ≤ st := le_trans (by positivity) t0
      have hi0 : (0 : ℚ) ≤ i := Nat.cast_nonneg i
      calc (i : ℚ) * st ≤ 2 ^ 50 * 2 := mul_le_mul hiq t1 hst0 (by positivity)
        _ ≤ 2 ^ 60 := by norm_num
        _ ≤ 2 ^ 1023 := hbig
  refine ⟨(List.range num.toNat).map fun (i : ℕ) => if i + 1 = num.toNat then 1 else fl64 ((i : ℚ) * st), ?_, ?_, ?_⟩
  · unfold linspace01Fl
    rw [if_neg (by omega), if_neg (by omega)]
  · unfold linspace01R
    rw [if_neg (by omega), if_neg (by omega), hstep]
    show _ = Except.ok (List.map fin _)
    rw [List.map_map]
    congr 1
    refine List.map_congr_left fun i hi => ?_
    have hi := List.mem_range.1 hi
    show (if i + 1 = num.toNat then 1 else rnd bin64 (fin (i : ℚ) * fin st))
      = fin (if i + 1 = num.toNat then 1 else fl64 ((i : ℚ) * st))
    split
    · rfl
    · exact ent i hi
  · intro x hx
    obtain ⟨i, hi, rfl⟩ := List.mem_map.1 hx
    have hi := List.mem_range.1 hi
    show bin64 (if i + 1 = num.toNat then 1 else fl64 ((i : ℚ) * st))
      = fin (if i + 1 = num.toNat then 1 else fl64 ((i : ℚ) * st))
    split
    · rw [bin64_normal (Or.inr (hsmall.trans (by norm_num))) (le_trans (by norm_num) hbig)]
      exact congrArg fin (by exact_mod_cast fl64_natCast (m := 1) (by norm_num))
    · exact bin64_stored (ent i hi)

/-- `generate_uniform` in double precision: the same numbers as without underflow. -/
theorem generateUniformR_bin64 {p n : ℕ} (h : p < n) (hn : n ≤ 2 ^ 49) :
    ∃ U, generateUniformFl fl64 p n = .ok U ∧ generateUniformR bin64 p n = .ok (lift1 U) ∧ ∀ x ∈ U, bin64 x = fin x := by
  obtain ⟨L, h1, h2, h3⟩ := linspace01R_bin64 (num := (n : ℤ) + p + 1 - 2 * p) (by omega) (by omega)
  refine ⟨zeros p ++ L ++ ones p, ?_, ?_, ?_⟩
  · unfold generateUniformFl
    dsimp only
    rw [h1, ok_bind]
  · unfold generateUniformR
    dsimp only
    rw [h2, ok_bind]
    show _ = Except.ok (List.map fin _)
    rw [List.map_append, List.map_append]
    unfold zeros ones
    rw [List.map_replicate, List.map_replicate]
    rfl
  · have b0 : bin64 0 = fin 0 := by rw [bin64_normal (Or.inl rfl) (by positivity), fl64_zero]
    have b1 : bin64 1 = fin 1 := by
      have : (1 : ℚ) ≤ 2 ^ 1023 := one_le_pow₀ (by norm_num)
      rw [bin64_normal (Or.inr _) this]
      · exact congrArg fin (by exact_mod_cast fl64_natCast (m := 1) (by norm_num))
      · rw [zpow_neg]
        exact inv_le_one_of_one_le₀ (by exact_mod_cast Nat.one_le_two_pow)
    intro x hx
    rcases List.mem_append.1 hx with hx | hx
    · rcases List.mem_append.1 hx with hx | hx
      · rw [List.eq_of_mem_replicate hx]; exact b0
      · exact h3 x hx
    · rw [List.eq_of_mem_replicate hx]; exact b1

theorem fl64s_error (x : ℚ) : |fl64s x - x| ≤ 1 / 2 ^ 52 * |x| + 1 / 2 ^ 1074 := by
  have e : (1 : ℚ) / 2 ^ 1074 = 2 * (1 / 2 ^ 1075) := by
    rw [show (2 : ℚ) ^ 1075 = 2 ^ 1074 * 2 from pow_succ 2 1074]
    field_simp
  have main : ∀ x f t : ℚ, 0 ≤ x → 0 ≤ t → x * (1 - 1 / 2 ^ 53) ≤ f + t → f * (1 - 1 / 2 ^ 53) ≤ x + t →
      |f - x| ≤ 1 / 2 ^ 52 * x + 2 * t := by
    intro x f t hx ht h1 h2
    norm_num at h1 h2 ⊢
    rw [abs_le]
    constructor <;> linarith
  have e0 : (0 : ℚ) ≤ 1 / 2 ^ 1075 := by positivity
  rw [e]
  rcases le_total 0 x with h | h
  · have hh := fl64s_near h
    rw [abs_of_nonneg h]
    exact main x _ _ h e0 hh.1 hh.2
  · have hh := fl64s_near (x := -x) (by linarith)
    have := main (-x) _ _ (by linarith) e0 hh.1 hh.2
    rw [fl64s_neg, show -fl64s x - -x = -(fl64s x - x) by ring, abs_neg] at this
    rw [abs_of_nonpos h]
    exact this

/-- An inner entry of `np.linspace` in double precision, whichever of its two formulas is used. -/
theorem linspaceR_entry {a b M : ℚ} {i n : ℕ} (ha : |a| ≤ M) (hb : |b| ≤ M) (hM0 : 1 / 2 ^ 1000 ≤ M) (hM1 : M ≤ 2 ^ 1019)
    (hi : i + 1 < n) (hn' : n ≤ 2 ^ 20) :
    ∃ w, (if eqv (rnd bin64 (rnd bin64 (fin b - fin a) / fin ((n : ℚ) - 1))) 0 then
        rnd bin64 (rnd bin64 (rnd bin64 (fin (i : ℚ) / fin ((n : ℚ) - 1)) * rnd bin64 (fin b - fin a)) + fin a)
      else rnd bin64 (rnd bin64 (fin (i : ℚ) * rnd bin64 (rnd bin64 (fin b - fin a) / fin ((n : ℚ) - 1))) + fin a))
        = fin w ∧ bin64 w = fin w ∧ |w - (a + (i : ℚ) / ((n : ℚ) - 1) * (b - a))| ≤ M / 2 ^ 47 ∧
      (i = 0 → bin64 a = fin a → w = a) := by
  have hiK : (i : ℚ) + 1 < n := by exact_mod_cast hi
  have hnK : (n : ℚ) ≤ 2 ^ 20 := by exact_mod_cast hn'
  have hi0 : (0 : ℚ) ≤ i := Nat.cast_nonneg i
  have hn : (0 : ℚ) < (n : ℚ) - 1 := by linarith
  have hM : 0 < M := lt_of_lt_of_le (by positivity) hM0
  set r : ℚ := (i : ℚ) / ((n : ℚ) - 1) with hr
  have hr0 : 0 ≤ r := by positivity
  have hr1 : r ≤ 1 := by rw [hr, div_le_one hn]; linarith
  set d := b - a with hd
  have hdM : |d| ≤ 2 * M := by
    rw [hd, sub_eq_add_neg]
    refine (abs_add_le _ _).trans ?_
    rw [abs_neg]; linarith
  have hbig : ∀ x : ℚ, |x| ≤ 16 * M → bin64 x = fin (fl64s x) := fun x hx => by
    refine bin64_abs_le (hx.trans ?_)
    calc 16 * M ≤ 2 ^ 4 * 2 ^ 1019 := by linarith
      _ = 2 ^ 1023 := by rw [← pow_add]
  have htau : (1 : ℚ) / 2 ^ 1074 ≤ 1 / 2 ^ 52 * (M / 2 ^ 22) := by
    have e : (2 : ℚ) ^ 1074 = 2 ^ 52 * (2 ^ 1000 * 2 ^ 22) := by rw [← pow_add, ← pow_add]
    have : (1 : ℚ) / 2 ^ 1074 = 1 / 2 ^ 52 * (1 / 2 ^ 1000 / 2 ^ 22) := by
      rw [e, ← one_div_mul_one_div, ← one_div_mul_one_div, div_eq_mul_one_div (1 / 2 ^ 1000 : ℚ)]
    rw [this]
    exact mul_le_mul_of_nonneg_left (div_le_div_of_nonneg_right hM0 (by positivity)) (by positivity)
  have htau1 : (1 : ℚ) / 2 ^ 1074 ≤ 1 / 2 ^ 52 :=
    one_div_le_one_div_of_le (by positivity) (pow_le_pow_right₀ (by norm_num) (by norm_num))
  have hbr : bin64 r = fin (fl64s r) := bin64_le hr0 (hr1.trans (one_le_pow₀ (by norm_num)))
  have acc0 := fl64s_error
  have idem := fl64s_idem
  have zero := fl64s_zero
  have fa : bin64 a = fin a → fl64s a = a := fun h => (bin64_eq_fin h).1.symm
  generalize fl64s = f at hbig acc0 idem zero fa hbr
  generalize (1 : ℚ) / 2 ^ 1074 = τ at htau htau1 acc0
  set v : ℚ := 1 / 2 ^ 52 with hv
  clear_value v
  have hv0 : 0 ≤ v := by positivity
  have acc : ∀ x, |f x - x| ≤ v * (|x| + M / 2 ^ 22) := fun x => (acc0 x).trans (by rw [mul_add]; linarith)
  have size : ∀ x y e : ℚ, |x - y| ≤ e → |x| ≤ |y| + e := fun x y e h => by
    have := abs_add_le (x - y) y
    rw [sub_add_cancel] at this
    linarith
  have brd : |r * d| ≤ 2 * M := by
    rw [abs_mul, abs_of_nonneg hr0]
    exact (mul_le_mul hr1 hdM (abs_nonneg _) zero_le_one).trans (by rw [one_mul])
  have bx : |a + r * d| ≤ M := by
    have h : a + r * d = (1 - r) * a + r * b := by rw [hd]; ring
    rw [abs_le] at ha hb ⊢
    have q1 := mul_le_mul_of_nonneg_left ha.1 (sub_nonneg.2 hr1)
    have q2 := mul_le_mul_of_nonneg_left ha.2 (sub_nonneg.2 hr1)
    have q3 := mul_le_mul_of_nonneg_left hb.1 hr0
    have q4 := mul_le_mul_of_nonneg_left hb.2 hr0
    rw [h]
    constructor <;> linarith
  -- the difference
  have E1 : rnd bin64 (fin b - fin a) = fin (f d) := hbig d (by linarith)
  have e1 := acc d
  set x1 := f d with hx1
  have e1' : |x1 - d| ≤ 3 * v * M := e1.trans (by
    have : |d| + M / 2 ^ 22 ≤ 3 * M := by norm_num; linarith
    linarith [mul_le_mul_of_nonneg_left this hv0])
  have hvM : v * M ≤ M / 1024 := by rw [hv]; norm_num; linarith
  have b1 : |x1| ≤ 3 * M := (size x1 d _ e1').trans (by linarith)
  have e1r : |r * x1 - r * d| ≤ 3 * v * M := by
    rw [← mul_sub, abs_mul, abs_of_nonneg hr0]
    exact (mul_le_mul hr1 e1' (abs_nonneg _) zero_le_one).trans (by rw [one_mul])
  -- the last two operations
  have last : ∀ y, |y - r * x1| ≤ 7 * v * M → ∃ w, rnd bin64 (rnd bin64 (fin y) + fin a) = fin w ∧ bin64 w = fin w ∧
      |w - (a + r * d)| ≤ M / 2 ^ 47 ∧ (y = 0 → bin64 a = fin a → w = a) := by
    intro y hy
    have hyd : |y - r * d| ≤ 10 * v * M := by
      have := abs_add_le (y - r * x1) (r * x1 - r * d)
      rw [sub_add_sub_cancel] at this
      linarith
    have by' : |y| ≤ 3 * M := (size y _ _ hyd).trans (by linarith)
    have e3 := acc y
    have e3' : |f y - y| ≤ 4 * v * M := e3.trans (by
      have : |y| + M / 2 ^ 22 ≤ 4 * M := by norm_num; linarith
      linarith [mul_le_mul_of_nonneg_left this hv0])
    have e4 : |f y + a - (a + r * d)| ≤ 14 * v * M := by
      have := abs_add_le (f y - y) (y - r * d)
      rw [sub_add_sub_cancel] at this
      rw [show f y + a - (a + r * d) = f y - r * d by ring]
      linarith
    have b4 : |f y + a| ≤ 2 * M := (size _ _ _ e4).trans (by linarith)
    have e5 := acc (f y + a)
    have e5' : |f (f y + a) - (f y + a)| ≤ 3 * v * M := e5.trans (by
      have : |f y + a| + M / 2 ^ 22 ≤ 3 * M := by norm_num; linarith
      linarith [mul_le_mul_of_nonneg_left this hv0])
    have e6 : |f (f y + a) - (a + r * d)| ≤ 17 * v * M := by
      have := abs_add_le (f (f y + a) - (f y + a)) (f y + a - (a + r * d))
      rw [sub_add_sub_cancel] at this
      linarith
    have b6 : |f (f y + a)| ≤ 2 * M := (size _ _ _ e6).trans (by linarith)
    refine ⟨f (f y + a), ?_, ?_, e6.trans ?_, ?_⟩
    · rw [show rnd bin64 (fin y) = fin (f y) from hbig y (by linarith)]
      exact hbig _ (by linarith)
    · rw [hbig _ (by linarith), idem]
    · rw [hv]; norm_num; linarith
    · rintro rfl h
      rw [zero, zero_add, fa h]
  have hx1d : |x1 / ((n : ℚ) - 1)| ≤ 3 * M := by
    rw [abs_div, abs_of_pos hn, div_le_iff₀ hn]
    have : (1 : ℚ) ≤ (n : ℚ) - 1 := by
      have : (2 : ℕ) ≤ n := by omega
      have : (2 : ℚ) ≤ n := by exact_mod_cast this
      linarith
    nlinarith
  have E2 : rnd bin64 (fin x1 / fin ((n : ℚ) - 1)) = fin (f (x1 / ((n : ℚ) - 1))) := by
    rw [fin_div _ hn.ne']
    exact hbig _ (by linarith)
  rw [E1, E2]
  have hid : (i : ℚ) / ((n : ℚ) - 1) = r := hr
  split
  · have hq : |f r - r| ≤ 2 * v := (acc0 r).trans (by
      rw [abs_of_nonneg hr0]
      have := mul_le_mul_of_nonneg_left hr1 hv0
      linarith)
    have E3 : rnd bin64 (fin (i : ℚ) / fin ((n : ℚ) - 1)) = fin (f r) := by
      rw [fin_div _ hn.ne', hid]
      exact hbr
    rw [E3]
    obtain ⟨w, h1, h2, h3, h4⟩ := last (f r * x1) (by
      rw [← sub_mul, abs_mul]
      calc |f r - r| * |x1| ≤ 2 * v * (3 * M) := mul_le_mul hq b1 (abs_nonneg _) (by positivity)
        _ ≤ 7 * v * M := by nlinarith)
    refine ⟨w, h1, h2, h3, ?_⟩
    rintro rfl
    apply h4
    rw [show r = 0 by rw [hr]; simp, zero, zero_mul]
  · set x2 := f (x1 / ((n : ℚ) - 1)) with hx2
    obtain ⟨w, h1, h2, h3, h4⟩ := last ((i : ℚ) * x2) (by
      have h : (i : ℚ) * x2 - r * x1 = i * (x2 - x1 / ((n : ℚ) - 1)) := by rw [hr]; ring
      rw [h, abs_mul, abs_of_nonneg hi0]
      have h2 := acc (x1 / ((n : ℚ) - 1))
      rw [← hx2, abs_div, abs_of_pos hn] at h2
      have h5 : (i : ℚ) * (M / 2 ^ 22) ≤ M := by
        have := mul_le_mul_of_nonneg_right (show (i : ℚ) ≤ 2 ^ 20 by linarith) hM.le
        norm_num at this ⊢
        linarith
      calc (i : ℚ) * |x2 - x1 / ((n : ℚ) - 1)| ≤ i * (v * (|x1| / ((n : ℚ) - 1) + M / 2 ^ 22)) :=
            mul_le_mul_of_nonneg_left h2 hi0
        _ = v * (r * |x1| + i * (M / 2 ^ 22)) := by rw [hr]; ring
        _ ≤ v * (1 * (3 * M) + M) :=
            mul_le_mul_of_nonneg_left (add_le_add (mul_le_mul hr1 b1 (abs_nonneg _) zero_le_one) h5) hv0
        _ ≤ 7 * v * M := by nlinarith)
    refine ⟨w, h1, h2, h3, ?_⟩
    rintro rfl
    apply h4
    rw [Nat.cast_zero, zero_mul]

/-- The curve that `initialize_curve` builds in double precision. -/
theorem initializeCurveR_bin64 {s e : List ℚ} (hs : s.length = 3) (he : e.length = 3) {p n : ℕ} (h : p < n) (hn : 2 ≤ n)
    (hn' : n ≤ 2 ^ 20) {B : ℚ} (hB0 : 1 / 2 ^ 1000 ≤ B) (hB1 : B ≤ 2 ^ 1019) (hsB : ∀ x ∈ s, bin64 x = fin x ∧ |x| ≤ B)
    (heB : ∀ x ∈ e, bin64 x = fin x ∧ |x| ≤ B) :
    ∃ c, initializeCurveR bin64 (lift1 s) (lift1 e) p n = .ok (Curve.lift c) ∧ c.degree = p ∧ Shape c.ctrlpts n 3 ∧
      generateUniformFl fl64 p n = .ok c.kv ∧ StoredCurve bin64 (2 * B) c ∧
      (∀ k < 3, coord c.ctrlpts k 0 = s.getD k 0 ∧ coord c.ctrlpts k (n - 1) = e.getD k 0) ∧
      ∀ k < 3, ∀ M, 1 / 2 ^ 1000 ≤ M → |s.getD k 0| ≤ M → |e.getD k 0| ≤ M → ∀ i < n, |coord c.ctrlpts k i
        - (s.getD k 0 + (i : ℚ) / ((n : ℚ) - 1) * (e.getD k 0 - s.getD k 0))| ≤ M / 2 ^ 47 := by
  classical
  obtain ⟨U, hU, hUR, hUst⟩ := generateUniformR_bin64 h (by omega)
  have getmem : ∀ l : List ℚ, l.length = 3 → ∀ k < 3, l.getD k 0 ∈ l := fun l hl k hk => by
    rw [List.getD_eq_getElem?_getD, List.getElem?_eq_getElem (by omega), Option.getD_some]
    exact List.getElem_mem _
  have nK : (2 : ℚ) ≤ n := by exact_mod_cast hn
  -- the entries of the three rows
  have ent : ∀ a b : ℚ, (bin64 a = fin a ∧ |a| ≤ B) → (bin64 b = fin b ∧ |b| ≤ B) → ∃ L : List ℚ, L.length = n ∧
      linspaceR bin64 (fin a) (fin b) (n : ℤ) = .ok (lift1 L) ∧ (∀ x ∈ L, bin64 x = fin x) ∧
      L.getD 0 0 = a ∧ L.getD (n - 1) 0 = b ∧
      ∀ M, 1 / 2 ^ 1000 ≤ M → |a| ≤ M → |b| ≤ M → ∀ i < n,
        |L.getD i 0 - (a + (i : ℚ) / ((n : ℚ) - 1) * (b - a))| ≤ M / 2 ^ 47 := by
    intro a b ha hb
    have hw := fun (i : ℕ) (hi : i + 1 < n) => linspaceR_entry ha.2 hb.2 hB0 hB1 hi hn'
    choose w hw1 hw2 hw3 hw4 using hw
    set g : ℕ → ℚ := fun i => if hi : i + 1 < n then w i hi else b with hg
    have glt : ∀ i (hi : i + 1 < n), g i = w i hi := fun i hi => dif_pos hi
    have glast : ∀ i, i + 1 = n → g i = b := fun i hi => dif_neg (by omega)
    have getg : ∀ i < n, ((List.range n).map g).getD i 0 = g i := fun i hi => by
      simp [List.getD_eq_getElem?_getD, hi]
    refine ⟨(List.range n).map g, by simp, ?_, ?_, ?_, ?_, ?_⟩
    · unfold linspaceR
      rw [if_neg (by omega), if_neg (by omega)]
      dsimp only
      show _ = Except.ok (List.map fin _)
      rw [List.map_map, Int.toNat_natCast]
      congr 1
      refine List.map_congr_left fun i hi => ?_
      have hi := List.mem_range.1 hi
      show _ = fin (g i)
      by_cases hl : i + 1 = n
      · rw [if_pos hl, glast i hl]
      · rw [if_neg hl, glt i (by omega), ← hw1 i (by omega), Int.cast_natCast]
    · intro x hx
      obtain ⟨i, hi, rfl⟩ := List.mem_map.1 hx
      have hi := List.mem_range.1 hi
      by_cases hl : i + 1 = n
      · rw [glast i hl]; exact hb.1
      · rw [glt i (by omega)]; exact hw2 i (by omega)
    · rw [getg 0 (by omega), glt 0 (by omega)]
      exact hw4 0 (by omega) rfl ha.1
    · rw [getg _ (by omega), glast _ (by omega)]
    · intro M hM ha' hb' i hi
      rw [getg i hi]
      by_cases hl : i + 1 = n
      · have : (i : ℚ) = (n : ℚ) - 1 := by rw [← hl]; push_cast; ring
        rw [glast i hl, this, div_self (by intro h0; linarith), one_mul]
        simp only [add_sub_cancel, sub_self, abs_zero]
        have : 0 ≤ M := le_trans (by positivity) hM
        positivity
      · rw [glt i (by omega)]
        rcases le_total M B with hMB | hMB
        · obtain ⟨w', q1, -, q3, -⟩ := linspaceR_entry ha' hb' hM (hMB.trans hB1) (show i + 1 < n by omega) hn'
          rw [hw1 i (by omega)] at q1
          cases q1
          exact q3
        · exact (hw3 i (by omega)).trans (div_le_div_of_nonneg_right hMB (by positivity))
  obtain ⟨L0, l0, r0, s0, f0, g0, v0⟩ := ent _ _ (hsB _ (getmem s hs 0 (by omega))) (heB _ (getmem e he 0 (by omega)))
  obtain ⟨L1, l1, r1, s1, f1, g1, v1⟩ := ent _ _ (hsB _ (getmem s hs 1 (by omega))) (heB _ (getmem e he 1 (by omega)))
  obtain ⟨L2, l2, r2, s2, f2, g2, v2⟩ := ent _ _ (hsB _ (getmem s hs 2 (by omega))) (heB _ (getmem e he 2 (by omega)))
  set pts := (List.range n).map fun i => [L0.getD i 0, L1.getD i 0, L2.getD i 0] with hpts
  have lpts : pts.length = n := by simp [hpts]
  have hS : Shape pts n 3 := ⟨lpts, fun row hrow => by obtain ⟨i, -, rfl⟩ := List.mem_map.1 hrow; rfl⟩
  have hrow : ∀ i < n, pts.getD i [] = [L0.getD i 0, L1.getD i 0, L2.getD i 0] := fun i hi => by
    rw [hpts, List.getD_eq_getElem?_getD]
    simp [hi]
  have get : ∀ l : List ℚ, l.length = 3 → ∀ (j : ℤ) (k : ℕ), j = k → k < 3 → pyGet (lift1 l) j = .ok (fin (l.getD k 0)) :=
    fun l hl j k hj hk => by
      rw [pyGet_nat (lift1 l) j k (fin 0) hj (by rw [show (lift1 l).length = l.length from List.length_map _]; omega)]
      exact congrArg Except.ok (getD_lift l k)
  have hval : ∀ k < 3, ∀ M, 1 / 2 ^ 1000 ≤ M → |s.getD k 0| ≤ M → |e.getD k 0| ≤ M → ∀ i < n, |coord pts k i
      - (s.getD k 0 + (i : ℚ) / ((n : ℚ) - 1) * (e.getD k 0 - s.getD k 0))| ≤ M / 2 ^ 47 := by
    intro k hk M hM a1 a2 i hi
    unfold coord
    rw [hrow i hi]
    match k, hk with
    | 0, _ => exact v0 M hM a1 a2 i hi
    | 1, _ => exact v1 M hM a1 a2 i hi
    | 2, _ => exact v2 M hM a1 a2 i hi
  have hB : 0 < B := lt_of_lt_of_le (by positivity) hB0
  refine ⟨⟨p, pts, U⟩, ?_, rfl, hS, hU, ⟨hUst, forall_mem_of_coord hS fun k hk i hi => ⟨?_, ?_⟩⟩, fun k hk => ?_, hval⟩
  · have q0 := get s hs 0 0 rfl (by omega)
    have q1 := get s hs 1 1 rfl (by omega)
    have q2 := get s hs 2 2 rfl (by omega)
    have t0 := get e he 0 0 rfl (by omega)
    have t1 := get e he 1 1 rfl (by omega)
    have t2 := get e he 2 2 rfl (by omega)
    unfold initializeCurveR
    rw [if_neg (by omega), q0, ok_bind, t0, ok_bind, r0, ok_bind, q1, ok_bind, t1, ok_bind, r1, ok_bind, q2, ok_bind, t2,
      ok_bind, r2, ok_bind]
    unfold columnStack3E
    have ll : ∀ L : List ℚ, (lift1 L).length = L.length := fun L => List.length_map _
    rw [if_pos ⟨by rw [ll, ll, l0, l1], by rw [ll, ll, l1, l2]⟩, ok_bind, ll, l0]
    rw [List.length_map, List.length_range, hUR, ok_bind]
    show _ = Except.ok (Curve.mk p (lift2 pts) (lift1 U))
    congr 2
    show _ = List.map (List.map fin) pts
    rw [hpts, List.map_map]
    refine List.map_congr_left fun i hi => ?_
    show _ = [fin (L0.getD i 0), fin (L1.getD i 0), fin (L2.getD i 0)]
    rw [← getD_lift, ← getD_lift, ← getD_lift]
  · have memL : ∀ L : List ℚ, L.length = n → L.getD i 0 ∈ L := fun L hL => by
      rw [List.getD_eq_getElem?_getD, List.getElem?_eq_getElem (by omega), Option.getD_some]
      exact List.getElem_mem _
    unfold coord
    rw [hrow i hi]
    match k, hk with
    | 0, _ => exact s0 _ (memL _ l0)
    | 1, _ => exact s1 _ (memL _ l1)
    | 2, _ => exact s2 _ (memL _ l2)
  · have a1 := (hsB _ (getmem s hs k hk)).2
    have a2 := (heB _ (getmem e he k hk)).2
    have h1 := hval k hk B hB0 a1 a2 i hi
    set r : ℚ := (i : ℚ) / ((n : ℚ) - 1) with hr
    have hpos : (0 : ℚ) < (n : ℚ) - 1 := by linarith
    have hiK : (i : ℚ) + 1 ≤ n := by exact_mod_cast hi
    have hr0 : 0 ≤ r := by positivity
    have hr1 : r ≤ 1 := by rw [hr, div_le_one hpos]; linarith
    have h2 : |s.getD k 0 + r * (e.getD k 0 - s.getD k 0)| ≤ B := by
      have h : s.getD k 0 + r * (e.getD k 0 - s.getD k 0) = (1 - r) * s.getD k 0 + r * e.getD k 0 := by ring
      rw [abs_le] at a1 a2 ⊢
      have q1 := mul_le_mul_of_nonneg_left a1.1 (sub_nonneg.2 hr1)
      have q2 := mul_le_mul_of_nonneg_left a1.2 (sub_nonneg.2 hr1)
      have q3 := mul_le_mul_of_nonneg_left a2.1 hr0
      have q4 := mul_le_mul_of_nonneg_left a2.2 hr0
      rw [h]
      constructor <;> linarith
    have h3 := abs_add_le (coord pts k i - (s.getD k 0 + r * (e.getD k 0 - s.getD k 0)))
      (s.getD k 0 + r * (e.getD k 0 - s.getD k 0))
    rw [sub_add_cancel] at h3
    have h4 : B / 2 ^ 47 ≤ B := div_le_self hB.le (by norm_num)
    show |coord pts k i| ≤ 2 * B
    linarith
  · unfold coord
    show (pts.getD 0 []).getD k 0 = _ ∧ (pts.getD (n - 1) []).getD k 0 = _
    rw [hrow 0 (by omega), hrow (n - 1) (by omega)]
    match k, hk with
    | 0, _ => exact ⟨f0, g0⟩
    | 1, _ => exact ⟨f1, g1⟩
    | 2, _ => exact ⟨f2, g2⟩

end PySpline
