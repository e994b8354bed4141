import Verif.Lemmas.IeeeNormalize
import Verif.Lemmas.PatchBound
import Verif.Lemmas.IeeeKnots
import Verif.Lemmas.Vtk
import Verif.Props.IeeeDers
import Mathlib.Analysis.Real.Sqrt

/-!
# C181: normalized derivatives in IEEE arithmetic with overflow and underflow
-/

set_option linter.unusedSectionVars false
set_option exponentiation.threshold 1100

namespace PySpline

open Spec Ext

section
variable {K : Type} [Field K] [LinearOrder K] [IsStrictOrderedRing K]

theorem DotR.exact {L : List (Ext K × Ext K)} {e : Ext K} (h : DotR fin L e)
    (hsq : ∀ q ∈ L, ∃ a, q = (fin a, fin a)) : e = fin (sqSum L) := by
  induction h with
  | mul a b =>
    obtain ⟨x, hx⟩ := hsq (a, b) (by simp)
    cases hx
    show fin (x * x) = _
    simp [sqSum, Ext.val, sq]
  | @add l m s t hl hm il im =>
    rw [il fun q hq => hsq q (by simp [hq]), im fun q hq => hsq q (by simp [hq]), sqSum_append]
    rfl
  | @fma l s a b hl il =>
    obtain ⟨x, hx⟩ := hsq (a, b) (by simp)
    cases hx
    rw [il fun q hq => hsq q (by simp [hq]), sqSum_append]
    show fin (_ + x * x) = _
    simp [sqSum, Ext.val, sq]
  | @perm l m s hp hl il =>
    rw [il fun q hq => hsq q (hp.mem_iff.1 hq)]
    exact congrArg fin (hp.map _).sum_eq

/-- Without rounding, the rows are the ones of the earlier model. -/
theorem normalize_row_agree (sq : K → K) (b first : Bool) {val : List K} {row : List (Ext K)}
    (h : NormalizeRowR fin sq b first (val.map fin) row) :
    normalizeRowE (fun l => sq (l.map (· ^ 2)).sum) b first (val.map fin) = .ok row := by
  obtain ⟨n, ⟨s, hs, rfl⟩, rfl⟩ := h
  rw [List.zip_map'] at hs
  rw [hs.exact (by simp)]
  have e : sqSum (val.map fun x => ((fin x : Ext K), (fin x : Ext K))) = (val.map (· ^ 2)).sum := by
    simp [sqSum, Function.comp_def, Ext.val]
  have e0 : ¬ (val.map (· ^ 2)).sum < 0 := by rw [← e]; exact not_lt.2 (sqSum_nonneg _)
  have e1 : normE (fun l => sq (l.map (· ^ 2)).sum) (val.map fin) = fin (sq (val.map (· ^ 2)).sum) := by
    unfold normE
    rw [if_neg (by simp), if_pos (by simp [Ext.isFin])]
    simp [Function.comp_def]
  unfold normalizeRowE
  rw [e, e1]
  simp only [sqrtR, if_neg e0, iscloseR_fin, rnd_fin]
  unfold iscloseDE
  split
  · exact mapPy_map fun _ _ => rfl
  · rfl

/-- **C181.** Let `α` be the stored tolerance `1e-8`, and let the squares of the components not overflow.
A row whose norm is at most about `α` is left as it is.  Any other row is divided by its norm: each
component keeps its sign, and its square is the part that it has in the sum of the squares, up to ten
roundings and `25 η`.  So the new row has length 1 up to ten roundings and `75 η`. -/
theorem normalize_row_ieee {ρ η M α : K} {rd : K → Ext K} {sq : K → K} (hr : IeeeRounding ρ η M rd)
    (hq : SqrtNear ρ rd sq) (hα : rd atolDefault = fin α) (hα0 : 0 < α) (hη1 : η ≤ 1) (hM2 : 2 ≤ M)
    (hρ : 1 / 4 ≤ ρ ^ 9) (hE : 3 * η ≤ α ^ 2 * (ρ ^ 7 * (1 - ρ))) {x : ℕ → K} {row : List (Ext K)}
    (hM : x 0 ^ 2 + x 1 ^ 2 + x 2 ^ 2 + 3 * η ≤ M * ρ ^ 3)
    (h : NormalizeRowR rd sq true false [fin (x 0), fin (x 1), fin (x 2)] row) :
    (row = [fin (x 0), fin (x 1), fin (x 2)] ∧ (x 0 ^ 2 + x 1 ^ 2 + x 2 ^ 2) * ρ ^ 7 ≤ α ^ 2 + 3 * η) ∨
    (α ^ 2 * ρ ^ 8 ≤ x 0 ^ 2 + x 1 ^ 2 + x 2 ^ 2 ∧ ∃ q : ℕ → K, row = [fin (q 0), fin (q 1), fin (q 2)] ∧
      (∀ c < 3, 0 ≤ q c * x c ∧ q c ^ 2 * ρ ^ 10 ≤ x c ^ 2 / (x 0 ^ 2 + x 1 ^ 2 + x 2 ^ 2) + 25 * η ∧
        x c ^ 2 / (x 0 ^ 2 + x 1 ^ 2 + x 2 ^ 2) * ρ ^ 10 ≤ q c ^ 2 + 25 * η) ∧
      (q 0 ^ 2 + q 1 ^ 2 + q 2 ^ 2) * ρ ^ 10 ≤ 1 + 75 * η ∧ ρ ^ 10 ≤ q 0 ^ 2 + q 1 ^ 2 + q 2 ^ 2 + 75 * η) := by
  obtain ⟨n, hn, hrow⟩ := h
  have h0 := hr.pos
  have hle := hr.le_one
  have es : (([x 0, x 1, x 2] : List K).map (· ^ 2)).sum = x 0 ^ 2 + x 1 ^ 2 + x 2 ^ 2 := by
    simp [add_assoc]
  obtain ⟨ν, rfl, hν, hν0, h1, h2⟩ := NormR.near hr hq (val := [x 0, x 1, x 2]) hn (by
    rw [es]; simpa using hM)
  rw [es] at h1 h2
  simp only [List.length_cons, List.length_nil, Nat.cast_ofNat, zero_add, Nat.reduceAdd] at h1 h2
  set S := x 0 ^ 2 + x 1 ^ 2 + x 2 ^ 2 with hS
  by_cases hc : ν ≤ α
  · left
    rw [(iscloseR_zero hr (by linarith) hν hν0 hα).2 hc] at hrow
    refine ⟨by simpa using hrow, ?_⟩
    have : ν ^ 2 ≤ α ^ 2 := pow_le_pow_left₀ hν0 hc 2
    linarith
  · right
    have hf : iscloseR rd (fin ν) 0 rtolDefault atolDefault = false := by
      rw [Bool.eq_false_iff]
      exact fun h => hc ((iscloseR_zero hr (by linarith) hν hν0 hα).1 h)
    rw [hf] at hrow
    have hαν : α ^ 2 ≤ ν ^ 2 := pow_le_pow_left₀ hα0.le (not_le.1 hc).le 2
    have hp7 : 0 ≤ ρ ^ 7 * (1 - ρ) := mul_nonneg (pow_pos h0 7).le (by linarith)
    have hE' : 3 * η ≤ ν ^ 2 * (ρ ^ 7 * (1 - ρ)) := hE.trans (mul_le_mul_of_nonneg_right hαν hp7)
    have hp1 : ρ ^ 7 * (1 - ρ) ≤ 1 - ρ :=
      mul_le_of_le_one_left (by linarith) (pow_le_one₀ h0.le hle)
    have k1 : S * ρ ^ 8 ≤ ν ^ 2 := by
      have a1 := mul_le_mul_of_nonneg_right h1 h0.le
      have a2 : ν ^ 2 * (ρ ^ 7 * (1 - ρ)) ≤ ν ^ 2 * (1 - ρ) := mul_le_mul_of_nonneg_left hp1 (sq_nonneg ν)
      have a3 : 3 * η * ρ ≤ 3 * η := mul_le_of_le_one_right (by linarith [hr.eta]) hle
      have a4 : S * ρ ^ 8 = S * ρ ^ 7 * ρ := by ring
      rw [a4]
      linarith
    have k2 : ν ^ 2 * ρ ^ 8 ≤ S := by
      have a4 : ν ^ 2 * ρ ^ 8 = ν ^ 2 * ρ ^ 7 - ν ^ 2 * (ρ ^ 7 * (1 - ρ)) := by ring
      rw [a4]
      linarith
    have hν1 : 0 < ν := hα0.trans (not_le.1 hc)
    have hxS : ∀ c < 3, x c ^ 2 ≤ S := by
      intro c hc
      have := sq_nonneg (x 0)
      have := sq_nonneg (x 1)
      have := sq_nonneg (x 2)
      interval_cases c <;> simp only [hS] <;> linarith
    have hS0 : 0 < S := lt_of_lt_of_le (mul_pos (pow_pos hν1 2) (pow_pos h0 8)) k2
    have hcomp : ∀ c, ∃ q, c < 3 → rnd rd ((fin (x c) : Ext K) / fin ν) = fin q ∧ 0 ≤ q * x c ∧
        q ^ 2 * ρ ^ 10 ≤ x c ^ 2 / S + 25 * η ∧ x c ^ 2 / S * ρ ^ 10 ≤ q ^ 2 + 25 * η := by
      intro c
      by_cases hc3 : c < 3
      · obtain ⟨q, q1, -, q2, q3, q4⟩ := component_near hr hη1 hM2 (k := 8) hρ hν1 (hxS c hc3) k1 k2
        exact ⟨q, fun _ => ⟨q1, q2, q3, q4⟩⟩
      · exact ⟨0, fun h => absurd h hc3⟩
    choose q hqc using hcomp
    refine ⟨?_, q, ?_, fun c hc => (hqc c hc).2, ?_, ?_⟩
    · have := mul_le_mul_of_nonneg_right hαν (pow_pos h0 8).le
      linarith
    · rw [hrow]
      simp [(hqc 0 (by norm_num)).1, (hqc 1 (by norm_num)).1, (hqc 2 (by norm_num)).1]
    · have b0 := (hqc 0 (by norm_num)).2.2.1
      have b1 := (hqc 1 (by norm_num)).2.2.1
      have b2 := (hqc 2 (by norm_num)).2.2.1
      have e : x 0 ^ 2 / S + x 1 ^ 2 / S + x 2 ^ 2 / S = 1 := by
        rw [← add_div, ← add_div, ← hS, div_self hS0.ne']
      rw [add_mul, add_mul]
      linarith
    · have b0 := (hqc 0 (by norm_num)).2.2.2
      have b1 := (hqc 1 (by norm_num)).2.2.2
      have b2 := (hqc 2 (by norm_num)).2.2.2
      have e : x 0 ^ 2 / S * ρ ^ 10 + x 1 ^ 2 / S * ρ ^ 10 + x 2 ^ 2 / S * ρ ^ 10 = ρ ^ 10 := by
        rw [← add_mul, ← add_mul, ← add_div, ← add_div, ← hS, div_self hS0.ne', one_mul]
      linarith

/-- **C181.** When the square of a component overflows, the normalized row is zero. -/
theorem normalize_row_overflow {V : K} {rd : K → Ext K} {sq : K → K} (hr : Overflows V rd) (h0 : rd 0 = fin 0)
    {val : List K} {row : List (Ext K)} {x : K} (hx : x ∈ val) (hV : V ≤ x ^ 2)
    (h : NormalizeRowR rd sq true false (val.map fin) row) : row = val.map fun _ => fin 0 := by
  obtain ⟨n, ⟨s, hs, rfl⟩, rfl⟩ := h
  rw [List.zip_map'] at hs
  have e := (hs.overflow hr (by simp)).2 ⟨x, List.mem_map.2 ⟨x, hx, rfl⟩, hV⟩
  subst e
  have e1 : iscloseR rd (sqrtR sq (inf false)) 0 rtolDefault atolDefault = false := rfl
  rw [e1]
  simp only [Bool.not_false, Bool.and_self, if_true, List.map_map]
  refine List.map_congr_left fun y _ => ?_
  show rd 0 = _
  exact h0

end

/-! ## Double precision -/

/-- Overflow in double precision. -/
theorem overflows_bin64 : Overflows (2 ^ 1024) bin64 where
  nonneg x hx := by
    unfold bin64
    split
    · exact .inr ⟨_, fl64s_nonneg hx, rfl⟩
    · left
      rw [decide_eq_false (not_lt.2 hx)]
  large x hx h := by
    have h1 : (2 : ℚ) ^ 1024 ≤ fl64s x := by
      have := fl64s_mono h
      rwa [show fl64s (2 ^ 1024) = 2 ^ 1024 by decide +kernel] at this
    unfold bin64
    rw [abs_of_nonneg (fl64s_nonneg hx), if_neg (not_lt.2 h1), decide_eq_false (not_lt.2 hx)]

/-- There are square roots in double precision with the assumed accuracy. -/
theorem exists_sqrt_bin64 : ∃ sq : ℚ → ℚ, SqrtNear (1 - 1 / 2 ^ 53) bin64 sq := by
  have key : ∀ x : ℚ, ∃ y : ℚ, 0 ≤ x → bin64 x = fin x →
      bin64 y = fin y ∧ 0 ≤ y ∧ x * (1 - 1 / 2 ^ 53) ^ 4 ≤ y ^ 2 ∧ y ^ 2 * (1 - 1 / 2 ^ 53) ^ 4 ≤ x := by
    intro x
    by_cases hx : 0 < x
    swap
    · refine ⟨0, fun h _ => ?_⟩
      have : x = 0 := le_antisymm (not_lt.1 hx) h
      subst this
      exact ⟨by decide +kernel, le_rfl, by norm_num, by norm_num⟩
    set ρ : ℚ := 1 - 1 / 2 ^ 53 with hρ
    have ρ0 : 0 < ρ := by rw [hρ]; norm_num
    have ρ1 : ρ < 1 := by rw [hρ]; norm_num
    have hxr : (0 : ℝ) < x := by exact_mod_cast hx
    have hlt : (x * ρ : ℝ) < x := by
      have : (ρ : ℝ) < 1 := by exact_mod_cast ρ1
      exact mul_lt_of_lt_one_right hxr this
    obtain ⟨r, hr1, hr2⟩ := exists_rat_btwn (Real.sqrt_lt_sqrt (by positivity) hlt)
    have r0 : 0 < r := by
      have : (0 : ℝ) < r := lt_of_le_of_lt (Real.sqrt_nonneg _) hr1
      exact_mod_cast this
    have q1 : x * ρ ≤ r ^ 2 := by
      have := Real.lt_sq_of_sqrt_lt hr1
      have : (x * ρ : ℝ) ≤ (r : ℝ) ^ 2 := this.le
      exact_mod_cast this
    have q2 : r ^ 2 ≤ x := by
      have := (Real.lt_sqrt (by exact_mod_cast r0.le)).1 hr2
      have : (r : ℝ) ^ 2 ≤ x := this.le
      exact_mod_cast this
    refine ⟨fl64s r, fun _ hx1 => ?_⟩
    obtain ⟨e1, e2⟩ := bin64_eq_fin hx1
    have hxM : x < 2 ^ 1024 := by
      rw [← e1, abs_of_pos hx] at e2
      exact e2
    have hrM : r ≤ 2 ^ 512 := by
      have : r ^ 2 ≤ (2 ^ 512 : ℚ) ^ 2 := by
        rw [← pow_mul]
        exact q2.trans hxM.le
      exact le_of_sq_le_sq this (by positivity)
    have hb : bin64 r = fin (fl64s r) := bin64_le r0.le (hrM.trans (by decide +kernel))
    have hxq : (2 : ℚ) ^ (-1074 : ℤ) ≤ x := by
      obtain ⟨z, hz⟩ := fl64s_multiple x
      rw [← e1] at hz
      have hz0 : 0 < z := by
        by_contra hc
        have : (z : ℚ) ≤ 0 := by exact_mod_cast not_lt.1 hc
        have := mul_nonpos_of_nonpos_of_nonneg this q0_pos.le
        linarith
      have : (1 : ℚ) ≤ z := by exact_mod_cast hz0
      rw [hz]
      have := mul_le_mul_of_nonneg_right this q0_pos.le
      rw [one_mul] at this
      exact this
    have hrn : (2 : ℚ) ^ (-1022 : ℤ) ≤ r := by
      have a1 : ((2 : ℚ) ^ (-1022 : ℤ)) ^ 2 ≤ 2 ^ (-1074 : ℤ) * ρ := by rw [hρ]; decide +kernel
      have a2 := mul_le_mul_of_nonneg_right hxq ρ0.le
      exact le_of_sq_le_sq (a1.trans (a2.trans q1)) r0.le
    have hn := fl64s_nonneg r0.le
    have b1 : r * ρ ≤ fl64s r := by
      rw [fl64s_normal hrn, mul_comm]
      exact accurate_fl64.lower r r0.le
    have b2 : fl64s r * ρ ≤ r := by
      rw [fl64s_normal hrn, mul_comm]
      exact accurate_fl64.upper r r0.le
    refine ⟨ieeeRounding_bin64.idem _ _ hb, hn, ?_, ?_⟩
    · have c1 : (r * ρ) ^ 2 ≤ fl64s r ^ 2 := pow_le_pow_left₀ (by positivity) b1 2
      have c2 := mul_le_mul_of_nonneg_right q1 (sq_nonneg ρ)
      have c3 : x * ρ ^ 4 ≤ x * ρ ^ 3 :=
        mul_le_mul_of_nonneg_left (pow_le_pow_of_le_one ρ0.le ρ1.le (by norm_num)) hx.le
      have c4 : x * ρ ^ 3 = x * ρ * ρ ^ 2 := by ring
      have c5 : (r * ρ) ^ 2 = r ^ 2 * ρ ^ 2 := by ring
      linarith
    · have c1 : (fl64s r * ρ) ^ 2 ≤ r ^ 2 := pow_le_pow_left₀ (by positivity) b2 2
      have c3 : fl64s r ^ 2 * ρ ^ 4 ≤ fl64s r ^ 2 * ρ ^ 2 :=
        mul_le_mul_of_nonneg_left (pow_le_pow_of_le_one ρ0.le ρ1.le (by norm_num)) (sq_nonneg _)
      have c5 : (fl64s r * ρ) ^ 2 = fl64s r ^ 2 * ρ ^ 2 := by ring
      linarith
  choose sq hsq using key
  exact ⟨sq, fun x h0 h1 => (hsq x h0 h1).1, fun x h0 h1 => (hsq x h0 h1).2.1, fun x h0 h1 => (hsq x h0 h1).2.2.1,
    fun x h0 h1 => (hsq x h0 h1).2.2.2⟩

/-- **C181** in double precision: components of size up to `2^510`. -/
theorem normalize_row_binary64 {sq : ℚ → ℚ} (hq : SqrtNear (1 - 1 / 2 ^ 53) bin64 sq) {x : ℕ → ℚ}
    {row : List (Ext ℚ)} (hx : ∀ c < 3, |x c| ≤ 2 ^ 510)
    (h : NormalizeRowR bin64 sq true false [fin (x 0), fin (x 1), fin (x 2)] row) :
    (row = [fin (x 0), fin (x 1), fin (x 2)] ∧ x 0 ^ 2 + x 1 ^ 2 + x 2 ^ 2 ≤ (101 / 10 ^ 10) ^ 2) ∨
    ((99 / 10 ^ 10) ^ 2 ≤ x 0 ^ 2 + x 1 ^ 2 + x 2 ^ 2 ∧ ∃ q : ℕ → ℚ, row = [fin (q 0), fin (q 1), fin (q 2)] ∧
      (∀ c < 3, 0 ≤ q c * x c ∧ |q c ^ 2 - x c ^ 2 / (x 0 ^ 2 + x 1 ^ 2 + x 2 ^ 2)| ≤ 2 / 10 ^ 15) ∧
      |q 0 ^ 2 + q 1 ^ 2 + q 2 ^ 2 - 1| ≤ 2 / 10 ^ 15) := by
  have hS : x 0 ^ 2 + x 1 ^ 2 + x 2 ^ 2 ≤ 3 * 2 ^ 1020 := by
    have : ∀ c < 3, x c ^ 2 ≤ 2 ^ 1020 := fun c hc => by
      rw [← sq_abs, show (2 : ℚ) ^ 1020 = (2 ^ 510) ^ 2 by rw [← pow_mul]]
      exact pow_le_pow_left₀ (abs_nonneg _) (hx c hc) 2
    linarith [this 0 (by norm_num), this 1 (by norm_num), this 2 (by norm_num)]
  have e0 : (0 : ℚ) < 1 / 2 ^ 1075 := by positivity
  have e1 : (1 : ℚ) / 2 ^ 1075 ≤ 1 / 10 ^ 100 := by decide +kernel
  have hle : ∀ a b : ℚ, 0 ≤ b → b ≤ 1 → a * (1 - 1 / 2 ^ 53) ^ 10 ≤ b + 75 * (1 / 2 ^ 1075) →
      a ≤ b + 2 / 10 ^ 15 := by
    intro a b h0 h1 h
    by_contra hc
    have h2 := mul_le_mul_of_nonneg_right (not_le.1 hc).le (show (0 : ℚ) ≤ (1 - 1 / 2 ^ 53) ^ 10 by norm_num)
    have k1 : (1 - 12 / 10 ^ 16 : ℚ) ≤ (1 - 1 / 2 ^ 53) ^ 10 := by decide +kernel
    have h3 := mul_le_mul_of_nonneg_left k1 (show (0 : ℚ) ≤ b + 2 / 10 ^ 15 by linarith)
    nlinarith
  have hge : ∀ a b : ℚ, 0 ≤ a → a ≤ 1 → a * (1 - 1 / 2 ^ 53) ^ 10 ≤ b + 75 * (1 / 2 ^ 1075) →
      a ≤ b + 2 / 10 ^ 15 := by
    intro a b h0 h1 h
    have k1 : (1 - 12 / 10 ^ 16 : ℚ) ≤ (1 - 1 / 2 ^ 53) ^ 10 := by decide +kernel
    have h3 := mul_le_mul_of_nonneg_left k1 h0
    linarith
  rcases normalize_row_ieee ieeeRounding_bin64 hq (α := 3022314549036573 / 2 ^ 78) (by decide +kernel) (by positivity)
    (by decide +kernel) (by decide +kernel) (by decide +kernel) (by decide +kernel)
    (le_trans (add_le_add_left hS _) (by decide +kernel)) h with ⟨h1, h2⟩ | ⟨h1, q, h2, h3, h4, h5⟩
  · left
    refine ⟨h1, ?_⟩
    set S := x 0 ^ 2 + x 1 ^ 2 + x 2 ^ 2
    by_contra hc
    have k0 := mul_le_mul_of_nonneg_right (not_le.1 hc).le (show (0 : ℚ) ≤ (1 - 1 / 2 ^ 53) ^ 7 by norm_num)
    have k1 : ¬ ((101 / 10 ^ 10 : ℚ) ^ 2 * (1 - 1 / 2 ^ 53) ^ 7 ≤ (3022314549036573 / 2 ^ 78) ^ 2 + 3 * (1 / 2 ^ 1075)) := by
      decide +kernel
    exact k1 (k0.trans h2)
  · right
    have hS0 : 0 < x 0 ^ 2 + x 1 ^ 2 + x 2 ^ 2 := lt_of_lt_of_le (by norm_num) h1
    refine ⟨le_trans (by decide +kernel) h1, q, h2, fun c hc => ⟨(h3 c hc).1, ?_⟩, ?_⟩
    · have w0 : 0 ≤ x c ^ 2 / (x 0 ^ 2 + x 1 ^ 2 + x 2 ^ 2) := div_nonneg (sq_nonneg _) hS0.le
      have w1 : x c ^ 2 / (x 0 ^ 2 + x 1 ^ 2 + x 2 ^ 2) ≤ 1 := by
        rw [div_le_one hS0]
        have := sq_nonneg (x 0)
        have := sq_nonneg (x 1)
        have := sq_nonneg (x 2)
        interval_cases c <;> linarith
      have b1 := hle (q c ^ 2) _ w0 w1 ((h3 c hc).2.1.trans (by linarith))
      have b2 := hge _ (q c ^ 2) w0 w1 ((h3 c hc).2.2.trans (by linarith))
      rw [abs_le]
      constructor <;> linarith
    · have b1 := hle _ _ zero_le_one le_rfl h4
      have b2 := hge 1 _ zero_le_one le_rfl (by rw [one_mul]; exact h5)
      rw [abs_le]
      constructor <;> linarith

theorem NormalizeRowR.exists (rd : ℚ → Ext ℚ) (sq : ℚ → ℚ) (normalize first : Bool) {val : List (Ext ℚ)}
    (h : val ≠ []) : ∃ row, NormalizeRowR rd sq normalize first val row := by
  obtain ⟨s, hs⟩ := DotR.exists rd (l := val.zip val) (by
    cases val with
    | nil => exact absurd rfl h
    | cons x l => simp)
  exact ⟨_, _, ⟨s, hs, rfl⟩, rfl⟩

theorem DerivativesNormR.exists_of {rd : ℚ → Ext ℚ} {sq : ℚ → ℚ} {s : Surface (Ext ℚ)} {u v : Ext ℚ}
    {orderU orderV : ℕ} {D₀ : List (List (Ext ℚ))} (hD : s.DerivativesR rd u v orderU orderV D₀)
    (h : ∀ i < D₀.length, D₀.getD i [] ≠ []) : ∃ D, s.DerivativesNormR rd sq u v orderU orderV true D := by
  have ex : ∀ i, ∃ row, i < D₀.length → NormalizeRowR rd sq true (i == 0) (D₀.getD i []) row := by
    intro i
    by_cases hi : i < D₀.length
    · obtain ⟨row, hrow⟩ := NormalizeRowR.exists rd sq true (i == 0) (h i hi)
      exact ⟨row, fun _ => hrow⟩
    · exact ⟨[], fun h => absurd h hi⟩
  choose row hrow using ex
  refine ⟨(List.range D₀.length).map row, D₀, hD, by simp, fun i hi => ?_⟩
  have e : ((List.range D₀.length).map row).getD i [] = row i := by
    simp [List.getD_eq_getElem?_getD, hi]
  rw [e]
  exact hrow i hi

/-- A factor of the bound on the derivatives for degrees up to 5 and spans of at least `2^-40`. -/
theorem factor_bin64 {p a : ℕ} {h : ℚ} (hp : p ≤ 5) (ha : a ≤ p) (hh : 1 / 2 ^ 40 ≤ h) :
    0 ≤ p.descFactorial a * (2 / h) ^ a ∧ p.descFactorial a * (2 / h) ^ a ≤ 120 * (2 ^ 41) ^ 5 := by
  have h0 : 0 < h := lt_of_lt_of_le (by norm_num) hh
  have h1 : 2 / h ≤ 2 ^ 41 := by
    rw [div_le_iff₀ h0]
    have := mul_le_mul_of_nonneg_left hh (show (0 : ℚ) ≤ 2 ^ 41 by norm_num)
    norm_num at this ⊢
    linarith
  have h2 : (2 / h) ^ a ≤ (2 ^ 41) ^ 5 :=
    (pow_le_pow_left₀ (div_nonneg zero_le_two h0.le) h1 a).trans (pow_le_pow_right₀ (by norm_num) (by omega))
  have h3 : (p.descFactorial a : ℚ) ≤ 120 := by
    have : p.descFactorial a ≤ 120 := by
      interval_cases p <;> interval_cases a <;> decide
    exact_mod_cast this
  exact ⟨mul_nonneg (Nat.cast_nonneg _) (pow_nonneg (div_nonneg zero_le_two h0.le) _),
    mul_le_mul h3 h2 (pow_nonneg (div_nonneg zero_le_two h0.le) _) (by norm_num)⟩

/-- **C181** for surfaces in double precision: the derivatives that `derivatives` returns by default, for
degrees up to 5, knots at least `2^-40` apart and coordinates up to `2^80`.  Row 0 is the point; any other
row has length 1 and the direction of the computed derivative, unless that is shorter than `1.01e-8`. -/
theorem surface_normalized_binary64 {sq : ℚ → ℚ} (hq : SqrtNear (1 - 1 / 2 ^ 53) bin64 sq) {s : Surface ℚ}
    (hs : ClampedSurface s) {u v C : ℚ}
    (hpu : s.degreeU ≤ 5) (hpv : s.degreeV ≤ 5)
    (hdu : ∀ i, s.degreeU ≤ i → i < s.numU → 1 / 2 ^ 40 ≤ knotFn s.kvU (i + 1) - knotFn s.kvU i)
    (hdv : ∀ i, s.degreeV ≤ i → i < s.numV → 1 / 2 ^ 40 ≤ knotFn s.kvV (i + 1) - knotFn s.kvV i)
    (hku : UnitKnots s.degreeU s.numU s.kvU) (hkv : UnitKnots s.degreeV s.numV s.kvV)
    (hgu : knotFn s.kvU (s.numU - 1) ≤ 1 - 102 / 10 ^ 8)
    (hgv : knotFn s.kvV (s.numV - 1) ≤ 1 - 102 / 10 ^ 8)
    (hu : 0 ≤ u ∧ u ≤ 1) (hv : 0 ≤ v ∧ v ≤ 1)
    (hrepu : ∀ x ∈ s.kvU, bin64 x = fin x) (hrepv : ∀ x ∈ s.kvV, bin64 x = fin x) (hu' : bin64 u = fin u)
    (hv' : bin64 v = fin v) (hC : ∀ c < 3, ∀ i < s.numU * s.numV, |coord s.ctrlpts c i| ≤ C)
    (hCM : C ≤ 2 ^ 80) (orderU orderV : ℕ) :
    ∃ m k : ℕ,
      knotFn s.kvU m ≤ u ∧ u ≤ knotFn s.kvU (m + 1) ∧ knotFn s.kvU m < knotFn s.kvU (m + 1) ∧
      knotFn s.kvV k ≤ v ∧ v ≤ knotFn s.kvV (k + 1) ∧ knotFn s.kvV k < knotFn s.kvV (k + 1) ∧
      (∃ D, s.lift.DerivativesNormR bin64 sq (fin u) (fin v) orderU orderV true D) ∧
      ∀ D, s.lift.DerivativesNormR bin64 sq (fin u) (fin v) orderU orderV true D →
        D.length = (min orderU s.degreeU + 1) * (min orderV s.degreeV + 1) ∧
        ∀ a ≤ min orderU s.degreeU, ∀ b ≤ min orderV s.degreeV, ∃ x q : ℕ → ℚ,
          (∀ c < 3, |x c - patchDeriv (knotFn s.kvU) m s.degreeU s.numU (knotFn s.kvV) k s.degreeV s.numV
              (coord s.ctrlpts c) a b u v| ≤ 1 / 10 ^ 14 *
            (s.degreeU.descFactorial a * (2 / (knotFn s.kvU (m + 1) - knotFn s.kvU m)) ^ a *
              (s.degreeV.descFactorial b * (2 / (knotFn s.kvV (k + 1) - knotFn s.kvV k)) ^ b) * C) +
            (C + 1) * (1 / 2 ^ 600)) ∧
          D.getD (a * (min orderV s.degreeV + 1) + b) [] = [fin (q 0), fin (q 1), fin (q 2)] ∧
          (a = 0 ∧ b = 0 → ∀ c < 3, q c = x c) ∧
          (¬ (a = 0 ∧ b = 0) →
            (x 0 ^ 2 + x 1 ^ 2 + x 2 ^ 2 ≤ (101 / 10 ^ 10) ^ 2 ∧ ∀ c < 3, q c = x c) ∨
            ((99 / 10 ^ 10) ^ 2 ≤ x 0 ^ 2 + x 1 ^ 2 + x 2 ^ 2 ∧
              (∀ c < 3, 0 ≤ q c * x c ∧ |q c ^ 2 - x c ^ 2 / (x 0 ^ 2 + x 1 ^ 2 + x 2 ^ 2)| ≤ 2 / 10 ^ 15) ∧
              |q 0 ^ 2 + q 1 ^ 2 + q 2 ^ 2 - 1| ≤ 2 / 10 ^ 15)) := by
  obtain ⟨m, k, g1, g2, g3, g4, h1, h2, h3, h4, h5, h6, ⟨D₀, hD₀⟩, hall⟩ := surface_derivatives_binary64 hs hpu hpv hdu
    hdv hku hkv hgu hgv hu hv hrepu hrepv hu' hv' hC (hCM.trans (by decide +kernel)) orderU orderV
  have hC0 : 0 ≤ C := (abs_nonneg _).trans (hC 0 (by norm_num) 0 (Nat.mul_pos (by omega) (by omega)))
  set w := min orderV s.degreeV + 1 with hw
  have three : ∀ q : List ℚ, q.length = 3 → q.map fin = [fin (q.getD 0 0), fin (q.getD 1 0), fin (q.getD 2 0)] := by
    intro q hq
    match q, hq with
    | [a, b, c], _ => rfl
  refine ⟨m, k, h1, h2, h3, h4, h5, h6, ?_, ?_⟩
  · refine DerivativesNormR.exists_of hD₀ fun i hi => ?_
    rw [(hall D₀ hD₀).1] at hi
    have hdiv : i / w ≤ min orderU s.degreeU := by
      have : i / w < min orderU s.degreeU + 1 := Nat.div_lt_of_lt_mul (by rw [mul_comm]; exact hi)
      omega
    have hmod : i % w ≤ min orderV s.degreeV := by
      have : i % w < w := Nat.mod_lt _ (by omega)
      omega
    obtain ⟨q, e1, e2, -⟩ := (hall D₀ hD₀).2 (i / w) hdiv (i % w) hmod
    rw [Nat.div_add_mod' i w] at e1
    rw [e1, three q e2]
    simp
  · rintro D ⟨D', hD', hlen, hrows⟩
    obtain ⟨e1, e2⟩ := hall D' hD'
    refine ⟨hlen.trans e1, fun a ha b hb => ?_⟩
    obtain ⟨q₀, e3, e4, e5⟩ := e2 a ha b hb
    have hlt : a * w + b < D'.length := by
      rw [e1]
      exact index_lt (by omega) (by omega)
    have hr := hrows _ hlt
    rw [e3, three q₀ e4] at hr
    have hbound : ∀ c < 3, |q₀.getD c 0| ≤ 2 ^ 510 := by
      intro c hc
      have hp := patchDeriv_abs_le (a := a) (b := b) (monotone_knotFn hs.ok.ku.mono) (monotone_knotFn hs.ok.kv.mono)
        g1 g2 g3 g4 h3 h6 h1 h2 h4 h5 (hC c hc)
      have f1 := factor_bin64 hpu (ha.trans (min_le_right _ _)) (hdu m g1 g2)
      have f2 := factor_bin64 hpv (hb.trans (min_le_right _ _)) (hdv k g3 g4)
      have f3 := mul_le_mul (mul_le_mul f1.2 f2.2 f2.1 (by norm_num)) hCM hC0 (by norm_num)
      have f4 := e5 c hc
      generalize patchDeriv (knotFn s.kvU) m s.degreeU s.numU (knotFn s.kvV) k s.degreeV s.numV
              (coord s.ctrlpts c) a b u v = d at *
      generalize (s.degreeU.descFactorial a * (2 / (knotFn s.kvU (m + 1) - knotFn s.kvU m)) ^ a *
              (s.degreeV.descFactorial b * (2 / (knotFn s.kvV (k + 1) - knotFn s.kvV k)) ^ b) * C : ℚ) = Δ at *
      have k1 := mul_le_mul_of_nonneg_right (add_le_add_left hCM 1) (show (0 : ℚ) ≤ 1 / 2 ^ 600 by positivity)
      have k2 : (120 * (2 ^ 41) ^ 5 * (120 * (2 ^ 41) ^ 5) * 2 ^ 80 : ℚ) * (1 + 1 / 10 ^ 14)
        + (2 ^ 80 + 1) * (1 / 2 ^ 600) ≤ 2 ^ 510 := by decide +kernel
      have k3 : |q₀.getD c 0| ≤ |q₀.getD c 0 - d| + |d| := by
        have := abs_add_le (q₀.getD c 0 - d) d
        rwa [sub_add_cancel] at this
      have k4 := mul_le_mul_of_nonneg_right f3 (show (0 : ℚ) ≤ 1 + 1 / 10 ^ 14 by norm_num)
      linarith
    have hzero : a * w + b = 0 ↔ a = 0 ∧ b = 0 := by
      rw [Nat.add_eq_zero_iff, Nat.mul_eq_zero]
      constructor
      · rintro ⟨h | h, h'⟩
        · exact ⟨h, h'⟩
        · omega
      · rintro ⟨h, h'⟩
        exact ⟨.inl h, h'⟩
    by_cases hab : a = 0 ∧ b = 0
    · refine ⟨fun c => q₀.getD c 0, fun c => q₀.getD c 0, e5, ?_, fun _ _ _ => rfl, fun h => absurd hab h⟩
      obtain ⟨n, -, hrow⟩ := hr
      rw [hrow, show (a * w + b == 0) = true by simpa using hzero.2 hab]
      simp
    · rw [show (a * w + b == 0) = false by
        rw [Bool.eq_false_iff]; intro h; exact hab (hzero.1 (by simpa using h))] at hr
      rcases normalize_row_binary64 hq (x := fun c => q₀.getD c 0) hbound hr with ⟨r1, r2⟩ | ⟨r1, q, r2, r3, r4⟩
      · exact ⟨fun c => q₀.getD c 0, fun c => q₀.getD c 0, e5, r1, fun h => absurd h hab,
          fun _ => .inl ⟨r2, fun _ _ => rfl⟩⟩
      · exact ⟨fun c => q₀.getD c 0, q, e5, r2, fun h => absurd h hab, fun _ => .inr ⟨r1, r3, r4⟩⟩

/-- The row `(3, 0, 4)` is divided by its length. -/
example {sq : ℚ → ℚ} (hq : SqrtNear (1 - 1 / 2 ^ 53) bin64 sq) :
    ∃ row, NormalizeRowR bin64 sq true false [fin 3, fin 0, fin 4] row ∧ ∃ q : ℕ → ℚ,
      row = [fin (q 0), fin (q 1), fin (q 2)] ∧ 0 ≤ q 0 * 3 ∧ |q 0 ^ 2 - 9 / 25| ≤ 2 / 10 ^ 15 ∧
      |q 1 ^ 2| ≤ 2 / 10 ^ 15 ∧ 0 ≤ q 2 * 4 ∧ |q 2 ^ 2 - 16 / 25| ≤ 2 / 10 ^ 15 := by
  obtain ⟨row, h⟩ := NormalizeRowR.exists bin64 sq true false (val := [fin 3, fin 0, fin 4]) (by simp)
  refine ⟨row, h, ?_⟩
  let x : ℕ → ℚ := fun c => [3, 0, 4].getD c 0
  rcases normalize_row_binary64 hq (x := x) (by decide +kernel) h with ⟨-, h1⟩ | ⟨-, q, e, h1, -⟩
  · exact absurd h1 (by decide +kernel)
  · have e0 : x 0 ^ 2 / (x 0 ^ 2 + x 1 ^ 2 + x 2 ^ 2) = 9 / 25 := by decide +kernel
    have e1 : x 1 ^ 2 / (x 0 ^ 2 + x 1 ^ 2 + x 2 ^ 2) = 0 := by decide +kernel
    have e2 : x 2 ^ 2 / (x 0 ^ 2 + x 1 ^ 2 + x 2 ^ 2) = 16 / 25 := by decide +kernel
    obtain ⟨a0, b0⟩ := h1 0 (by norm_num)
    obtain ⟨a1, b1⟩ := h1 1 (by norm_num)
    obtain ⟨a2, b2⟩ := h1 2 (by norm_num)
    rw [e0] at b0
    rw [e1, sub_zero] at b1
    rw [e2] at b2
    exact ⟨q, e, a0, b0, b1, a2, b2⟩

/-- The row `(2^512, 1, 0)`, whose length is not too large a number, becomes zero. -/
example {sq : ℚ → ℚ} : ∀ row, NormalizeRowR bin64 sq true false [fin (2 ^ 512), fin 1, fin 0] row →
    row = [fin 0, fin 0, fin 0] := fun _ h =>
  normalize_row_overflow overflows_bin64 (by decide +kernel) (val := [2 ^ 512, 1, 0]) (x := 2 ^ 512) (by simp)
    (by decide +kernel) h

example : ∃ sq : ℚ → ℚ, SqrtNear (1 - 1 / 2 ^ 53) bin64 sq ∧
    ∃ m k : ℕ, knotFn exS.kvU m ≤ 1 / 8 ∧ 1 / 8 ≤ knotFn exS.kvU (m + 1) ∧
    knotFn exS.kvV k ≤ 1 / 2 ^ 1074 ∧ 1 / 2 ^ 1074 ≤ knotFn exS.kvV (k + 1) ∧
    (∃ D, exS.lift.DerivativesNormR bin64 sq (fin (1 / 8)) (fin (1 / 2 ^ 1074)) 2 1 true D) := by
  obtain ⟨sq, hq⟩ := exists_sqrt_bin64
  obtain ⟨m, k, h1, h2, -, h4, h5, -, h7, -⟩ := surface_normalized_binary64 hq exS_clamped (C := 5) (by decide) (by decide)
    (by intro i h1 h2; change 2 ≤ i at h1; change i < 4 at h2; interval_cases i <;> decide +kernel)
    (by intro i h1 h2; change 1 ≤ i at h1; change i < 3 at h2; interval_cases i <;> decide +kernel)
    exS_unit.1 exS_unit.2 (by decide +kernel) (by decide +kernel) (u := 1 / 8) (by norm_num) (v := 1 / 2 ^ 1074)
    (by decide +kernel)
    (by decide +kernel) (by decide +kernel) (by decide +kernel) (by decide +kernel) (by decide +kernel)
    (by decide +kernel) 2 1
  exact ⟨sq, hq, m, k, h1, h2, h4, h5, h7⟩

/-- A bilinear surface of coordinates up to `2^500` with a short span of knots. -/
def exHuge : Surface ℚ where
  degreeU := 1
  degreeV := 1
  numU := 3
  numV := 2
  ctrlpts := [[0, 0, 0], [0, 1, 0], [2 ^ 500, 0, 0], [2 ^ 500, 1, 0], [2 ^ 500, 0, 1], [2 ^ 500, 1, 1]]
  kvU := [0, 0, 1 / 8192, 1, 1]
  kvV := [0, 0, 1, 1]

theorem exHuge_clamped : ClampedSurface exHuge where
  cu := ⟨⟨by decide +kernel, by decide +kernel, by decide⟩,
    by intro i hi; change i ≤ 1 at hi; interval_cases i <;> decide +kernel,
    by intro i h1 h2; change 3 ≤ i at h1; change i ≤ 4 at h2; interval_cases i <;> decide +kernel⟩
  cv := ⟨⟨by decide +kernel, by decide +kernel, by decide⟩,
    by intro i hi; change i ≤ 1 at hi; interval_cases i <;> decide +kernel,
    by intro i h1 h2; change 2 ≤ i at h1; change i ≤ 3 at h2; interval_cases i <;> decide +kernel⟩
  du := by decide
  dv := by decide
  shape := ⟨by decide, by decide +kernel⟩

theorem exHuge_unit : UnitKnots exHuge.degreeU exHuge.numU exHuge.kvU ∧
    UnitKnots exHuge.degreeV exHuge.numV exHuge.kvV :=
  ⟨⟨exHuge_clamped.cu, by decide +kernel, by decide +kernel, by decide +kernel, by decide +kernel⟩,
    ⟨exHuge_clamped.cv, by decide +kernel, by decide +kernel, by decide +kernel, by decide +kernel⟩⟩

theorem exHuge_deriv : patchDeriv (knotFn exHuge.kvU) 1 1 3 (knotFn exHuge.kvV) 1 1 2 (coord exHuge.ctrlpts 0) 1 0
    (1 / 2 ^ 14) (1 / 2) = 2 ^ 513 := by
  simp [patchDeriv, piece, Spec.deriv, Finset.sum_range_succ, knotFn, coord, exHuge]
  norm_num

/-- **C181**, a defect: the direction of the derivative along `u` is about `(1, 0, 0)`, its length `2^513` is a
number, but what `derivatives` returns for it is `(0, 0, 0)`. -/
theorem surface_normalized_overflow (sq : ℚ → ℚ) :
    (∃ D, exHuge.lift.DerivativesNormR bin64 sq (fin (1 / 2 ^ 14)) (fin (1 / 2)) 1 1 true D) ∧
    ∀ D, exHuge.lift.DerivativesNormR bin64 sq (fin (1 / 2 ^ 14)) (fin (1 / 2)) 1 1 true D →
      D.getD 2 [] = [fin 0, fin 0, fin 0] := by
  have hC : ∀ c < 3, ∀ i < exHuge.numU * exHuge.numV, |coord exHuge.ctrlpts c i| ≤ 2 ^ 500 := by decide +kernel
  obtain ⟨m, k, g1, g2, g3, g4, h1, -, -, -, -, -, ⟨D₀, hD₀⟩, hall⟩ := surface_derivatives_binary64 exHuge_clamped
    (u := 1 / 2 ^ 14) (v := 1 / 2) (by decide) (by decide)
    (by intro i h1 h2; change 1 ≤ i at h1; change i < 3 at h2; interval_cases i <;> decide +kernel)
    (by intro i h1 h2; change 1 ≤ i at h1; change i < 2 at h2; interval_cases i; decide +kernel)
    exHuge_unit.1 exHuge_unit.2 (by decide +kernel) (by decide +kernel) (by norm_num) (by norm_num)
    (by decide +kernel) (by decide +kernel) (by decide +kernel) (by decide +kernel) hC le_rfl 1 1
  change 1 ≤ m at g1
  change m < 3 at g2
  change 1 ≤ k at g3
  change k < 2 at g4
  obtain rfl : k = 1 := by omega
  obtain rfl : m = 1 := by
    by_contra hne
    obtain rfl : m = 2 := by omega
    exact absurd h1 (by decide +kernel)
  constructor
  · refine DerivativesNormR.exists_of hD₀ fun i hi => ?_
    have hi' : i < 4 := by rw [(hall D₀ hD₀).1] at hi; exact hi
    have ne : ∀ a ≤ 1, ∀ b ≤ 1, i = a * 2 + b → D₀.getD i [] ≠ [] := by
      rintro a ha b hb rfl e
      obtain ⟨q, e1, e2, -⟩ := (hall D₀ hD₀).2 a ha b hb
      have := e.symm.trans e1
      rw [eq_comm, List.map_eq_nil_iff] at this
      rw [this] at e2
      simp at e2
    exact ne (i / 2) (by omega) (i % 2) (by omega) (by omega)
  · rintro D ⟨D', hD', hlen, hrows⟩
    obtain ⟨e1, e2⟩ := hall D' hD'
    change D'.length = 4 at e1
    obtain ⟨q, e3, e4, e5⟩ := e2 1 (by decide) 0 (by decide)
    change D'.getD 2 [] = _ at e3
    have hr := hrows 2 (by omega)
    rw [e3] at hr
    have h := e5 0 (by norm_num)
    have e6 : q.map (fun _ => (fin 0 : Ext ℚ)) = [fin 0, fin 0, fin 0] := by
      match q, e4 with
      | [a, b, c], _ => rfl
    rw [← e6]
    have hx : q.getD 0 0 ∈ q := by
      match q, e4 with
      | [a, b, c], _ => simp
    refine normalize_row_overflow overflows_bin64 (by decide +kernel) hx ?_ hr
    have e7 : patchDeriv (knotFn exHuge.kvU) 1 exHuge.degreeU exHuge.numU (knotFn exHuge.kvV) 1 exHuge.degreeV
        exHuge.numV (coord exHuge.ctrlpts 0) 1 0 (1 / 2 ^ 14) (1 / 2) = 2 ^ 513 := exHuge_deriv
    rw [e7] at h
    have e8 : (1 / 10 ^ 14 * (exHuge.degreeU.descFactorial 1 * (2 / (knotFn exHuge.kvU (1 + 1)
        - knotFn exHuge.kvU 1)) ^ 1 * (exHuge.degreeV.descFactorial 0 * (2 / (knotFn exHuge.kvV (1 + 1)
          - knotFn exHuge.kvV 1)) ^ 0) * 2 ^ 500) + (2 ^ 500 + 1) * (1 / 2 ^ 600) : ℚ) ≤ 2 ^ 512 := by
      decide +kernel
    have h3 := (abs_le.1 (h.trans e8)).1
    have h4 : (2 : ℚ) ^ 512 ≤ q.getD 0 0 := by
      have : (2 : ℚ) ^ 513 = 2 ^ 512 + 2 ^ 512 := by rw [← two_mul, ← pow_succ']
      linarith
    calc (2 : ℚ) ^ 1024 = (2 ^ 512) ^ 2 := by rw [← pow_mul]
      _ ≤ _ := pow_le_pow_left₀ (by positivity) h4 2

end PySpline
