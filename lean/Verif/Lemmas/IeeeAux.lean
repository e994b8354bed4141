import Verif.Lemmas.IeeeDot
import Verif.Lemmas.IeeeDouble
import Verif.Lemmas.ExtendedChecks
import Verif.Lemmas.KnotUtil

/-!
# The routines in IEEE arithmetic: the span, agreement with the other models, the knot test
-/

set_option linter.unusedSectionVars false
set_option exponentiation.threshold 1100

namespace PySpline

open Polynomial Spec Ext

section
variable {K : Type} [Field K] [LinearOrder K]

/-! ## `find_span` -/

theorem findSpanR_lift (rd : K → Ext K) (n p : ℕ) (u : K) (U : List K) :
    findSpanR rd n p (fin u) (lift1 U)
      = findSpanWith (fun a b => iscloseR rd (fin a) (fin b) (1 / 10 ^ 6) atolDefault) (spanFuel n p) n p u U := by
  have h : Follows id (findSpanWith (fun a b => iscloseR rd (fin a) (fin b) (1 / 10 ^ 6) atolDefault)
      (spanFuel n p) n p u U) (findSpanR rd n p (fin u) (lift1 U)) := by
    unfold findSpanR findSpanWith
    refine Follows.bind (Follows.get _ _) fun e => ?_
    exact Follows.ite Iff.rfl (Follows.ok rfl) (findSpanLoopE_follows _ _ _ _ _ _)
  have hfin : findSpanWith (fun a b => iscloseR rd (fin a) (fin b) (1 / 10 ^ 6) atolDefault)
      (spanFuel n p) n p u U ≠ .error .nonfinite := by
    unfold findSpanWith
    intro hc
    rcases hg : pyGet U (n : ℤ) with e | e
    · rw [hg] at hc
      have : e = .nonfinite := by cases hc; rfl
      subst this
      exact pyGet_finite _ _ hg
    · rw [hg, ok_bind] at hc
      split at hc
      · cases hc
      · exact findSpanLoop_finite _ _ _ _ _ _ hc
  rw [h hfin]
  rcases findSpanWith (fun a b => iscloseR rd (fin a) (fin b) (1 / 10 ^ 6) atolDefault)
      (spanFuel n p) n p u U with e | a <;> rfl

/-! ## Agreement -/

theorem rnd_fin (e : Ext K) : rnd fin e = e := by cases e <;> rfl

theorem basisFunctionsR_fin (span : ℤ) (u : Ext K) (p : ℕ) (U : List (Ext K)) :
    basisFunctionsR fin span u p U = basisFunctionsE span u p U := by
  unfold basisFunctionsR basisFunctionsE
  simp only [rnd_fin, divE, ok_bind]

theorem iscloseR_fin (a b : Ext K) (rtol atol : K) :
    iscloseR fin a b rtol atol = Ext.isclose a b (fin rtol) (fin atol) := by
  unfold iscloseR Ext.isclose
  simp only [rnd_fin]

theorem checkKnotVectorR_fin (p : ℕ) (U : List (Ext K)) (n : ℕ) :
    checkKnotVectorR fin p U n = checkKnotVectorE p U n := by
  unfold checkKnotVectorR checkKnotVectorE normalizeR normalizeE checkNormalizedR checkNormalizedE iscloseDE
  simp only [rnd_fin, divE, ok_bind, iscloseR_fin]

theorem Follows.divFl (fl : K → K) (a b : K) :
    Follows fin (pyDivFl fl a b) (.ok (rnd (fun x => fin (fl x)) (fin a / fin b))) := by
  unfold pyDivFl pyDiv
  by_cases h : b = 0
  · intro hne
    rw [if_pos h] at hne
    exact absurd rfl hne
  · rw [if_neg h, ok_bind]
    exact Follows.ok (by rw [fin_div _ h]; rfl)

theorem basisFunctionsR_follows (fl : K → K) (span : ℤ) (u : K) (p : ℕ) (U : List K) :
    Follows lift1 (basisFunctionsFl fl span u p U)
      (basisFunctionsR (fun x => fin (fl x)) span (fin u) p (lift1 U)) := by
  unfold basisFunctionsFl basisFunctionsR
  rw [replicate_zero, replicate_one]
  refine Follows.bind (f := Prod.map lift1 (Prod.map lift1 lift1)) (Follows.forN rfl ?_) ?_
  · rintro j ⟨N, left, right⟩
    dsimp only [Prod.map]
    refine Follows.bind (Follows.get _ _) fun a => ?_
    refine Follows.bind (Follows.set _ _ rfl) fun left => ?_
    refine Follows.bind (Follows.get _ _) fun b => ?_
    refine Follows.bind (Follows.set _ _ rfl) fun right => ?_
    refine Follows.bind (f := Prod.map lift1 fin) (Follows.forN rfl ?_) ?_
    · rintro r ⟨N, saved⟩
      dsimp only [Prod.map]
      refine Follows.bind (Follows.get _ _) fun nr => ?_
      refine Follows.bind (Follows.get _ _) fun rr => ?_
      refine Follows.bind (Follows.get _ _) fun lf => ?_
      have := Follows.bind (Follows.divFl fl nr (fl (rr + lf))) (g := Prod.map lift1 fin)
        (k := fun t => do
          let N ← pySet N r (fl (saved + fl (rr * t)))
          .ok (N, fl (lf * t)))
        (k' := fun t => do
          let N ← pySet (lift1 N) r (rnd (fun x => fin (fl x)) (fin saved + rnd (fun x => fin (fl x)) (fin rr * t)))
          .ok (N, rnd (fun x => fin (fl x)) (fin lf * t))) (fun t =>
          Follows.bind (Follows.set _ _ rfl) fun N => Follows.ok rfl)
      rw [ok_bind] at this
      exact this
    · rintro ⟨N, saved⟩
      dsimp only [Prod.map]
      refine Follows.bind (Follows.set _ _ rfl) fun N => ?_
      exact Follows.ok rfl
  · rintro ⟨N, left, right⟩
    exact Follows.ok rfl

theorem normalizeR_follows (fl : K → K) (U : List K) :
    Follows lift1 (normalizeFl fl U) (normalizeR (fun x => fin (fl x)) (lift1 U)) := by
  unfold normalizeFl normalizeR
  refine Follows.bind (npMaxE_follows U) fun a => ?_
  refine Follows.bind (npMinE_follows U) fun b => ?_
  dsimp only
  have := Follows.bind (Follows.divFl fl 1 (fl (a - b))) (g := lift1)
    (k := fun q => .ok (((U.map fun x => fl (x - fl (b * 1)))).map fun x => fl (x * q)))
    (k' := fun q => .ok ((((lift1 U).map fun x => rnd (fun x => fin (fl x))
      (x - rnd (fun x => fin (fl x)) (fin b * 1)))).map fun x => rnd (fun x => fin (fl x)) (x * q))) (fun q => by
      refine Follows.ok ?_
      rw [List.map_map, List.map_map, List.map_map]
      show _ = List.map fin (List.map _ U)
      rw [List.map_map]
      rfl)
  rw [ok_bind] at this
  exact this

/-! ## `check_knot_vector` -/

theorem Ext.mul_inf_isFin (e : Ext K) (s : Bool) : (e * inf s).isFin = false := by
  rcases e with x | t | _
  · show (Ext.mul (fin x) (inf s)).isFin = false
    unfold Ext.mul
    by_cases h : x = 0
    · simp [h, Ext.isFin]
    · simp [h, Ext.isFin]
  · rfl
  · rfl

theorem Ext.mul_zero_cases (e : Ext K) : e * fin 0 = fin 0 ∨ e * fin 0 = nan := by
  rcases e with x | t | _
  · left
    show fin (x * 0) = fin 0
    rw [mul_zero]
  · right
    show Ext.mul (inf t) (fin 0) = nan
    simp [Ext.mul]
  · right; rfl

theorem rnd_isFin_false (rd : K → Ext K) {e : Ext K} (h : e.isFin = false) : rnd rd e = e := by
  cases e with
  | fin x => cases h
  | inf s => rfl
  | nan => rfl

/-- Normalized knots that are all `0` or NaN, or none of which is finite, are rejected. -/
theorem checkNormalizedR_false (rd : K → Ext K) (p : ℕ) (kv : List (Ext K)) (n : ℕ)
    (h : (∀ e ∈ kv, iscloseR rd 1 e rtolDefault atolDefault = false) ∨
      ∀ e ∈ kv, iscloseR rd 0 e rtolDefault atolDefault = false) :
    checkNormalizedR rd p kv n = .ok false := by
  unfold checkNormalizedR
  split
  · rfl
  · rename_i hl
    rw [ne_eq, not_not] at hl
    split
    · rfl
    · rename_i h2
      rw [not_not] at h2
      rcases h with h | h
      · have e : pyGet kv (-1 * ((p : ℤ) + 1)) = .ok (kv.getD n 0) := by
          unfold pyGet pyIdx
          rw [if_neg (by omega), if_pos (by omega), ok_bind]
          have : (-1 * ((p : ℤ) + 1) + (kv.length : ℤ)).toNat = n := by omega
          rw [this, List.getD_eq_getElem?_getD]
          rw [List.getElem?_eq_getElem (by omega)]
          rfl
        rw [e, ok_bind]
        rw [if_pos]
        rw [h]
        · simp
        · rw [List.getD_eq_getElem?_getD, List.getElem?_eq_getElem (by omega)]
          exact List.getElem_mem _
      · exfalso
        have hs : pySlice kv 0 ((p : ℤ) + 1) = (List.range (p + 1)).map fun r => kv.getD (0 + r) 0 :=
          pySlice_nat kv _ _ 0 (p + 1) 0 (by omega) (by omega) (by omega)
        rw [hs] at h2
        have := List.all_eq_true.1 h2 (kv.getD 0 0) (List.mem_map.2 ⟨0, by simp, by simp⟩)
        rw [h] at this
        · cases this
        · rw [List.getD_eq_getElem?_getD, List.getElem?_eq_getElem (by omega)]
          exact List.getElem_mem _

/-- The knot test when the range of the knots, or its reciprocal, overflows. -/
theorem checkKnotVectorR_false [IsStrictOrderedRing K] {rd : K → Ext K} (h0 : rd 0 = fin 0)
    (hclose : iscloseR rd 1 0 rtolDefault atolDefault = false) (p n : ℕ) {U : List K} {lo hi : K}
    (hlo : lo ∈ U) (hhi : hi ∈ U) (hmin : ∀ x ∈ U, lo ≤ x) (hmax : ∀ x ∈ U, x ≤ hi) {s : Bool}
    (h : rd (hi - lo) = inf s ∨ rnd rd (1 / rd (hi - lo)) = inf s) :
    checkKnotVectorR rd p (lift1 U) n = .ok false := by
  unfold checkKnotVectorR normalizeR
  rw [(npMaxE_follows U).value (npMax_eq hhi hmax), ok_bind,
    (npMinE_follows U).value (npMin_eq hlo hmin), ok_bind]
  dsimp only
  rw [ok_bind, List.map_map]
  have e : rnd rd ((fin hi : Ext K) - fin lo) = rd (hi - lo) := rfl
  rw [e]
  rcases h with h | h
  · have e2 : rnd rd ((1 : Ext K) / inf s) = fin 0 := h0
    rw [h, e2]
    refine checkNormalizedR_false rd p _ n (Or.inl ?_)
    intro y hy
    obtain ⟨x, -, rfl⟩ := List.mem_map.1 hy
    dsimp only [Function.comp]
    rcases Ext.mul_zero_cases (rnd rd (x - rnd rd (fin lo * 1))) with hz | hz
    · rw [hz]
      show iscloseR rd 1 (rd 0) rtolDefault atolDefault = false
      rw [h0]
      exact hclose
    · rw [hz]
      rfl
  · rw [h]
    refine checkNormalizedR_false rd p _ n (Or.inr ?_)
    intro y hy
    obtain ⟨x, -, rfl⟩ := List.mem_map.1 hy
    dsimp only [Function.comp]
    have hz := Ext.mul_inf_isFin (rnd rd (x - rnd rd (fin lo * 1))) s
    rw [rnd_isFin_false rd hz]
    unfold iscloseR
    rw [hz, Bool.and_false, if_neg (by simp)]
    revert hz
    generalize rnd rd (x - rnd rd (fin lo * 1)) * inf s = y
    intro hz
    cases y with
    | fin x => cases hz
    | inf s => rfl
    | nan => rfl

end

/-! ## Double precision -/

theorem bin64_nonneg {x : ℚ} (h : 0 ≤ x) : bin64 x = fin (fl64s x) ∨ bin64 x = inf false := by
  unfold bin64
  split
  · exact Or.inl rfl
  · right
    rw [decide_eq_false (not_lt.2 h)]

/-- The end test of `find_span` is reflexive. -/
theorem iscloseR_bin64_refl (x : ℚ) : iscloseR bin64 (fin x) (fin x) (1 / 10 ^ 6) atolDefault = true := by
  have e1 : bin64 (1 / 10 ^ 6) = fin (fl64s (1 / 10 ^ 6)) := by decide +kernel
  have e2 : bin64 atolDefault = fin (fl64s atolDefault) := by decide +kernel
  have n1 : 0 ≤ fl64s (1 / 10 ^ 6) := fl64s_nonneg (by norm_num)
  have n2 : 0 ≤ fl64s atolDefault := fl64s_nonneg (by unfold atolDefault; norm_num)
  have n3 : 0 ≤ fl64s (1 / 10 ^ 6) * |x| := mul_nonneg n1 (abs_nonneg _)
  unfold iscloseR
  rw [if_pos (by rfl)]
  have e3 : rnd bin64 (fin x - fin x) = fin 0 := by
    show bin64 (x - x) = _
    rw [sub_self]; exact ieeeRounding_bin64.zero
  rw [e3, e1, e2]
  show le (fin |0|) (rnd bin64 (fin (fl64s atolDefault) + bin64 (fl64s (1 / 10 ^ 6) * |x|))) = true
  rw [abs_zero]
  rcases bin64_nonneg n3 with h | h
  · rw [h]
    show le (fin 0) (bin64 (fl64s atolDefault + fl64s (fl64s (1 / 10 ^ 6) * |x|))) = true
    have n4 : 0 ≤ fl64s atolDefault + fl64s (fl64s (1 / 10 ^ 6) * |x|) := add_nonneg n2 (fl64s_nonneg n3)
    rcases bin64_nonneg n4 with h | h
    · rw [h, le_lift]
      exact fl64s_nonneg n4
    · rw [h]; rfl
  · rw [h]; rfl

/-- The end test of `find_span` at the knot `1`. -/
theorem iscloseR_bin64_one {u : ℚ} (h0 : 0 ≤ u) (h1 : u ≤ 1)
    (h : iscloseR bin64 (fin u) (fin 1) (1 / 10 ^ 6) atolDefault = true) : 1 - 102 / 10 ^ 8 ≤ u := by
  unfold iscloseR at h
  rw [if_pos (by rfl)] at h
  have e1 : rnd bin64 (bin64 atolDefault + rnd bin64 (bin64 (1 / 10 ^ 6) * Ext.abs (fin 1)))
      = fin (fl64s (fl64s atolDefault + fl64s (fl64s (1 / 10 ^ 6) * |1|))) := by decide +kernel
  have e2 : fl64s (fl64s atolDefault + fl64s (fl64s (1 / 10 ^ 6) * |1|)) ≤ 1015 / 10 ^ 9 := by decide +kernel
  have e3 : rnd bin64 (fin u - fin 1) = fin (-fl64s (1 - u)) := by
    show bin64 (u - 1) = _
    rw [show u - 1 = -(1 - u) by ring, ieeeRounding_bin64.neg, bin64_le (by linarith)
      (le_trans (by linarith) (one_le_pow₀ (by norm_num)))]
    rfl
  rw [e1, e3] at h
  have h2 := (le_lift _ _).1 h
  rw [abs_neg, abs_of_nonneg (fl64s_nonneg (by linarith))] at h2
  have h3 := (fl64s_near (x := 1 - u) (by linarith)).1
  have h4 : (1 : ℚ) / 2 ^ 1075 ≤ 1 / 10 ^ 10 := by
    refine one_div_le_one_div_of_le (by norm_num) (le_trans (b := 2 ^ 60) (by norm_num) ?_)
    exact pow_le_pow_right₀ (by norm_num) (by norm_num)
  have h5 : (1 - u) * (1 - 1 / 10 ^ 10) ≤ (1 - u) * (1 - 1 / 2 ^ 53) :=
    mul_le_mul_of_nonneg_left (by norm_num) (by linarith)
  have h6 : (1 - u) * (1 - 1 / 10 ^ 10) ≤ 1015 / 10 ^ 9 + 1 / 10 ^ 10 := by linarith
  linarith

/-- Overflow. -/
theorem bin64_overflow {x : ℚ} (h : 2 ^ 1024 ≤ x) : bin64 x = inf false := by
  have hx : 0 < x := lt_of_lt_of_le (pow_pos (by norm_num) _) h
  have e : (2 : ℚ) ^ 1024 = 2 ^ (1024 : ℤ) := by norm_cast
  have hn : fl64s x = fl64 x := fl64s_normal (le_trans (by
    rw [e]; exact zpow_le_zpow_right₀ (by norm_num) (by norm_num)) h)
  have h1 : (2 : ℚ) ^ 1024 ≤ fl64s x := by
    rw [hn, fl64_of_pos hx, e]
    refine le_trans (zpow_le_zpow_right₀ (by norm_num) ?_) (fl64pos_bounds hx).1
    rw [e] at h
    have := (zpow_lt_zpow_iff_right₀ (by norm_num : (1 : ℚ) < 2)).1 (h.trans_lt (expo_spec hx).2)
    omega
  unfold bin64
  rw [if_neg (by rw [abs_of_nonneg (fl64s_nonneg hx.le)]; exact not_lt.2 h1), decide_eq_false (not_lt.2 hx.le)]

/-- The difference of doubles that lie close together is exact, and is not lost to underflow. -/
theorem bin64_sub_tiny {x y : ℚ} (hx : bin64 x = fin x) (hy : bin64 y = fin y) (h0 : y ≤ x)
    (h : x - y < (2 : ℚ) ^ (-1022 : ℤ)) : bin64 (x - y) = fin (x - y) := by
  obtain ⟨a, ha⟩ := fl64s_multiple x
  obtain ⟨b, hb⟩ := fl64s_multiple y
  have e : x - y = ((a - b : ℤ) : ℚ) * (2 : ℚ) ^ (-1074 : ℤ) := by
    rw [(bin64_eq_fin hx).1, (bin64_eq_fin hy).1, ha, hb]; push_cast; ring
  have h1 : fl64s (x - y) = x - y := by
    have h0' : 0 ≤ x - y := by linarith
    rw [e] at h h0' ⊢
    exact fl64s_fix_sub h0' h
  have h2 : x - y ≤ 2 ^ 1023 :=
    h.le.trans (le_trans (zpow_le_zpow_right₀ (by norm_num) (show (-1022 : ℤ) ≤ 0 by norm_num))
      (by rw [zpow_zero]; exact one_le_pow₀ (by norm_num)))
  rw [bin64_le (by linarith) h2, h1]

end PySpline
