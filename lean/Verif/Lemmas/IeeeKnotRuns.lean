import Verif.Lemmas.IeeeKnotFit

/-!
# The runs of the curve fits in double precision
-/

set_option linter.unusedSectionVars false
set_option exponentiation.threshold 1100

namespace PySpline

open Spec Ext Finset

/-- The runs of `fit_curve_knot_insertion` in double precision. -/
theorem knotFitR_runs {E : Err → Prop} {B : ℚ} (hB0 : 1 / 2 ^ 1000 ≤ B) (hB1 : B ≤ 2 ^ 1019)
    {ls : ℕ → List (List (Ext ℚ)) → List (Ext ℚ) → Py (List (Ext ℚ))} (hls : TameSolver bin64 (2 ^ 1023) B E ls)
    {inv : Curve (Ext ℚ) → List (Ext ℚ) → Py (Ext ℚ)} {data : List (List ℚ)} (h3 : ∀ pt ∈ data, pt.length = 3)
    (hdata : ∀ pt ∈ data, ∀ x ∈ pt, bin64 x = fin x ∧ |x| ≤ B) {p : ℕ} (hp : 1 ≤ p) (hp10 : p ≤ 10)
    (hinv : ∀ (n : ℕ) (δ : ℚ) (c : Curve ℚ), Spaced p n δ c → 0 < δ → StoredCurve bin64 (2 * B) c →
      ∀ pt ∈ data, (∃ e, E e ∧ inv c.lift (lift1 pt) = .error e) ∨
        ∃ u, inv c.lift (lift1 pt) = .ok (fin u) ∧ bin64 u = fin u ∧ 0 ≤ u ∧ u ≤ 1) (N : ℤ) (t : ℕ) :
    ∀ {n fuel : ℕ} {δ : ℚ} {c : Curve ℚ}, Spaced p n δ c → StoredCurve bin64 (2 * B) c →
      (∀ k < 3, |coord c.ctrlpts k 0| ≤ B ∧ |coord c.ctrlpts k (n - 1)| ≤ B) →
      2 ^ t * (2 / 10 ^ 5) + 2 * (2 ^ t - 1) * (1 / 2 ^ 52) ≤ δ → t < fuel →
      5 * p + (p + 2 ^ t * (n - p)) + data.length ≤ 10 ^ 8 →
      N ≤ ((p + 2 ^ t * (n - p) : ℕ) : ℤ) → (∀ s < t, ((p + 2 ^ s * (n - p) : ℕ) : ℤ) < N) →
      (∃ res, KnotFitR bin64 ls inv (lift2 data) N fuel c.lift res) ∧
      ∀ res, KnotFitR bin64 ls inv (lift2 data) N fuel c.lift res → (∃ e, E e ∧ res = .error e) ∨
      ∃ c' δ', res = .ok (Curve.lift c') ∧ 0 < δ' ∧ Spaced p (p + 2 ^ t * (n - p)) δ' c' ∧ StoredCurve bin64 B c' ∧
        (∀ i < n - p, ∀ j ≤ 2 ^ t, |knotFn c'.kv (p + 2 ^ t * i + j) - (knotFn c.kv (p + i)
          + (j : ℚ) / 2 ^ t * (knotFn c.kv (p + i + 1) - knotFn c.kv (p + i)))| ≤ t * (1 / 2 ^ 52)) ∧
        c'.ctrlpts.getD 0 [] = c.ctrlpts.getD 0 [] ∧
        c'.ctrlpts.getD (p + 2 ^ t * (n - p) - 1) [] = c.ctrlpts.getD (n - 1) [] ∧
        ∃ (P : List (List ℚ)) (rows : List (List ℚ)), Shape P (p + 2 ^ t * (n - p)) 3 ∧
          parameterizeCurveWithE (inv (Curve.lift { c' with ctrlpts := P })) (lift2 data) = .ok (lift2 rows) ∧
          SingleFitCurveR bin64 ls (Curve.lift { c' with ctrlpts := P }) (lift2 rows) (.ok c'.lift) := by
  have htol : (0 : ℚ) < 2 / 10 ^ 5 := by norm_num
  have hη : (0 : ℚ) ≤ 1 / 2 ^ 52 := by norm_num
  have htiny : (1 : ℚ) / 2 ^ 1000 ≤ 2 / 10 ^ 5 := by
    refine le_trans (one_div_le_one_div_of_le (by norm_num) (pow_le_pow_right₀ (by norm_num) (show 20 ≤ 1000 by norm_num))) ?_
    norm_num
  induction t with
  | zero =>
    intro n fuel δ c h hst hends hδ hf hsize hN _
    have hsz := h.clamped.size
    obtain ⟨fuel, rfl⟩ : ∃ f, fuel = f + 1 := ⟨fuel - 1, by omega⟩
    have hδ0 : 2 / 10 ^ 5 ≤ δ := by
      rw [pow_zero] at hδ
      linarith
    have en : p + 2 ^ 0 * (n - p) = n := by rw [pow_zero]; omega
    rw [en] at hN hsize ⊢
    rcases refitR_finite hB0 hB1 hls h3 hdata (hinv n δ c h (by linarith) hst) hp10 h (htiny.trans hδ0) hst hends hsize with
      ⟨e, he, hrows⟩ | ⟨rows, hrows, ⟨res, hres⟩, hall⟩
    · refine ⟨⟨.error e, Or.inl ⟨e, hrows, rfl⟩⟩, fun r hr => ?_⟩
      unfold KnotFitR at hr
      rcases hr with ⟨e', he', rfl⟩ | ⟨rows', res', hrows', -⟩
      · rw [hrows] at he'
        cases he'
        exact Or.inl ⟨e, he, rfl⟩
      · rw [hrows] at hrows'; cases hrows'
    refine ⟨?_, ?_⟩
    · rcases hall res hres with ⟨e, he, rfl⟩ | ⟨c', rfl, hs, -⟩
      · exact ⟨.error e, Or.inr ⟨lift2 rows, _, hrows, hres, rfl⟩⟩
      · refine ⟨.ok c'.lift, Or.inr ⟨lift2 rows, _, hrows, hres, ?_⟩⟩
        dsimp only
        rw [show c'.lift.ctrlpts.length = n from (List.length_map _).trans hs.pts.1, if_pos hN]
    · intro r hr
      unfold KnotFitR at hr
      rcases hr with ⟨e, he, -⟩ | ⟨rows', res', hrows', hres', hr⟩
      · rw [hrows] at he; cases he
      rw [hrows] at hrows'
      cases hrows'
      rcases hall res' hres' with ⟨e, he, rfl⟩ | ⟨c', rfl, hs, hst', hk, e0, e1⟩
      · exact Or.inl ⟨e, he, hr⟩
      dsimp only at hr
      rw [show c'.lift.ctrlpts.length = n from (List.length_map _).trans hs.pts.1, if_pos hN] at hr
      refine Or.inr ⟨c', δ, hr, by linarith, hs, hst', fun i hi j hj => ?_, e0, e1, c.ctrlpts, rows, h.pts, ?_⟩
      · rw [hk, pow_zero, one_mul, pow_zero, div_one]
        have : j = 0 ∨ j = 1 := by simp at hj; omega
        rcases this with rfl | rfl <;> simp
      · have ec : ({ c' with ctrlpts := c.ctrlpts } : Curve ℚ) = c := by
          rw [hk, hs.deg, ← h.deg]
        rw [ec]
        exact ⟨hrows, hres'⟩
  | succ t ih =>
    intro n fuel δ c h hst hends hδ hf hsize hN hlt
    have hsz := h.clamped.size
    obtain ⟨fuel, rfl⟩ : ∃ f, fuel = f + 1 := ⟨fuel - 1, by omega⟩
    have h2t : (1 : ℚ) ≤ 2 ^ t := one_le_pow₀ (by norm_num)
    have hpow : (2 : ℚ) ^ (t + 1) = 2 ^ t * 2 := pow_succ 2 t
    have g1 : 0 ≤ ((2 : ℚ) ^ t - 1) * (2 / 10 ^ 5) := mul_nonneg (by linarith) htol.le
    have g2 : 0 ≤ ((2 : ℚ) ^ t - 1) * (1 / 2 ^ 52) := mul_nonneg (by linarith) hη
    rw [hpow] at hδ
    have hδ2 : 2 / 10 ^ 5 + 1 / 2 ^ 52 ≤ δ / 2 := by linarith
    have hδ0 : 2 / 10 ^ 5 ≤ δ := by linarith
    have hnat : 2 ^ (t + 1) * (n - p) = 2 * (2 ^ t * (n - p)) := by rw [pow_succ]; ring
    have hle : n - p ≤ 2 ^ t * (n - p) := Nat.le_mul_of_pos_left _ (by positivity)
    rcases refitR_finite hB0 hB1 hls h3 hdata (hinv n δ c h (by linarith) hst) hp10 h (htiny.trans hδ0) hst hends (by omega) with
      ⟨e, he, hrows⟩ | ⟨rows, hrows, ⟨res, hres⟩, hall⟩
    · refine ⟨⟨.error e, Or.inl ⟨e, hrows, rfl⟩⟩, fun r hr => ?_⟩
      unfold KnotFitR at hr
      rcases hr with ⟨e', he', rfl⟩ | ⟨rows', res', hrows', -⟩
      · rw [hrows] at he'
        cases he'
        exact Or.inl ⟨e, he, rfl⟩
      · rw [hrows] at hrows'; cases hrows'
    have hn2 : p + 2 * (n - p) - p = 2 * (n - p) := by omega
    have hn3 : p + 2 ^ t * (2 * (n - p)) = p + 2 ^ (t + 1) * (n - p) := by rw [pow_succ]; ring
    have hh := hlt 0 (by omega)
    rw [pow_zero, one_mul] at hh
    have hV := monotone_knotFn h.clamped.mono
    -- one round of insertion after the fit
    have round : ∀ c1 : Curve ℚ, Spaced p n δ c1 → StoredCurve bin64 B c1 → c1.kv = c.kv →
        c1.ctrlpts.getD 0 [] = c.ctrlpts.getD 0 [] → c1.ctrlpts.getD (n - 1) [] = c.ctrlpts.getD (n - 1) [] → ∃ c2 : Curve ℚ,
        (do let ks ← midKnotsR bin64 c1.lift
            forL ks c1.lift fun u c => c.insertKnotR bin64 u) = .ok c2.lift ∧
        Spaced p (p + 2 * (n - p)) (δ / 2 - 1 / 2 ^ 52) c2 ∧ StoredCurve bin64 (2 * B) c2 ∧
        (∀ k < 3, |coord c2.ctrlpts k 0| ≤ B ∧ |coord c2.ctrlpts k (p + 2 * (n - p) - 1)| ≤ B) ∧
        (∀ t, t ≤ n - p → knotFn c2.kv (p + 2 * t) = knotFn c.kv (p + t)) ∧
        (∀ t, t < n - p → |knotFn c2.kv (p + 2 * t + 1) - (knotFn c.kv (p + t) + knotFn c.kv (p + t + 1)) / 2| ≤ 1 / 2 ^ 52) ∧
        c2.ctrlpts.getD 0 [] = c1.ctrlpts.getD 0 [] ∧
        c2.ctrlpts.getD (p + 2 * (n - p) - 1) [] = c1.ctrlpts.getD (n - 1) [] := by
      intro c1 hs1 hst1 hk1 q0 q1
      obtain ⟨c2, hc2, hs2, hst2, ev, od, f0, f1⟩ := insertRoundR hs1 hp hp10 hst1 hB0 hB1 (by omega) hδ2
      rw [hk1] at ev od
      refine ⟨c2, hc2, hs2, hst2, fun k hk => ?_, ev, fun s hs => ?_, f0, f1⟩
      · unfold coord
        rw [f0, f1, q0, q1]
        exact hends k hk
      · rw [od s hs]
        exact mid_knot_error (by rw [← h.zero]; exact hV (Nat.zero_le _)) (hV (Nat.le_succ _))
          (by rw [← h.one]; exact hV (by omega))
    have rest : ∀ c2 : Curve ℚ, Spaced p (p + 2 * (n - p)) (δ / 2 - 1 / 2 ^ 52) c2 → StoredCurve bin64 (2 * B) c2 →
        (∀ k < 3, |coord c2.ctrlpts k 0| ≤ B ∧ |coord c2.ctrlpts k (p + 2 * (n - p) - 1)| ≤ B) → _ := fun c2 hs2 hst2 hb2 =>
      ih (n := p + 2 * (n - p)) (fuel := fuel) hs2 hst2 hb2 (by linarith) (by omega)
        (by rw [hn2, hn3]; exact hsize) (by rw [hn2, hn3]; exact hN)
        (fun s hs => by
          rw [hn2, show p + 2 ^ s * (2 * (n - p)) = p + 2 ^ (s + 1) * (n - p) by rw [pow_succ]; ring]
          exact hlt (s + 1) (by omega))
    refine ⟨?_, ?_⟩
    · rcases hall res hres with ⟨e, he, rfl⟩ | ⟨c1, rfl, hs1, hst1, hk1, e0, e1⟩
      · exact ⟨.error e, Or.inr ⟨lift2 rows, _, hrows, hres, rfl⟩⟩
      obtain ⟨c2, hc2, hs2, hst2, hb2, -⟩ := round c1 hs1 hst1 hk1 e0 e1
      obtain ⟨⟨r, hr⟩, -⟩ := rest c2 hs2 hst2 hb2
      refine ⟨r, Or.inr ⟨lift2 rows, _, hrows, hres, ?_⟩⟩
      dsimp only
      rw [show c1.lift.ctrlpts.length = n from (List.length_map _).trans hs1.pts.1, if_neg (by omega), hc2]
      exact hr
    · intro r hr
      unfold KnotFitR at hr
      rcases hr with ⟨e, he, -⟩ | ⟨rows', res', hrows', hres', hr⟩
      · rw [hrows] at he; cases he
      rw [hrows] at hrows'
      cases hrows'
      rcases hall res' hres' with ⟨e, he, rfl⟩ | ⟨c1, rfl, hs1, hst1, hk1, e0, e1⟩
      · exact Or.inl ⟨e, he, hr⟩
      obtain ⟨c2, hc2, hs2, hst2, hb2, ev, od, f0, f1⟩ := round c1 hs1 hst1 hk1 e0 e1
      dsimp only at hr
      rw [show c1.lift.ctrlpts.length = n from (List.length_map _).trans hs1.pts.1, if_neg (by omega), hc2] at hr
      rcases (rest c2 hs2 hst2 hb2).2 r hr with herr | ⟨c', δ', hret, hδ', hs', hst', hval, u0, u1, P, prow, hP, hlast⟩
      · exact Or.inl herr
      rw [hn2, hn3] at hs' u1 hP
      rw [hn2] at hval
      refine Or.inr ⟨c', δ', hret, hδ', hs', hst', fun i hi j hj => ?_, by rw [u0, f0, e0], by rw [u1, f1, e1], P, prow, hP,
        hlast⟩
      have hne : (2 : ℚ) ^ t ≠ 0 := by positivity
      have ho := od i hi
      set A := knotFn c.kv (p + i)
      set B := knotFn c.kv (p + i + 1)
      set Mid := knotFn c2.kv (p + 2 * i + 1) with hMid
      have hpn : 2 ^ (t + 1) = 2 ^ t + 2 ^ t := by rw [pow_succ]; omega
      push_cast
      by_cases hj2 : j ≤ 2 ^ t
      · have := hval (2 * i) (by omega) j hj2
        rw [show p + 2 ^ t * (2 * i) + j = p + 2 ^ (t + 1) * i + j by rw [pow_succ]; ring, ev i (by omega),
          ← hMid] at this
        have w0 : (0 : ℚ) ≤ j / 2 ^ t := by positivity
        have w1 : (j : ℚ) / 2 ^ t ≤ 1 := by rw [div_le_one (by positivity)]; exact_mod_cast hj2
        have hsplit : A + (j : ℚ) / 2 ^ (t + 1) * (B - A) = A + j / 2 ^ t * (Mid - A) - j / 2 ^ t * (Mid - (A + B) / 2) := by
          rw [hpow]; field_simp; ring
        rw [hsplit]
        have hb : |(j : ℚ) / 2 ^ t * (Mid - (A + B) / 2)| ≤ 1 * (1 / 2 ^ 52) := by
          rw [abs_mul, abs_of_nonneg w0]
          exact mul_le_mul w1 ho (abs_nonneg _) zero_le_one
        rw [abs_le] at this hb ⊢
        constructor <;> linarith
      · have := hval (2 * i + 1) (by omega) (j - 2 ^ t) (by omega)
        have e : p + 2 ^ t * (2 * i + 1) + (j - 2 ^ t) = p + 2 ^ (t + 1) * i + j := by
          have : 2 ^ t * (2 * i + 1) = 2 ^ (t + 1) * i + 2 ^ t := by rw [pow_succ]; ring
          omega
        rw [e, ← add_assoc, show p + 2 * i + 1 + 1 = p + 2 * (i + 1) by ring, ev (i + 1) (by omega),
          ← add_assoc, ← hMid] at this
        set w : ℚ := ((j - 2 ^ t : ℕ) : ℚ) / 2 ^ t with hw
        have w0 : 0 ≤ w := by positivity
        have w1 : w ≤ 1 := by
          rw [hw, div_le_one (by positivity)]
          exact_mod_cast (show j - 2 ^ t ≤ 2 ^ t by omega)
        have hj' : (j : ℚ) / 2 ^ (t + 1) = (1 + w) / 2 := by
          rw [hw, Nat.cast_sub (by omega), hpow]; push_cast; field_simp; ring
        have hsplit : A + (j : ℚ) / 2 ^ (t + 1) * (B - A) = Mid + w * (B - Mid) - (1 - w) * (Mid - (A + B) / 2) := by
          rw [hj']; ring
        rw [hsplit]
        have hb : |(1 - w) * (Mid - (A + B) / 2)| ≤ 1 * (1 / 2 ^ 52) := by
          rw [abs_mul, abs_of_nonneg (by linarith)]
          exact mul_le_mul (by linarith) ho (abs_nonneg _) zero_le_one
        rw [abs_le] at this hb ⊢
        constructor <;> linarith

end PySpline
