import Verif.Lemmas.RoundedKnotFit
import Verif.Props.RoundedSolve

/-!
# Lemmas for the curve fits in double precision
-/

namespace PySpline

open Spec Finset


/-- The computed midpoint of a span in `[0, 1]` is right up to `2^-52`. -/
theorem mid_knot_error {l r : ℚ} (h0 : 0 ≤ l) (h : l ≤ r) (h1 : r ≤ 1) :
    |midFl fl64 l r - (l + r) / 2| ≤ 1 / 2 ^ 52 := by
  have hd : 0 ≤ r - l := by linarith
  have d0 := fl64_nonneg hd
  have d1 := fl64_lower hd
  have d2 := fl64_upper hd
  have e0 := fl64_nonneg (x := fl64 (r - l) / 2) (by positivity)
  have e1 := fl64_lower (x := fl64 (r - l) / 2) (by positivity)
  have e2 := fl64_upper (x := fl64 (r - l) / 2) (by positivity)
  have f1 := fl64_lower (x := l + fl64 (fl64 (r - l) / 2)) (by positivity)
  have f2 := fl64_upper (x := l + fl64 (fl64 (r - l) / 2)) (by positivity)
  unfold midFl
  rw [abs_le]
  norm_num at *
  constructor <;> linarith

/-- The computed midpoint of a span between multiples of `2^-e` is exact. -/
theorem mid_knot_exact {e a b : ℕ} (he : e ≤ 52) (hab : a ≤ b) (hb : b ≤ 2 ^ e) :
    midFl fl64 (a / 2 ^ e) (b / 2 ^ e) = ((a + b : ℕ) : ℚ) / 2 ^ (e + 1) ∧
      midFl fl64 (a / 2 ^ e) (b / 2 ^ e) = ((a : ℚ) / 2 ^ e + b / 2 ^ e) / 2 := by
  have h53 : 2 ^ (e + 1) ≤ 2 ^ 53 := Nat.pow_le_pow_right (by norm_num) (by omega)
  have hpow : 2 ^ (e + 1) = 2 * 2 ^ e := by rw [pow_succ]; ring
  have key : ∀ (m k : ℕ), m ≤ 2 ^ 53 → fl64 ((m : ℚ) / 2 ^ k) = m / 2 ^ k := fun m k hm => by
    have := fl64_dyadic hm (-(k : ℤ))
    rwa [zpow_neg, zpow_natCast, ← div_eq_mul_inv] at this
  have e1 : (b : ℚ) / 2 ^ e - a / 2 ^ e = ((b - a : ℕ) : ℚ) / 2 ^ e := by
    rw [Nat.cast_sub hab]; ring
  have e2 : ((b - a : ℕ) : ℚ) / 2 ^ e / 2 = ((b - a : ℕ) : ℚ) / 2 ^ (e + 1) := by
    rw [pow_succ]; field_simp
  have e3 : (a : ℚ) / 2 ^ e + ((b - a : ℕ) : ℚ) / 2 ^ (e + 1) = ((a + b : ℕ) : ℚ) / 2 ^ (e + 1) := by
    rw [Nat.cast_sub hab, pow_succ]; push_cast; field_simp; ring
  have hm : midFl fl64 (a / 2 ^ e) (b / 2 ^ e) = ((a + b : ℕ) : ℚ) / 2 ^ (e + 1) := by
    unfold midFl
    rw [e1, key _ _ (by omega), e2, key _ _ (by omega), e3, key _ _ (by omega)]
  refine ⟨hm, ?_⟩
  rw [hm, pow_succ]
  push_cast
  field_simp

/-- The runs of the loop, if the midpoints of knots that are `good` are right up to `η` and `good` again. -/
theorem knotFit_runs {ls : ℕ → List (List ℚ) → List ℚ → List ℚ}
    (hlen : ∀ n A b, A.length = b.length → (∀ row ∈ A, row.length = n) → (ls n A b).length = n)
    {inv : Curve ℚ → List ℚ → Py ℚ} {data : List (List ℚ)} (h3 : ∀ pt ∈ data, pt.length = 3) {p : ℕ} (hp : 1 ≤ p)
    (hinv : ∀ (n : ℕ) (δ : ℚ) (c : Curve ℚ), Spaced p n δ c → 0 < δ →
      ∀ pt ∈ data, ∃ u, inv c pt = .ok u ∧ 0 ≤ u ∧ u ≤ 1) (N : ℤ) {η : ℚ} (hη : 0 ≤ η) (good : ℕ → ℚ → Prop)
    (hgood : ∀ t l r, good (t + 1) l → good (t + 1) r → 0 ≤ l → l ≤ r → r ≤ 1 →
      good t (midFl fl64 l r) ∧ |midFl fl64 l r - (l + r) / 2| ≤ η)
    (hkeep : ∀ t x, good (t + 1) x → good t x) (t : ℕ) :
    ∀ {n fuel : ℕ} {δ : ℚ} {c : Curve ℚ}, Spaced p n δ c → (∀ i ≤ n + p, good t (knotFn c.kv i)) →
      2 ^ t * (2 / 10 ^ 5) + 2 * (2 ^ t - 1) * η ≤ δ → t < fuel →
      5 * p + (p + 2 ^ t * (n - p)) + data.length ≤ 10 ^ 10 →
      N ≤ ((p + 2 ^ t * (n - p) : ℕ) : ℤ) → (∀ s < t, ((p + 2 ^ s * (n - p) : ℕ) : ℤ) < N) →
      (∃ res, KnotFitFl fl64 ls inv data N fuel c res) ∧ ∀ res, KnotFitFl fl64 ls inv data N fuel c res →
      ∃ c' δ', res = .ok c' ∧ 0 < δ' ∧ Spaced p (p + 2 ^ t * (n - p)) δ' c' ∧
        (∀ i ≤ p + 2 ^ t * (n - p) + p, good 0 (knotFn c'.kv i)) ∧
        (∀ i < n - p, ∀ j ≤ 2 ^ t, |knotFn c'.kv (p + 2 ^ t * i + j) - (knotFn c.kv (p + i)
          + (j : ℚ) / 2 ^ t * (knotFn c.kv (p + i + 1) - knotFn c.kv (p + i)))| ≤ t * η) ∧
        c'.ctrlpts.getD 0 [] = c.ctrlpts.getD 0 [] ∧
        c'.ctrlpts.getD (p + 2 ^ t * (n - p) - 1) [] = c.ctrlpts.getD (n - 1) [] ∧
        ∃ (P : List (List ℚ)) (rows : List (List ℚ)), Shape P (p + 2 ^ t * (n - p)) 3 ∧
          parameterizeCurveWith (inv { c' with ctrlpts := P }) data = .ok rows ∧
          SingleFitCurveFl fl64 ls { c' with ctrlpts := P } rows (.ok c') := by
  have step : ∀ {n : ℕ} {δ : ℚ} {c : Curve ℚ}, Spaced p n δ c → 0 < δ → 5 * p + n + data.length ≤ 10 ^ 10 →
      ∃ rows, parameterizeCurveWith (inv c) data = .ok rows ∧ (∃ res, SingleFitCurveFl fl64 ls c rows res) ∧
        ∀ res, SingleFitCurveFl fl64 ls c rows res → ∃ c', res = .ok c' ∧ Spaced p n δ c' ∧ c'.kv = c.kv ∧
          c'.ctrlpts.getD 0 [] = c.ctrlpts.getD 0 [] ∧ c'.ctrlpts.getD (n - 1) [] = c.ctrlpts.getD (n - 1) [] := by
    intro n δ c h hδ hs
    have hsz := h.clamped.size
    obtain ⟨rows, hrows, hsh, hran⟩ := parameterizeCurveWith_range h3 (hinv n δ c h hδ)
    have hp0 : knotFn c.kv p = 0 := by rw [h.clamped.left p le_rfl, h.zero]
    have hn1 : knotFn c.kv n = 1 := by rw [h.clamped.right n le_rfl (by omega), h.one]
    have hdeg := h.deg
    obtain ⟨hex, hall⟩ := singleFitCurve_double_returns hlen (c := c) (data := rows) (m := data.length) (n := n)
      (by rw [hdeg]; exact h.clamped) (by rw [hdeg]; exact h.distinct hδ p le_rfl hsz) h.pts hsh
      (fun r hr => by rw [hdeg, hp0, hn1]; exact hran r hr) (by rw [hdeg]; exact hs)
    refine ⟨rows, hrows, hex, fun res hres => ?_⟩
    obtain ⟨c', hc', hd', hk', hP', e0, e1⟩ := hall res hres
    refine ⟨c', hc', ⟨by rw [hd', hdeg], hP', ?_, ?_, ?_, ?_⟩, hk', e0, e1⟩
    · rw [hk']; exact h.clamped
    · rw [hk']; exact h.zero
    · rw [hk']; exact h.one
    · rw [hk']; exact h.gap
  have htol : (0 : ℚ) < 2 / 10 ^ 5 := by norm_num
  induction t with
  | zero =>
    intro n fuel δ c h hg hδ hf hsize hN _
    have hsz := h.clamped.size
    obtain ⟨fuel, rfl⟩ : ∃ f, fuel = f + 1 := ⟨fuel - 1, by omega⟩
    have hδ0 : 0 < δ := by norm_num at hδ; linarith
    have en : p + 2 ^ 0 * (n - p) = n := by rw [pow_zero]; omega
    rw [en] at hN hsize ⊢
    obtain ⟨rows, hrows, ⟨res, hres⟩, hall⟩ := step h hδ0 hsize
    refine ⟨?_, ?_⟩
    · obtain ⟨c', rfl, hs, -⟩ := hall res hres
      refine ⟨.ok c', Or.inr ⟨rows, _, hrows, hres, ?_⟩⟩
      dsimp only
      rw [hs.pts.1, if_pos hN]
    · intro r hr
      unfold KnotFitFl at hr
      rcases hr with ⟨e, he, -⟩ | ⟨rows', res', hrows', hres', hr⟩
      · rw [hrows] at he; cases he
      rw [hrows] at hrows'
      cases hrows'
      obtain ⟨c', rfl, hs, hk, e0, e1⟩ := hall res' hres'
      dsimp only at hr
      rw [hs.pts.1, if_pos hN] at hr
      refine ⟨c', δ, hr, hδ0, hs, fun i hi => by rw [hk]; exact hg i hi, fun i hi j hj => ?_, e0, e1, c.ctrlpts, rows,
        h.pts, ?_⟩
      · rw [hk, pow_zero, one_mul, pow_zero, div_one]
        have : j = 0 ∨ j = 1 := by simp at hj; omega
        rcases this with rfl | rfl <;> simp
      · have ec : ({ c' with ctrlpts := c.ctrlpts } : Curve ℚ) = c := by
          rw [hk, hs.deg, ← h.deg]
        rw [ec]
        exact ⟨hrows, hres'⟩
  | succ t ih =>
    intro n fuel δ c h hg hδ hf hsize hN hlt
    have hsz := h.clamped.size
    obtain ⟨fuel, rfl⟩ : ∃ f, fuel = f + 1 := ⟨fuel - 1, by omega⟩
    have h2t : (1 : ℚ) ≤ 2 ^ t := one_le_pow₀ (by norm_num)
    have hpow : (2 : ℚ) ^ (t + 1) = 2 ^ t * 2 := pow_succ 2 t
    have g1 : 0 ≤ ((2 : ℚ) ^ t - 1) * (2 / 10 ^ 5) := mul_nonneg (by linarith) htol.le
    have g2 : 0 ≤ ((2 : ℚ) ^ t - 1) * η := mul_nonneg (by linarith) hη
    rw [hpow] at hδ
    have hδ2 : 2 / 10 ^ 5 + η ≤ δ / 2 := by linarith
    have hδ0 : 0 < δ := by linarith
    have hnat : 2 ^ (t + 1) * (n - p) = 2 * (2 ^ t * (n - p)) := by rw [pow_succ]; ring
    have hle : n - p ≤ 2 ^ t * (n - p) := Nat.le_mul_of_pos_left _ (by positivity)
    obtain ⟨rows, hrows, ⟨res, hres⟩, hall⟩ := step h hδ0 (by omega)
    have hn2 : p + 2 * (n - p) - p = 2 * (n - p) := by omega
    have hn3 : p + 2 ^ t * (2 * (n - p)) = p + 2 ^ (t + 1) * (n - p) := by rw [pow_succ]; ring
    have hh := hlt 0 (by omega)
    rw [pow_zero, one_mul] at hh
    have hV := monotone_knotFn h.clamped.mono
    -- one round of insertion after the fit
    have round : ∀ c1 : Curve ℚ, Spaced p n δ c1 → c1.kv = c.kv → ∃ c2,
        (do let ks ← midKnotsFl fl64 c1
            forL ks c1 fun u c => c.insertKnotFl fl64 u) = .ok c2 ∧ Spaced p (p + 2 * (n - p)) (δ / 2 - η) c2 ∧
        (∀ i ≤ p + 2 * (n - p) + p, good t (knotFn c2.kv i)) ∧
        (∀ t, t ≤ n - p → knotFn c2.kv (p + 2 * t) = knotFn c.kv (p + t)) ∧
        (∀ t, t < n - p → |knotFn c2.kv (p + 2 * t + 1) - (knotFn c.kv (p + t) + knotFn c.kv (p + t + 1)) / 2| ≤ η) ∧
        c2.ctrlpts.getD 0 [] = c1.ctrlpts.getD 0 [] ∧
        c2.ctrlpts.getD (p + 2 * (n - p) - 1) [] = c1.ctrlpts.getD (n - 1) [] := by
      intro c1 hs1 hk1
      have hmid : ∀ i, p ≤ i → i < n → good t (midFl fl64 (knotFn c.kv i) (knotFn c.kv (i + 1))) ∧
          |midFl fl64 (knotFn c.kv i) (knotFn c.kv (i + 1)) - (knotFn c.kv i + knotFn c.kv (i + 1)) / 2| ≤ η :=
        fun i h1 h2 => hgood t _ _ (hg i (by omega)) (hg (i + 1) (by omega))
          (by rw [← h.zero]; exact hV (Nat.zero_le _)) (hV (Nat.le_succ i)) (by rw [← h.one]; exact hV (by omega))
      obtain ⟨c2, hc2, hs2, ev, od, f0, f1⟩ := insertRoundFl hs1 hp
        (fun i h1 h2 => by rw [hk1]; exact (hmid i h1 h2).2) hδ2
      rw [hk1] at ev od
      refine ⟨c2, hc2, hs2, fun i hi => ?_, ev, fun s hs => by rw [od s hs]; exact (hmid _ (by omega) (by omega)).2, f0, f1⟩
      have hev : ∀ s, s ≤ n - p → good t (knotFn c2.kv (p + 2 * s)) := fun s hs => by
        rw [ev s hs]; exact hkeep t _ (hg _ (by omega))
      rcases Nat.lt_or_ge i p with h1 | h1
      · rw [hs2.clamped.left i h1.le, ← hs2.clamped.left p le_rfl]; exact hev 0 (by omega)
      rcases Nat.lt_or_ge (p + 2 * (n - p)) i with h2 | h2
      · rw [hs2.clamped.right i h2.le (by omega), ← hs2.clamped.right (p + 2 * (n - p)) le_rfl (by omega)]
        exact hev (n - p) le_rfl
      obtain ⟨s, hs⟩ : ∃ s, i = p + 2 * s ∨ i = p + 2 * s + 1 := ⟨(i - p) / 2, by omega⟩
      rcases hs with rfl | rfl
      · exact hev s (by omega)
      · rw [od s (by omega)]; exact (hmid _ (by omega) (by omega)).1
    have rest : ∀ c2 : Curve ℚ, Spaced p (p + 2 * (n - p)) (δ / 2 - η) c2 →
        (∀ i ≤ p + 2 * (n - p) + p, good t (knotFn c2.kv i)) → _ := fun c2 hs2 hg2 =>
      ih (n := p + 2 * (n - p)) (fuel := fuel) hs2 hg2 (by linarith) (by omega)
        (by rw [hn2, hn3]; exact hsize) (by rw [hn2, hn3]; exact hN)
        (fun s hs => by
          rw [hn2, show p + 2 ^ s * (2 * (n - p)) = p + 2 ^ (s + 1) * (n - p) by rw [pow_succ]; ring]
          exact hlt (s + 1) (by omega))
    refine ⟨?_, ?_⟩
    · obtain ⟨c1, rfl, hs1, hk1, -⟩ := hall res hres
      obtain ⟨c2, hc2, hs2, hg2, -⟩ := round c1 hs1 hk1
      obtain ⟨⟨r, hr⟩, -⟩ := rest c2 hs2 hg2
      refine ⟨r, Or.inr ⟨rows, _, hrows, hres, ?_⟩⟩
      dsimp only
      rw [hs1.pts.1, if_neg (by omega), hc2]
      exact hr
    · intro r hr
      unfold KnotFitFl at hr
      rcases hr with ⟨e, he, -⟩ | ⟨rows', res', hrows', hres', hr⟩
      · rw [hrows] at he; cases he
      rw [hrows] at hrows'
      cases hrows'
      obtain ⟨c1, rfl, hs1, hk1, e0, e1⟩ := hall res' hres'
      obtain ⟨c2, hc2, hs2, hg2, ev, od, f0, f1⟩ := round c1 hs1 hk1
      dsimp only at hr
      rw [hs1.pts.1, if_neg (by omega), hc2] at hr
      obtain ⟨c', δ', hret, hδ', hs', hg', hval, u0, u1, P, prow, hP, hlast⟩ := (rest c2 hs2 hg2).2 r hr
      rw [hn2, hn3] at hs' hg' u1 hP
      rw [hn2] at hval
      refine ⟨c', δ', hret, hδ', hs', hg', fun i hi j hj => ?_, by rw [u0, f0, e0], by rw [u1, f1, e1], P, prow, hP, hlast⟩
      have hne : (2 : ℚ) ^ t ≠ 0 := by positivity
      have ho := od i hi
      set A := knotFn c.kv (p + i)
      set B := knotFn c.kv (p + i + 1)
      set Mid := knotFn c2.kv (p + 2 * i + 1) with hMid
      have hpn : 2 ^ (t + 1) = 2 ^ t + 2 ^ t := by rw [pow_succ]; omega
      push_cast
      by_cases hj2 : j ≤ 2 ^ t
      · have := hval (2 * i) (by omega) j hj2
        rw [show p + 2 ^ t * (2 * i) + j = p + 2 ^ (t + 1) * i + j by rw [pow_succ]; ring, ev i (by omega),
          ← hMid] at this
        have w0 : (0 : ℚ) ≤ j / 2 ^ t := by positivity
        have w1 : (j : ℚ) / 2 ^ t ≤ 1 := by rw [div_le_one (by positivity)]; exact_mod_cast hj2
        have hsplit : A + (j : ℚ) / 2 ^ (t + 1) * (B - A) = A + j / 2 ^ t * (Mid - A) - j / 2 ^ t * (Mid - (A + B) / 2) := by
          rw [hpow]; field_simp; ring
        rw [hsplit]
        have hb : |(j : ℚ) / 2 ^ t * (Mid - (A + B) / 2)| ≤ 1 * η := by
          rw [abs_mul, abs_of_nonneg w0]
          exact mul_le_mul w1 ho (abs_nonneg _) zero_le_one
        rw [abs_le] at this hb ⊢
        constructor <;> linarith
      · have := hval (2 * i + 1) (by omega) (j - 2 ^ t) (by omega)
        have e : p + 2 ^ t * (2 * i + 1) + (j - 2 ^ t) = p + 2 ^ (t + 1) * i + j := by
          have : 2 ^ t * (2 * i + 1) = 2 ^ (t + 1) * i + 2 ^ t := by rw [pow_succ]; ring
          omega
        rw [e, ← add_assoc, show p + 2 * i + 1 + 1 = p + 2 * (i + 1) by ring, ev (i + 1) (by omega),
          ← add_assoc, ← hMid] at this
        set w : ℚ := ((j - 2 ^ t : ℕ) : ℚ) / 2 ^ t with hw
        have w0 : 0 ≤ w := by positivity
        have w1 : w ≤ 1 := by
          rw [hw, div_le_one (by positivity)]
          exact_mod_cast (show j - 2 ^ t ≤ 2 ^ t by omega)
        have hj' : (j : ℚ) / 2 ^ (t + 1) = (1 + w) / 2 := by
          rw [hw, Nat.cast_sub (by omega), hpow]; push_cast; field_simp; ring
        have hsplit : A + (j : ℚ) / 2 ^ (t + 1) * (B - A) = Mid + w * (B - Mid) - (1 - w) * (Mid - (A + B) / 2) := by
          rw [hj']; ring
        rw [hsplit]
        have hb : |(1 - w) * (Mid - (A + B) / 2)| ≤ 1 * η := by
          rw [abs_mul, abs_of_nonneg (by linarith)]
          exact mul_le_mul (by linarith) ho (abs_nonneg _) zero_le_one
        rw [abs_le] at this hb ⊢
        constructor <;> linarith

/-- The curve that `initialize_curve` builds in double precision. -/
theorem initializeCurveFl_eq {fl : ℚ → ℚ} {s e : List ℚ} (hs : s.length = 3) (he : e.length = 3) {p n : ℕ}
    (h : p < n) (hn : 2 ≤ n) {U : List ℚ} (hU : generateUniformFl fl p n = .ok U) :
    ∃ P, initializeCurveFl fl s e p n = .ok ⟨p, P, U⟩ ∧ Shape P n 3 ∧ ∀ k < 3, ∀ i < n, coord P k i
      = if i + 1 = n then e.getD k 0
        else fl (fl ((i : ℚ) * fl (fl (e.getD k 0 - s.getD k 0) / ((n : ℚ) - 1))) + s.getD k 0) := by
  set L : ℚ → ℚ → List ℚ := fun a b => (List.range n).map fun (i : ℕ) =>
    if i + 1 = n then b else fl (fl ((i : ℚ) * fl (fl (b - a) / ((n : ℚ) - 1))) + a) with hL
  have lin : ∀ a b : ℚ, linspaceFl fl a b (n : ℤ) = .ok (L a b) := by
    intro a b
    unfold linspaceFl
    rw [if_neg (by omega), if_neg (by omega)]
    simp [hL]
  have lL : ∀ a b, (L a b).length = n := fun a b => by simp [hL]
  have vL : ∀ a b, ∀ i < n, (L a b).getD i 0
      = if i + 1 = n then b else fl (fl ((i : ℚ) * fl (fl (b - a) / ((n : ℚ) - 1))) + a) := by
    intro a b i hi
    simp [hL, List.getD_eq_getElem?_getD, hi]
  set pts := (List.range n).map fun i => [(L (s.getD 0 0) (e.getD 0 0)).getD i 0,
    (L (s.getD 1 0) (e.getD 1 0)).getD i 0, (L (s.getD 2 0) (e.getD 2 0)).getD i 0] with hpts
  have lpts : pts.length = n := by simp [hpts]
  refine ⟨pts, ?_, ⟨lpts, ?_⟩, ?_⟩
  · unfold initializeCurveFl
    rw [if_neg (by omega), pyGet_nat s 0 0 0 rfl (by omega), ok_bind, pyGet_nat e 0 0 0 rfl (by omega),
      ok_bind, lin, ok_bind, pyGet_nat s 1 1 0 rfl (by omega), ok_bind,
      pyGet_nat e 1 1 0 rfl (by omega), ok_bind, lin, ok_bind, pyGet_nat s 2 2 0 rfl (by omega),
      ok_bind, pyGet_nat e 2 2 0 rfl (by omega), ok_bind, lin, ok_bind]
    unfold columnStack3
    rw [if_pos ⟨by rw [lL, lL], by rw [lL, lL]⟩, ok_bind, lL]
    show (do let kv ← generateUniformFl fl p pts.length
             Except.ok (⟨p, pts, kv⟩ : Curve ℚ)) = _
    rw [lpts, hU, ok_bind]
  · intro row hrow
    obtain ⟨i, -, rfl⟩ := List.mem_map.1 hrow
    rfl
  · intro k hk i hi
    have hrow : pts.getD i [] = [(L (s.getD 0 0) (e.getD 0 0)).getD i 0,
        (L (s.getD 1 0) (e.getD 1 0)).getD i 0, (L (s.getD 2 0) (e.getD 2 0)).getD i 0] := by
      rw [hpts, List.getD_eq_getElem?_getD]
      simp [hi]
    unfold coord
    rw [hrow]
    match k, hk with
    | 0, _ => exact vL _ _ i hi
    | 1, _ => exact vL _ _ i hi
    | 2, _ => exact vL _ _ i hi

theorem fl64_rel_error (x : ℚ) : |fl64 x - x| ≤ 1 / 2 ^ 53 * |x| := by
  rcases le_total 0 x with h | h
  · have h1 := fl64_lower h
    have h2 := fl64_upper h
    rw [abs_of_nonneg h, abs_le]
    constructor <;> linarith
  · have h1 := fl64_lower (x := -x) (by linarith)
    have h2 := fl64_upper (x := -x) (by linarith)
    rw [fl64_neg] at h1 h2
    rw [abs_of_nonpos h, abs_le]
    constructor <;> linarith

/-- An inner entry of `np.linspace` in double precision. -/
theorem linspace_error {a b M w : ℚ} {i n : ℕ} (ha : |a| ≤ M) (hb : |b| ≤ M) (hi : i + 1 < n)
    (hw : w = fl64 (fl64 ((i : ℚ) * fl64 (fl64 (b - a) / ((n : ℚ) - 1))) + a)) :
    |w - (a + (i : ℚ) / ((n : ℚ) - 1) * (b - a))| ≤ M / 2 ^ 49 := by
  have acc : ∀ x, |fl64 x - x| ≤ 1 / 2 ^ 53 * |x| := fl64_rel_error
  have hiK : (i : ℚ) + 1 < n := by exact_mod_cast hi
  have hi0 : (0 : ℚ) ≤ i := Nat.cast_nonneg i
  have hn : (0 : ℚ) < (n : ℚ) - 1 := by linarith
  have hM : 0 ≤ M := (abs_nonneg a).trans ha
  set r : ℚ := (i : ℚ) / ((n : ℚ) - 1) with hr
  have hr0 : 0 ≤ r := by positivity
  have hr1 : r ≤ 1 := by rw [hr, div_le_one hn]; linarith
  set d := b - a with hd
  have hdM : |d| ≤ 2 * M := by
    rw [hd, sub_eq_add_neg]
    refine (abs_add_le _ _).trans ?_
    rw [abs_neg]; linarith
  set u : ℚ := 1 / 2 ^ 53 with hu
  have hu0 : 0 ≤ u := by positivity
  -- the difference, the step, the product, the sum
  set x1 := fl64 d with hx1
  set x2 := fl64 (x1 / ((n : ℚ) - 1)) with hx2
  set x3 := fl64 ((i : ℚ) * x2) with hx3
  have e1 : |x1 - d| ≤ u * (2 * M) := (acc d).trans (mul_le_mul_of_nonneg_left hdM hu0)
  have b1 : |x1| ≤ (1 + u) * (2 * M) := by
    have := abs_add_le (x1 - d) d
    rw [sub_add_cancel] at this
    linarith
  have e2 : |(i : ℚ) * x2 - r * x1| ≤ u * ((1 + u) * (2 * M)) := by
    have h : (i : ℚ) * x2 - r * x1 = i * (x2 - x1 / ((n : ℚ) - 1)) := by rw [hr]; ring
    rw [h, abs_mul, abs_of_nonneg hi0]
    have h2 := acc (x1 / ((n : ℚ) - 1))
    rw [← hx2, abs_div, abs_of_pos hn] at h2
    calc (i : ℚ) * |x2 - x1 / ((n : ℚ) - 1)| ≤ i * (u * (|x1| / ((n : ℚ) - 1))) := mul_le_mul_of_nonneg_left h2 hi0
      _ = r * (u * |x1|) := by rw [hr]; ring
      _ ≤ 1 * (u * |x1|) := mul_le_mul_of_nonneg_right hr1 (by positivity)
      _ ≤ u * ((1 + u) * (2 * M)) := by rw [one_mul]; exact mul_le_mul_of_nonneg_left b1 hu0
  have e12 : |(i : ℚ) * x2 - r * d| ≤ u * ((1 + u) * (2 * M)) + u * (2 * M) := by
    have h : (i : ℚ) * x2 - r * d = (i * x2 - r * x1) + r * (x1 - d) := by ring
    rw [h]
    refine (abs_add_le _ _).trans (add_le_add e2 ?_)
    rw [abs_mul, abs_of_nonneg hr0]
    exact (mul_le_mul hr1 e1 (abs_nonneg _) zero_le_one).trans (by rw [one_mul])
  have brd : |r * d| ≤ 2 * M := by
    rw [abs_mul, abs_of_nonneg hr0]
    exact (mul_le_mul hr1 hdM (abs_nonneg _) zero_le_one).trans (by rw [one_mul])
  have b2 : |(i : ℚ) * x2| ≤ 3 * M := by
    have := abs_add_le ((i : ℚ) * x2 - r * d) (r * d)
    rw [sub_add_cancel] at this
    have : u * ((1 + u) * (2 * M)) + u * (2 * M) ≤ M := by rw [hu]; norm_num; linarith
    linarith
  have e3 : |x3 - i * x2| ≤ u * (3 * M) := (acc _).trans (mul_le_mul_of_nonneg_left b2 hu0)
  have e123 : |x3 + a - (a + r * d)| ≤ u * (3 * M) + (u * ((1 + u) * (2 * M)) + u * (2 * M)) := by
    have h : x3 + a - (a + r * d) = (x3 - i * x2) + (i * x2 - r * d) := by ring
    rw [h]
    exact (abs_add_le _ _).trans (add_le_add e3 e12)
  have bx : |a + r * d| ≤ M := by
    have h : a + r * d = (1 - r) * a + r * b := by rw [hd]; ring
    rw [abs_le] at ha hb ⊢
    have q1 := mul_le_mul_of_nonneg_left ha.1 (sub_nonneg.2 hr1)
    have q2 := mul_le_mul_of_nonneg_left ha.2 (sub_nonneg.2 hr1)
    have q3 := mul_le_mul_of_nonneg_left hb.1 hr0
    have q4 := mul_le_mul_of_nonneg_left hb.2 hr0
    rw [h]
    constructor <;> linarith
  have b4 : |x3 + a| ≤ M + (u * (3 * M) + (u * ((1 + u) * (2 * M)) + u * (2 * M))) := by
    have := abs_add_le (x3 + a - (a + r * d)) (a + r * d)
    rw [sub_add_cancel] at this
    linarith
  have e4 : |w - (x3 + a)| ≤ u * (M + (u * (3 * M) + (u * ((1 + u) * (2 * M)) + u * (2 * M)))) := by
    rw [hw]
    exact (acc _).trans (mul_le_mul_of_nonneg_left b4 hu0)
  have := abs_add_le (w - (x3 + a)) (x3 + a - (a + r * d))
  rw [sub_add_sub_cancel] at this
  refine this.trans ((add_le_add e4 e123).trans ?_)
  rw [hu]
  norm_num
  linarith

end PySpline
