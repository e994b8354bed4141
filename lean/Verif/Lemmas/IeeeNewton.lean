import Verif.SpecIeeeNewton
import Verif.Lemmas.IeeeMesh
import Verif.Props.IeeeInversionFit

/-!
# Lemmas for C197: one Newton step in double precision
-/

set_option exponentiation.threshold 1100

namespace PySpline

open Spec Ext

theorem bin64_bound {x M : ℚ} (h : |x| ≤ M) (h1 : 1 ≤ M) (h2 : M ≤ 2 ^ 1023) : ∃ y, bin64 x = fin y ∧ |y| ≤ 2 * M := by
  refine ⟨_, bin64_abs_le (h.trans h2), ?_⟩
  have he := fl64s_error x
  have ht : (1 : ℚ) / 2 ^ 1074 ≤ 1 / 2 := one_div_le_one_div_of_le (by norm_num) (by norm_num)
  have := abs_sub_abs_le_abs_sub (fl64s x) x
  have h3 : (1 : ℚ) / 2 ^ 52 * |x| ≤ 1 / 2 * M := mul_le_mul (by norm_num) h (abs_nonneg _) (by norm_num)
  linarith

theorem bin64_ne_nan (x : ℚ) : bin64 x ≠ nan := by
  unfold bin64
  split <;> simp

theorem bin64_pos {x : ℚ} (h : 1 / 2 ^ 1000 ≤ x) (h1 : x ≤ 2 ^ 1023) : ∃ y, bin64 x = fin y ∧ 0 < y := by
  have h0 : (2 : ℚ) ^ (-1022 : ℤ) ≤ x := by
    refine le_trans ?_ h
    rw [show (1 / 2 ^ 1000 : ℚ) = 2 ^ (-1000 : ℤ) by rw [zpow_neg, one_div]; norm_cast]
    exact zpow_le_zpow_right₀ (by norm_num) (by norm_num)
  exact ⟨_, bin64_normal (Or.inr h0) h1, fl64_pos (lt_of_lt_of_le (by positivity) h)⟩

/-- A scalar product of moderate vectors. -/
theorem inner_wide {norm : List (Ext ℚ) → Ext ℚ} {a r : List ℚ} (la : a.length = 3)
    (ha : ∀ x ∈ a, |x| ≤ 2 ^ 502) (hr : r.length = 3) (hr' : ∀ x ∈ r, |x| ≤ 2 ^ 502) :
    ∃ w, (ieeeArith bin64 norm).inner (a.map fin) (r.map fin) = .ok (fin w) ∧ |w| ≤ 2 ^ 1012 := by
  obtain ⟨x, y, z, rfl⟩ := List.length_eq_three.1 la
  obtain ⟨x', y', z', rfl⟩ := List.length_eq_three.1 hr
  have hp : ∀ s t : ℚ, |s| ≤ 2 ^ 502 → |t| ≤ 2 ^ 502 → ∃ w, bin64 (s * t) = fin w ∧ |w| ≤ 2 ^ 1005 := by
    intro s t hs ht
    obtain ⟨w, h1, h2⟩ := bin64_bound (x := s * t) (M := 2 ^ 1004)
      (by rw [abs_mul, show (2 : ℚ) ^ 1004 = 2 ^ 502 * 2 ^ 502 by rw [← pow_add]]
          exact mul_le_mul hs ht (abs_nonneg _) (by positivity))
      (one_le_pow₀ (by norm_num)) (pow_le_pow_right₀ (by norm_num) (by norm_num))
    exact ⟨w, h1, h2.trans (by rw [show (2 : ℚ) ^ 1005 = 2 * 2 ^ 1004 from pow_succ' 2 1004])⟩
  have hs : ∀ (s t : ℚ) (k : ℕ), 1005 ≤ k → k ≤ 1010 → |s| ≤ 2 ^ k → |t| ≤ 2 ^ 1005 →
      ∃ w, bin64 (s + t) = fin w ∧ |w| ≤ 2 ^ (k + 2) := by
    intro s t k hk hk' hs ht
    have h3 : (2 : ℚ) ^ 1005 ≤ 2 ^ k := pow_le_pow_right₀ (by norm_num) hk
    have e1 : (2 : ℚ) ^ (k + 1) = 2 ^ k + 2 ^ k := by rw [pow_succ]; ring
    have e2 : (2 : ℚ) ^ (k + 2) = 2 * 2 ^ (k + 1) := pow_succ' 2 (k + 1)
    obtain ⟨w, h1, h2⟩ := bin64_bound (x := s + t) (M := 2 ^ (k + 1))
      (by rw [e1]; exact (abs_add_le s t).trans (add_le_add hs (ht.trans h3)))
      (one_le_pow₀ (by norm_num)) (pow_le_pow_right₀ (by norm_num) (by omega))
    exact ⟨w, h1, e2 ▸ h2⟩
  obtain ⟨w1, e1, b1⟩ := hp x x' (ha _ (by simp)) (hr' _ (by simp))
  obtain ⟨w2, e2, b2⟩ := hp y y' (ha _ (by simp)) (hr' _ (by simp))
  obtain ⟨w3, e3, b3⟩ := hp z z' (ha _ (by simp)) (hr' _ (by simp))
  obtain ⟨s1, f1, c1⟩ := hs 0 w1 1005 le_rfl (by norm_num) (by rw [abs_zero]; positivity) b1
  obtain ⟨s2, f2, c2⟩ := hs s1 w2 1007 (by norm_num) (by norm_num) c1 b2
  obtain ⟨s3, f3, c3⟩ := hs s2 w3 1009 (by norm_num) (by norm_num) c2 b3
  refine ⟨s3, ?_, c3.trans (pow_le_pow_right₀ (by norm_num) (by norm_num))⟩
  have g1 : rnd bin64 (fin x * fin x') = fin w1 := e1
  have g2 : rnd bin64 (fin y * fin y') = fin w2 := e2
  have g3 : rnd bin64 (fin z * fin z') = fin w3 := e3
  have k1 : rnd bin64 ((0 : Ext ℚ) + fin w1) = fin s1 := f1
  have k2 : rnd bin64 (fin s1 + fin w2) = fin s2 := f2
  have k3 : rnd bin64 (fin s2 + fin w3) = fin s3 := f3
  simp only [ieeeArith, List.map_cons, List.map_nil, List.length_cons, List.length_nil, if_true, List.zipWith_cons_cons,
    List.zipWith_nil_left, List.foldl_cons, List.foldl_nil, g1, g2, g3, k1, k2, k3]

/-- A scalar product of moderate vectors. -/
theorem inner_bound {norm : List (Ext ℚ) → Ext ℚ} {a r : List ℚ} (ha : Moderate a) (hr : r.length = 3)
    (hr' : ∀ x ∈ r, |x| ≤ 2 ^ 502) :
    ∃ w, (ieeeArith bin64 norm).inner (a.map fin) (r.map fin) = .ok (fin w) ∧ |w| ≤ 2 ^ 1012 :=
  inner_wide ha.1 (fun x hx => (ha.2 x hx).trans (pow_le_pow_right₀ (by norm_num) (by norm_num))) hr hr'

theorem diff64_bound {a p : List ℚ} (ha : Moderate a) (hp : Moderate p) :
    ∃ r : List ℚ, diff64 a p = r.map fin ∧ r.length = 3 ∧ ∀ x ∈ r, |x| ≤ 2 ^ 502 := by
  obtain ⟨x, y, z, rfl⟩ := List.length_eq_three.1 ha.1
  obtain ⟨x', y', z', rfl⟩ := List.length_eq_three.1 hp.1
  have hd : ∀ s t : ℚ, |s| ≤ 2 ^ 500 → |t| ≤ 2 ^ 500 → ∃ w, bin64 (s - t) = fin w ∧ |w| ≤ 2 ^ 502 := by
    intro s t hs ht
    obtain ⟨w, h1, h2⟩ := bin64_bound (x := s - t) (M := 2 ^ 501)
      (by rw [show (2 : ℚ) ^ 501 = 2 ^ 500 + 2 ^ 500 by rw [pow_succ]; ring]
          exact (abs_sub _ _).trans (add_le_add hs ht))
      (one_le_pow₀ (by norm_num)) (pow_le_pow_right₀ (by norm_num) (by norm_num))
    exact ⟨w, h1, h2.trans (by rw [show (2 : ℚ) ^ 502 = 2 * 2 ^ 501 from pow_succ' 2 501])⟩
  obtain ⟨w1, e1, b1⟩ := hd x x' (ha.2 _ (by simp)) (hp.2 _ (by simp))
  obtain ⟨w2, e2, b2⟩ := hd y y' (ha.2 _ (by simp)) (hp.2 _ (by simp))
  obtain ⟨w3, e3, b3⟩ := hd z z' (ha.2 _ (by simp)) (hp.2 _ (by simp))
  refine ⟨[w1, w2, w3], ?_, rfl, ?_⟩
  · simp [diff64, e1, e2, e3]
  · simp only [List.mem_cons, List.not_mem_nil, or_false]
    rintro _ (rfl | rfl | rfl) <;> assumption

theorem vsubA_ieee {norm : List (Ext ℚ) → Ext ℚ} {a p : List ℚ} (ha : a.length = 3) (hp : p.length = 3) :
    vsubA (ieeeArith bin64 norm) (a.map fin) (p.map fin) = .ok (diff64 a p) := by
  unfold vsubA diff64
  rw [if_pos (by simp [ha, hp]), List.zipWith_map]
  rfl

theorem gridPoint_ieee {n : ℕ} (hn : 1 ≤ n) (hn' : n ≤ 2 ^ 50) {k : ℕ} (hk : k ≤ n) (norm : List (Ext ℚ) → Ext ℚ) :
    (ieeeArith bin64 norm).gridPoint (n + 1) k = fin (vtkParam n k) := by
  have hn0 : (1 : ℚ) ≤ n := by exact_mod_cast hn
  have hn1 : (n : ℚ) ≤ 2 ^ 50 := by exact_mod_cast hn'
  have tiny : (2 : ℚ) ^ (-1022 : ℤ) ≤ 1 / 2 ^ 53 := by
    rw [show (1 / 2 ^ 53 : ℚ) = 2 ^ (-53 : ℤ) by norm_num [zpow_neg]]
    exact zpow_le_zpow_right₀ (by norm_num) (by norm_num)
  have h1 : (1 / 2 ^ 53 : ℚ) ≤ 1 / n := one_div_le_one_div_of_le (by linarith) (hn1.trans (by norm_num))
  have h2 : (1 : ℚ) / n ≤ 1 := by rw [div_le_one (by linarith)]; exact hn0
  have e1 : bin64 (1 / n) = fin (vtkStep n) := bin64_normal (Or.inr (tiny.trans h1)) (h2.trans (by norm_num))
  obtain ⟨s0, s1, s2⟩ := vtkStep_bounds hn
  have hs : (1 / 2 ^ 52 : ℚ) ≤ vtkStep n := by
    by_contra hc
    have : vtkStep n * n ≤ 1 / 2 ^ 52 * 2 ^ 50 := mul_le_mul (not_le.1 hc).le hn1 (by linarith) (by norm_num)
    have : (1 - 1 / 2 ^ 53 : ℚ) ≤ 1 / 2 ^ 52 * 2 ^ 50 := s1.trans this
    norm_num at this
  have hkn : (k : ℚ) ≤ n := by exact_mod_cast hk
  have e2 : bin64 (vtkStep n * k) = fin (vtkParam n k) := by
    unfold vtkParam
    rw [mul_comm]
    refine bin64_normal ?_ ?_
    · rcases Nat.eq_zero_or_pos k with rfl | h
      · left; simp
      · right
        have : (1 : ℚ) ≤ k := by exact_mod_cast h
        refine tiny.trans ?_
        nlinarith
    · have : (k : ℚ) * vtkStep n ≤ 2 := by nlinarith
      exact this.trans (by norm_num)
  have e3 : (((n + 1 : ℕ) : ℚ) - 1) = n := by push_cast; ring
  simp only [ieeeArith, e3, e1]
  exact e2

theorem clamp01E_ne_nan {x : Ext ℚ} (h : x ≠ nan) : UnitNum (clamp01E x) := by
  rcases clamp01E_unit x with h' | h'
  · exact h'
  · unfold clamp01E at h'
    split at h'
    · cases h'
    split at h'
    · cases h'
    · exact absurd h' h

theorem curveInfoE_rows {C : CurveLike (Ext ℚ)} {u : Ext ℚ} {a b c : List (Ext ℚ)} {rest : List (List (Ext ℚ))}
    (h : C.ders u = .ok (a :: b :: c :: rest)) : curveInfoE C u = .ok ⟨u, a, b, c⟩ := by
  unfold curveInfoE
  rw [h, ok_bind, pyGet_nat _ 0 0 [] rfl (by simp), ok_bind, pyGet_nat _ 1 1 [] rfl (by simp), ok_bind,
    pyGet_nat _ 2 2 [] rfl (by simp), ok_bind]
  rfl

/-- One Newton step: if the second convergence test fails, the next parameter is a number. -/
theorem newton_step_ieee {norm : List (Ext ℚ) → Ext ℚ} (hnorm : BoundedNorm norm) {u e2 : ℚ} (he2 : 0 ≤ e2)
    {d0 d1 d2 p : List ℚ} (h0 : Moderate d0) (h1 : Moderate d1) (h2 : Moderate d2) (hp : Moderate p)
    (hs : ∃ c, norm (d1.map fin) = fin c ∧ 1 / 2 ^ 500 ≤ c) (hd : ∃ c, norm (diff64 d0 p) = fin c ∧ 1 / 2 ^ 500 ≤ c)
    (hc : curveCond2A (ieeeArith bin64 norm) (p.map fin) (fin e2) ⟨fin u, d0.map fin, d1.map fin, d2.map fin⟩ ≠ .ok true) :
    ∃ a b, (ieeeArith bin64 norm).inner (d1.map fin) (diff64 d0 p) = .ok a ∧
      (ieeeArith bin64 norm).inner (d2.map fin) (diff64 d0 p) = .ok b ∧
      UnitNum (clamp01E ((ieeeArith bin64 norm).sub (fin u) ((ieeeArith bin64 norm).div a ((ieeeArith bin64 norm).add b
        ((ieeeArith bin64 norm).mul (norm (d1.map fin)) (norm (d1.map fin))))))) := by
  obtain ⟨r, er, lr, br⟩ := diff64_bound h0 hp
  obtain ⟨c1, n1, l1⟩ := hs
  obtain ⟨c2, n2, l2⟩ := hd
  obtain ⟨c1', n1', z1, b1⟩ := hnorm d1 h1.1 fun x hx => (h1.2 x hx).trans (pow_le_pow_right₀ (by norm_num) (by norm_num))
  obtain ⟨c2', n2', z2, b2⟩ := hnorm r lr br
  rw [n1] at n1'; cases n1'
  rw [← er, n2] at n2'; cases n2'
  obtain ⟨a, ea, ba⟩ := inner_bound (norm := norm) h1 lr br
  obtain ⟨b, eb, bb⟩ := inner_bound (norm := norm) h2 lr br
  rw [← er] at ea eb
  refine ⟨fin a, fin b, ea, eb, clamp01E_ne_nan ?_⟩
  have e1010 : (2 : ℚ) ^ 1010 = 2 ^ 505 * 2 ^ 505 := by rw [← pow_add]
  -- the second test fails only if the numerator is not zero
  have ha : a ≠ 0 := by
    rintro rfl
    apply hc
    obtain ⟨m, em, pm⟩ := bin64_pos (x := c1 * c2)
      (by rw [show (1 : ℚ) / 2 ^ 1000 = 1 / 2 ^ 500 * (1 / 2 ^ 500) by
            rw [div_mul_div_comm, one_mul, ← pow_add]]
          exact mul_le_mul l1 l2 (by positivity) z1)
      ((mul_le_mul b1 b2 z2 (by positivity)).trans (by
        rw [← e1010]; exact pow_le_pow_right₀ (by norm_num) (by norm_num)))
    have em' : (ieeeArith bin64 norm).mul (fin c1) (fin c2) = fin m := em
    have ed : (ieeeArith bin64 norm).div ((ieeeArith bin64 norm).absNorm (fin 0)) (fin m) = fin 0 := by
      have : (fin |(0 : ℚ)| / fin m : Ext ℚ) = fin 0 := by
        change (if m = 0 then _ else fin (|(0 : ℚ)| / m)) = fin 0
        rw [if_neg pm.ne', abs_zero, zero_div]
      change rnd bin64 (fin |(0 : ℚ)| / fin m) = fin 0
      rw [this]
      decide +kernel
    have hn : (ieeeArith bin64 norm).norm = norm := rfl
    have hle : le (fin 0) (fin e2) = true := by
      rcases he2.lt_or_eq with h | h
      · simp [le, lt, h]
      · simp [le, lt, eqv, ← h]
    unfold curveCond2A
    dsimp only
    rw [vsubA_ieee h0.1 hp.1, ok_bind, ea, ok_bind, hn, n1, n2, em', ed, hle]
  obtain ⟨m, em, bm⟩ := bin64_bound (x := c1 * c1) (M := 2 ^ 1010)
    (by rw [abs_of_nonneg (mul_nonneg z1 z1), e1010]; exact mul_le_mul b1 b1 z1 (by positivity))
    (one_le_pow₀ (by norm_num)) (pow_le_pow_right₀ (by norm_num) (by norm_num))
  obtain ⟨D, eD, -⟩ := bin64_bound (x := b + m) (M := 2 ^ 1014)
    ((abs_add_le b m).trans (by
      have h4 : (2 : ℚ) ^ 1014 = 4 * 2 ^ 1012 := by rw [pow_add (2 : ℚ) 1012 2]; ring
      have h5 : (2 : ℚ) ^ 1012 = 4 * 2 ^ 1010 := by rw [pow_add (2 : ℚ) 1010 2]; ring
      have : (0 : ℚ) < 2 ^ 1010 := by positivity
      rw [h4]; linarith))
    (one_le_pow₀ (by norm_num)) (pow_le_pow_right₀ (by norm_num) (by norm_num))
  have em' : (ieeeArith bin64 norm).mul (fin c1) (fin c1) = fin m := em
  have eD' : (ieeeArith bin64 norm).add (fin b) (fin m) = fin D := eD
  rw [n1, em', eD']
  have hdiv : (ieeeArith bin64 norm).div (fin a) (fin D) ≠ nan := by
    change rnd bin64 (if D = 0 then (if a = 0 then nan else inf (decide (a < 0))) else fin (a / D)) ≠ nan
    split
    · simp [rnd]
    · exact bin64_ne_nan _
  cases hx : (ieeeArith bin64 norm).div (fin a) (fin D) with
  | fin x => exact bin64_ne_nan _
  | inf s => change inf (!s) ≠ nan; simp
  | nan => exact absurd hx hdiv

end PySpline
