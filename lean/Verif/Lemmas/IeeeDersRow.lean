import Verif.Lemmas.IeeeDersStep

/-!
# `basis_function_ders` in IEEE arithmetic: the loop over the derivative orders
-/

set_option linter.unusedSectionVars false

namespace PySpline

open Polynomial Spec Ext

variable {K : Type} [Field K] [LinearOrder K] [IsStrictOrderedRing K]

section step
variable {ρ η M B c : K} {rd : K → Ext K} {V : ℕ → K} {k p : ℕ} {u : K} {ndu : List (List (Ext K))}

theorem rawAbs_le_pow (hV : Monotone V) (hp : p ≤ k) (hs : V k < V (k + 1)) (h1 : V k ≤ u)
    (h2 : u ≤ V (k + 1)) (hB1 : 1 ≤ B) (hB : 1 ≤ B * (V (k + 1) - V k)) {r : ℕ} (hr : r ≤ p) (m : ℕ) :
    rawAbs V k p u r m ≤ (2 * B) ^ p := by
  by_cases hm : m ≤ p
  swap
  · unfold rawAbs
    rw [if_neg hm]
    exact pow_nonneg (by linarith) _
  calc rawAbs V k p u r m ≤ ∑ r ∈ Finset.range (p + 1), rawAbs V k p u r m :=
        Finset.single_le_sum (f := fun r => rawAbs V k p u r m)
          (fun i _ => rawAbs_nonneg hV h1 h2) (Finset.mem_range.2 (by omega))
    _ ≤ (2 / (V (k + 1) - V k)) ^ m := sum_rawAbs_le hV hp hs h1 h2
    _ ≤ (2 * B) ^ m := pow_le_pow_left₀ (div_nonneg zero_le_two (sub_pos.2 hs).le) (inv_span_le hs hB) m
    _ ≤ (2 * B) ^ p := pow_le_pow_right₀ (by linarith) hm

/-- One product of a coefficient and a basis function. -/
theorem ders_term (hr : IeeeRounding ρ η M rd) (hz : DersSize ρ η M B c p) {t j : ℕ} (hm : t + 1 ≤ p)
    {x y : Ext K} {A P : K} (hA : |A| ≤ (2 * B) ^ (t + 1)) (hP0 : 0 ≤ P) (hP : P ≤ 1)
    (hx : SignNear rd ρ (4 * (t + 1)) (coefErr B η (t + 1)) j x A)
    (hy : IsNear rd ρ (6 * (p - (t + 1))) ((4 ^ (p - (t + 1)) - 1) * c) y P) :
    IsApx rd (1 / ρ) (4 * (t + 1) + 6 * (p - (t + 1)) + 1) ((8 * B) ^ p * (c + 3 * η)) (rnd rd (x * y)) (A * P)
      (|A| * P) := by
  have hB := hz.one_le
  have hη := hr.eta
  have c0 := hz.c0
  have x1 : (1 : K) ≤ (4 * B) ^ (t + 1) := one_le_pow₀ (by linarith)
  have x2 : (4 * B) ^ (t + 1) ≤ (4 * B) ^ p := pow_le_pow_right₀ (by linarith) hm
  have x3 := hz.two_le_four hm
  have x4 : (4 * B) ^ p ≤ (8 * B) ^ p := pow_le_pow_left₀ (by linarith) (by linarith) p
  have y1 : (1 : K) ≤ 4 ^ (p - (t + 1)) := one_le_pow₀ (by norm_num)
  have y2 : (4 : K) ^ (p - (t + 1)) ≤ 4 ^ p := pow_le_pow_right₀ (by norm_num) (by omega)
  have q0 : 0 ≤ (4 ^ (p - (t + 1)) - 1) * c := mul_nonneg (by linarith) c0
  have q1 : (4 ^ (p - (t + 1)) - 1) * c ≤ 4 ^ p * c := mul_le_mul_of_nonneg_right (by linarith) c0
  have q2 : (4 ^ (p - (t + 1)) - 1) * c ≤ 1 := q1.trans hz.c1
  have f0 := coefErr_nonneg hr hz (t + 1)
  have f1 : coefErr B η (t + 1) ≤ (4 * B) ^ p * η := mul_le_mul_of_nonneg_right (by linarith) hη
  have f2 : coefErr B η (t + 1) ≤ (4 * B) ^ p := f1.trans (mul_le_of_le_one_right (by linarith) hz.eta)
  have A0 := abs_nonneg A
  have hM8 := hz.big8 hr
  have h := (hx.apx hr).mul hr (hy.apx hr) (by
    have g2 := hz.pow_g hr (m := 4 * (t + 1) + 6 * (p - (t + 1))) (by omega)
    have a1 : (|A| + coefErr B η (t + 1)) * (P + (4 ^ (p - (t + 1)) - 1) * c) ≤ (2 * (4 * B) ^ p) * 2 :=
      mul_le_mul (by linarith) (by linarith) (by linarith) (by linarith)
    calc _ ≤ 2 * ((2 * (4 * B) ^ p) * 2) := mul_le_mul g2 a1 (mul_nonneg (by linarith) (by linarith)) zero_le_two
      _ ≤ M := by linarith)
  refine h.mono hr le_rfl ?_
  have z1 : |A| * ((4 ^ (p - (t + 1)) - 1) * c) ≤ (8 * B) ^ p * c := by
    calc |A| * ((4 ^ (p - (t + 1)) - 1) * c) ≤ (2 * B) ^ p * (4 ^ p * c) :=
          mul_le_mul (hA.trans (pow_le_pow_right₀ (by linarith) hm)) q1 q0 (pow_nonneg (by linarith) _)
      _ = (8 * B) ^ p * c := by
          rw [← mul_assoc, ← mul_pow]; ring_nf
  have z2 : coefErr B η (t + 1) * P ≤ (8 * B) ^ p * η :=
    (mul_le_of_le_one_right f0 hP).trans (f1.trans (mul_le_mul_of_nonneg_right x4 hη))
  have z3 : coefErr B η (t + 1) * ((4 ^ (p - (t + 1)) - 1) * c) ≤ (8 * B) ^ p * η :=
    (mul_le_of_le_one_right f0 q2).trans (f1.trans (mul_le_mul_of_nonneg_right x4 hη))
  have z4 : η ≤ (8 * B) ^ p * η := le_mul_of_one_le_left hη (by linarith)
  linarith

theorem dersStepR_inv (hr' : IeeeRounding ρ η M rd) (hz : DersSize ρ η M B c p) (h : TriR rd ρ c V k p u ndu)
    (hV : Monotone V) (hp : p ≤ k) (hs : V k < V (k + 1)) (hu1 : V k ≤ u) (hu2 : u ≤ V (k + 1))
    (hB : 1 ≤ B * (V (k + 1) - V k))
    {order r t : ℕ} (hr : r ≤ p) (ht : t + 1 ≤ order) (ders0 : List (List (Ext K)))
    (st : List (List (Ext K)) × ℤ × ℤ × List (List (Ext K)))
    (hst : StepInvR rd ρ η B c V k p u order r ders0 t st) :
    Returns (dersStepR rd p ndu r (t + 1) st) (StepInvR rd ρ η B c V k p u order r ders0 (t + 1)) := by
  have hB1 := hz.one_le
  have hη := hr'.eta
  obtain ⟨a, s1', s2', ders⟩ := st
  obtain ⟨hsh, ⟨s1, s2, e1, e2, hs1, hs2, hne, ha⟩, hdsh, hd⟩ := hst
  simp only at hsh e1 e2 ha hdsh hd
  subst e1 e2
  unfold dersStepR
  dsimp only
  set A := aCoef V p (k - p + r) with hA
  set P : ℕ → K := fun j => (piece V k (p - (t + 1)) (k - p + r + j)).eval u with hP
  set E : ℕ := 4 * (t + 1) + 6 * (p - (t + 1)) + 1 with hE
  set τ : K := (8 * B) ^ p * (c + 3 * η) with hτ
  have τ0 : 0 ≤ τ := hz.tau0 hr'
  have hP0 : t + 1 ≤ p → ∀ j, (r + j < t + 1 ∨ p < r + j) → P j = 0 := by
    intro hm j hj
    rcases hj with hj | hj
    · simp only [hP]; rw [piece_eq_zero_of_gt V k _ _ (by omega)]; simp
    · simp only [hP]; rw [piece_eq_zero_of_lt V k _ _ (by omega)]; simp
  have hPn : ∀ j, 0 ≤ P j := fun j => piece_nonneg hV hu1 hu2 _ _
  -- final assignment, common to both cases
  have finish : ∀ (a : List (List (Ext K))) (d : Ext K), Shape a 2 (p + 1) →
      (∀ j, t + 1 ≤ r + j → r + j ≤ p → j ≤ t + 1 →
        SignNear rd ρ (4 * (t + 1)) (coefErr B η (t + 1)) j (at2 a s2 j 0) (A (t + 1) j)) →
      IsApx rd (1 / ρ) (6 * p + 2) ((p + 1) * τ) d (rawDer V k p u r (t + 1)) (rawAbs V k p u r (t + 1)) →
      Returns (do
        let ders ← set2 ders r ((t + 1 : ℕ) : ℤ) d
        .ok (a, (s2 : ℤ), (s1 : ℤ), ders)) (StepInvR rd ρ η B c V k p u order r ders0 (t + 1)) := by
    intro a d hsh ha hdv
    obtain ⟨m1, g1, sh1, at1⟩ := set2_nat hdsh (r : ℤ) ((t + 1 : ℕ) : ℤ) r (t + 1) d 0 rfl rfl
      (by omega) (by omega)
    rw [g1, ok_bind]
    refine Returns.ok ⟨hsh, ⟨s2, s1, rfl, rfl, hs2, hs1, hne.symm, ha⟩, sh1, ?_⟩
    intro x y
    have hdxy := hd x y
    simp only [at1]
    by_cases hx : x = r
    · subst hx
      by_cases hy : y = t + 1
      · subst hy
        rw [if_pos (by omega), if_pos (by omega)]
        exact hdv
      · rw [if_neg (show ¬ (x = x ∧ y = t + 1) by omega)]
        by_cases hy2 : 1 ≤ y ∧ y ≤ t
        · rw [if_pos ⟨rfl, hy2⟩] at hdxy
          rw [if_pos ⟨rfl, by omega, by omega⟩]
          exact hdxy
        · rw [if_neg (by omega)] at hdxy
          rw [if_neg (by omega)]
          exact hdxy
    · rw [if_neg (by omega)] at hdxy
      rw [if_neg (by omega), if_neg (by omega)]
      exact hdxy
  by_cases hm : t + 1 ≤ p
  swap
  · -- order above the degree: nothing is computed
    rw [if_neg (by omega), ok_bind]
    dsimp only
    rw [forZ_empty (by split_ifs <;> omega), ok_bind]
    dsimp only
    rw [if_neg (by omega), ok_bind]
    dsimp only
    refine finish a 0 hsh (by intro j h1 h2 h3; omega) ?_
    unfold rawDer rawAbs
    rw [if_neg hm, if_neg hm]
    exact IsApx.zero hr' _ (mul_nonneg (by positivity) τ0)
  -- order at most the degree
  have hraw : rawDer V k p u r (t + 1) = ∑ j ∈ Finset.range (t + 1 + 1), A (t + 1) j * P j := by
    unfold rawDer; rw [if_pos hm]
  have hrab : rawAbs V k p u r (t + 1) = ∑ j ∈ Finset.range (t + 1 + 1), |A (t + 1) j| * P j := by
    unfold rawAbs; rw [if_pos hm]
  have hpart : ∀ n ≤ t + 1 + 1, ∑ j ∈ Finset.range n, |A (t + 1) j| * P j ≤ (2 * B) ^ p := by
    intro n hn
    refine le_trans (Finset.sum_le_sum_of_subset_of_nonneg (Finset.range_mono hn) fun j _ _ =>
      mul_nonneg (abs_nonneg _) (hPn j)) ?_
    rw [← hrab]
    exact rawAbs_le_pow hV hp hs hu1 hu2 hB1 hB hr _
  -- one term
  have term : ∀ (j : ℕ) (x y : Ext K), t + 1 ≤ r + j → r + j ≤ p →
      SignNear rd ρ (4 * (t + 1)) (coefErr B η (t + 1)) j x (A (t + 1) j) →
      IsNear rd ρ (6 * (p - (t + 1))) ((4 ^ (p - (t + 1)) - 1) * c) y (P j) →
      IsApx rd (1 / ρ) E τ (rnd rd (x * y)) (A (t + 1) j * P j) (|A (t + 1) j| * P j) := by
    intro j x y h1 h2 hx hy
    refine ders_term hr' hz hm (aCoef_le hz hV hs hB hp hm h1 h2) (hPn j) ?_ hx hy
    have := piece_le_one hV hs hu1 hu2 (p := p - (t + 1)) (r := r + j - (t + 1)) (by omega) (by omega)
    rwa [show k - (p - (t + 1)) + (r + j - (t + 1)) = k - p + r + j by omega] at this
  -- one more term
  have more : ∀ (n : ℕ) (d e : Ext K), n ≤ t + 1 →
      IsApx rd (1 / ρ) (E + n) (n * τ) d (∑ j ∈ Finset.range n, A (t + 1) j * P j)
        (∑ j ∈ Finset.range n, |A (t + 1) j| * P j) →
      IsApx rd (1 / ρ) E τ e (A (t + 1) n * P n) (|A (t + 1) n| * P n) →
      IsApx rd (1 / ρ) (E + (n + 1)) ((n + 1 : ℕ) * τ) (rnd rd (d + e))
        (∑ j ∈ Finset.range (n + 1), A (t + 1) j * P j) (∑ j ∈ Finset.range (n + 1), |A (t + 1) j| * P j) := by
    intro n d e hn hd he
    rw [Finset.sum_range_succ, Finset.sum_range_succ, show ((n + 1 : ℕ) : K) * τ = n * τ + τ by push_cast; ring]
    refine hd.add hr' (he.mono hr' (Nat.le_add_right _ _) le_rfl) ?_
    rw [← Finset.sum_range_succ (fun j => |A (t + 1) j| * P j)]
    have g2 := hz.pow_g hr' (m := E + n) (by omega)
    have b1 := hz.big' hr'
    rw [← hτ] at b1
    have b2 := hpart (n + 1) (by omega)
    have b3 := hz.two_le_four le_rfl
    have b4 : (n : K) * τ + τ ≤ (p + 1) * τ := by
      have : (n : K) ≤ p := by exact_mod_cast hn.trans hm
      have := mul_le_mul_of_nonneg_right this τ0
      linarith
    have b5 : 0 ≤ ∑ j ∈ Finset.range (n + 1), |A (t + 1) j| * P j :=
      Finset.sum_nonneg fun j _ => mul_nonneg (abs_nonneg _) (hPn j)
    have b6 : 0 ≤ (n : K) * τ := mul_nonneg (Nat.cast_nonneg _) τ0
    have b7 : 0 ≤ (4 * B) ^ p := pow_nonneg (by linarith) _
    calc _ ≤ 2 * ((4 * B) ^ p + (p + 1) * τ) := mul_le_mul g2 (by linarith) (by linarith) zero_le_two
      _ ≤ M := by linarith
  set j1 : ℕ := max 1 (t + 1 - r) with hj1
  set j2 : ℕ := min t (p - r) with hj2
  -- the new coefficients
  have hAt : ∀ j, t ≤ r + j → r + j ≤ p → |A t j| ≤ (2 * B) ^ t := fun j h1 h2 =>
    aCoef_le hz hV hs hB hp (by omega) h1 h2
  have hF0 := coefErr_nonneg hr' hz t
  have hpw : 0 ≤ (2 * B) ^ t := pow_nonneg (by linarith) _
  -- first coefficient
  refine Returns.bind (P := fun (ad : List (List (Ext K)) × Ext K) => Shape ad.1 2 (p + 1) ∧
      (∀ j, at2 ad.1 s1 j 0 = at2 a s1 j 0) ∧
      (∀ j, t + 1 ≤ r + j → j < j1 →
        SignNear rd ρ (4 * (t + 1)) (coefErr B η (t + 1)) j (at2 ad.1 s2 j 0) (A (t + 1) j)) ∧
      IsApx rd (1 / ρ) (E + j1) (j1 * τ) ad.2 (∑ j ∈ Finset.range j1, A (t + 1) j * P j)
        (∑ j ∈ Finset.range j1, |A (t + 1) j| * P j)) ?_ ?_
  · by_cases hrk : r ≥ t + 1
    · rw [if_pos hrk]
      have hj1' : j1 = 1 := by omega
      obtain ⟨⟨z, d, hzz, hzn, hd1, hw⟩, y, hy, hyn⟩ := h.entry hV hp (by linarith) hB (j := 0) hm (by omega)
        (by omega) ((r : ℤ) - (t + 1 : ℕ)) (by simp)
      rw [get2_nat hsh _ 0 s1 0 0 rfl rfl hs1 (by omega), ok_bind, hzz, ok_bind]
      obtain ⟨m1, g1, sh1, at1⟩ := set2_nat hsh (s2 : ℤ) 0 s2 0 (rnd rd (at2 a s1 0 0 / z)) 0 rfl rfl hs2
        (by omega)
      rw [g1, ok_bind, get2_nat sh1 _ 0 s2 0 0 rfl rfl hs2 (by omega), ok_bind, hy, ok_bind]
      have hval : SignNear rd ρ (4 * (t + 1)) (coefErr B η (t + 1)) 0 (at2 m1 s2 0 0) (A (t + 1) 0) := by
        rw [at1, if_pos ⟨rfl, rfl⟩]
        have b1 := (ha 0 (by omega) (by omega) (by omega)).mono hr' (l := 4 * t + 1) (F := 2 * coefErr B η t)
          (by omega) (by linarith)
        have := coef_div hr' hz hm b1 (by linarith [hAt 0 (by omega) (by omega)]) hzn hd1
        refine (congrArg (SignNear rd ρ (4 * (t + 1)) _ 0 _) ?_).mp this
        have e : A (t + 1) 0 = A t 0 * w V (p - t - 1) (k - p + r + 0) := by rw [hA, aCoef]; simp
        rw [e, hw, mul_one_div]
      refine Returns.ok ⟨sh1, ?_, ?_, ?_⟩
      · intro j
        show at2 m1 s1 j 0 = _
        rw [at1, if_neg (by omega)]
      · intro j _ hj
        have : j = 0 := by omega
        subst this
        exact hval
      · rw [hj1']
        simpa using (term 0 _ y (by omega) (by omega) hval hyn).mono hr' (l := E + 1) (by omega) le_rfl
    · rw [if_neg hrk]
      refine Returns.ok ⟨hsh, fun _ => rfl, ?_, ?_⟩
      · intro j hj1 hj2; omega
      · have z1 : ∑ j ∈ Finset.range j1, A (t + 1) j * P j = 0 := Finset.sum_eq_zero fun j hj => by
          rw [hP0 hm j (by have := Finset.mem_range.1 hj; omega), mul_zero]
        have z2 : ∑ j ∈ Finset.range j1, |A (t + 1) j| * P j = 0 := Finset.sum_eq_zero fun j hj => by
          rw [hP0 hm j (by have := Finset.mem_range.1 hj; omega), mul_zero]
        rw [z1, z2]
        exact IsApx.zero hr' _ (mul_nonneg (Nat.cast_nonneg _) τ0)
  rintro ⟨a1, d1⟩ ⟨sh1, hs1eq, hs2eq, hd1⟩
  simp only at sh1 hs1eq hs2eq hd1 ⊢
  have ej1 : (if (r : ℤ) - ((t + 1 : ℕ) : ℤ) ≥ -1 then (1 : ℤ) else -((r : ℤ) - ((t + 1 : ℕ) : ℤ)))
      = (j1 : ℤ) := by split_ifs <;> omega
  have ej2 : (if (r : ℤ) - 1 ≤ (p : ℤ) - ((t + 1 : ℕ) : ℤ) then ((t + 1 : ℕ) : ℤ) - 1
      else (p : ℤ) - r) = (j2 : ℤ) := by split_ifs <;> omega
  rw [ej1, ej2]
  -- middle coefficients
  refine Returns.bind (Returns.forZ (fun (jz : ℤ) (ad : List (List (Ext K)) × Ext K) => ∃ j : ℕ, jz = j ∧ j1 ≤ j ∧
      Shape ad.1 2 (p + 1) ∧
      (∀ i, at2 ad.1 s1 i 0 = at2 a s1 i 0) ∧
      (∀ i, t + 1 ≤ r + i → i < j →
        SignNear rd ρ (4 * (t + 1)) (coefErr B η (t + 1)) i (at2 ad.1 s2 i 0) (A (t + 1) i)) ∧
      IsApx rd (1 / ρ) (E + j) (j * τ) ad.2 (∑ i ∈ Finset.range j, A (t + 1) i * P i)
        (∑ i ∈ Finset.range j, |A (t + 1) i| * P i)) (by omega) ?_ ?_) ?_
  · exact ⟨j1, rfl, le_rfl, sh1, hs1eq, hs2eq, hd1⟩
  · rintro jz ⟨a2, d2⟩ hlo hhi ⟨j, rfl, hjj, sh2, g1, g2, g3⟩
    simp only at sh2 g1 g2 g3 ⊢
    have hj_le : j ≤ t := by omega
    have hj_p : r + j ≤ p := by omega
    obtain ⟨⟨z, d, hzz, hzn, hd1, hw⟩, y, hy, hyn⟩ := h.entry hV hp (by linarith) hB (j := j) hm (by omega) hj_p
      ((r : ℤ) - (t + 1 : ℕ) + j) rfl
    rw [get2_nat sh2 _ _ s1 j 0 rfl rfl hs1 (by omega), ok_bind,
      get2_nat sh2 _ _ s1 (j - 1) 0 rfl (by omega) hs1 (by omega), ok_bind, hzz, ok_bind]
    obtain ⟨m1, k1, sh3, at3⟩ := set2_nat sh2 (s2 : ℤ) (j : ℤ) s2 j
      (rnd rd (rnd rd (at2 a2 s1 j 0 - at2 a2 s1 (j - 1) 0) / z)) 0 rfl rfl hs2 (by omega)
    rw [k1, ok_bind, get2_nat sh3 _ _ s2 j 0 rfl rfl hs2 (by omega), ok_bind, hy, ok_bind]
    have hval : SignNear rd ρ (4 * (t + 1)) (coefErr B η (t + 1)) j (at2 m1 s2 j 0) (A (t + 1) j) := by
      rw [at3, if_pos ⟨rfl, rfl⟩, g1, g1]
      have b1 := ha j (by omega) (by omega) (by omega)
      have b2 := ha (j - 1) (by omega) (by omega) (by omega)
      have c1 := hAt j (by omega) (by omega)
      have c2 := hAt (j - 1) (by omega) (by omega)
      have e : A (t + 1) j = (A t j - A t (j - 1)) * w V (p - t - 1) (k - p + r + j) := by
        rw [hA, aCoef, if_neg (by omega)]
      obtain ⟨i, rfl⟩ : ∃ i, j = i + 1 := ⟨j - 1, by omega⟩
      rw [Nat.add_sub_cancel] at *
      have b3 := b1.sub hr' b2 (by
        have x1 := hz.pow_rho hr' (m := 4 * t) (by omega)
        have x2 := hz.big8 hr'
        have x3 : (2 * B) ^ t ≤ (4 * B) ^ p := hz.two_le_four (by omega)
        have x4 : (4 * B) ^ t ≤ (4 * B) ^ p := pow_le_pow_right₀ (by linarith) (by omega)
        have x6 : (1 : K) ≤ (4 * B) ^ t := one_le_pow₀ (by linarith)
        have x5 : coefErr B η t ≤ (4 * B) ^ t := by
          unfold coefErr
          have := mul_le_of_le_one_right (show 0 ≤ (4 * B) ^ t - 1 by linarith) hz.eta
          linarith
        have x7 := mul_le_mul_of_nonneg_left x1 (show 0 ≤ M by linarith)
        linarith)
      rw [show coefErr B η t + coefErr B η t = 2 * coefErr B η t by ring] at b3
      have := coef_div hr' hz hm b3 (by
        have := abs_sub (A t (i + 1)) (A t i)
        linarith) hzn hd1
      refine (congrArg (SignNear rd ρ (4 * (t + 1)) _ (i + 1) _) ?_).mp this
      rw [e, hw, mul_one_div]
    refine Returns.ok ⟨j + 1, by push_cast; rfl, by omega, sh3, ?_, ?_, ?_⟩
    · intro i
      show at2 m1 s1 i 0 = _
      rw [at3, if_neg (by omega), g1]
    · intro i hi1 hi2
      show SignNear rd ρ _ _ i (at2 m1 s2 i 0) _
      by_cases hij : i = j
      · subst hij; exact hval
      · rw [at3, if_neg (by omega)]; exact g2 i hi1 (by omega)
    · exact more j d2 _ (by omega) g3 (term j _ y (by omega) (by omega) hval hyn)
  rintro ⟨a2, d2⟩ ⟨j, hj, -, sh2, g1, g2, g3⟩
  have hj' : j = j2 + 1 := by omega
  subst hj'
  simp only at sh2 g1 g2 g3 ⊢
  have hlast : ∀ n : ℕ, n ≤ t + 1 + 1 → (n : K) * τ ≤ (p + 1) * τ := by
    intro n hn
    refine mul_le_mul_of_nonneg_right ?_ τ0
    have : n ≤ p + 1 := by omega
    exact_mod_cast this
  -- last coefficient
  refine Returns.bind (P := fun (ad : List (List (Ext K)) × Ext K) => Shape ad.1 2 (p + 1) ∧
      (∀ i, t + 1 ≤ r + i → r + i ≤ p → i ≤ t + 1 →
        SignNear rd ρ (4 * (t + 1)) (coefErr B η (t + 1)) i (at2 ad.1 s2 i 0) (A (t + 1) i)) ∧
      IsApx rd (1 / ρ) (6 * p + 2) ((p + 1) * τ) ad.2 (∑ i ∈ Finset.range (t + 1 + 1), A (t + 1) i * P i)
        (∑ i ∈ Finset.range (t + 1 + 1), |A (t + 1) i| * P i)) ?_ ?_
  · by_cases hrp : (r : ℤ) ≤ (p : ℤ) - ((t + 1 : ℕ) : ℤ)
    · rw [if_pos hrp]
      obtain ⟨⟨z, d, hzz, hzn, hd1, hw⟩, y, hy, hyn⟩ := h.entry hV hp (by linarith) hB (r := r) (j := t + 1) hm
        (by omega) (by omega) (r : ℤ) (by omega)
      rw [get2_nat sh2 _ _ s1 t 0 rfl (by push_cast; ring) hs1 (by omega), ok_bind, hzz, ok_bind]
      obtain ⟨m1, k1, sh3, at3⟩ := set2_nat sh2 (s2 : ℤ) ((t + 1 : ℕ) : ℤ) s2 (t + 1)
        (rnd rd (-at2 a2 s1 t 0 / z)) 0 rfl rfl hs2 (by omega)
      rw [k1, ok_bind, get2_nat sh3 _ _ s2 (t + 1) 0 rfl rfl hs2 (by omega), ok_bind, hy, ok_bind]
      have hval : SignNear rd ρ (4 * (t + 1)) (coefErr B η (t + 1)) (t + 1) (at2 m1 s2 (t + 1) 0)
          (A (t + 1) (t + 1)) := by
        rw [at3, if_pos ⟨rfl, rfl⟩, g1]
        have b1 := ((ha t (by omega) (by omega) (by omega)).neg).mono hr' (l := 4 * t + 1)
          (F := 2 * coefErr B η t) (by omega) (by linarith)
        have := coef_div hr' hz hm b1 (by
          rw [abs_neg]
          linarith [hAt t (by omega) (by omega)]) hzn hd1
        refine (congrArg (SignNear rd ρ (4 * (t + 1)) _ (t + 1) _) ?_).mp this
        have e : A (t + 1) (t + 1) = -A t t * w V (p - t - 1) (k - p + r + (t + 1)) := by
          rw [hA, aCoef, if_neg (by omega), aCoef_zero V p _ t (t + 1) (by omega), Nat.add_sub_cancel, zero_sub]
        rw [e, hw, mul_one_div]
      have hj2t : j2 = t := by omega
      refine Returns.ok ⟨sh3, ?_, ?_⟩
      · intro i hi1 hi2 hi3
        show SignNear rd ρ _ _ i (at2 m1 s2 i 0) _
        by_cases hit : i = t + 1
        · subst hit; exact hval
        · rw [at3, if_neg (by omega)]; exact g2 i hi1 (by omega)
      · rw [hj2t] at g3
        exact (more (t + 1) d2 _ le_rfl g3 (term (t + 1) _ y (by omega) (by omega) hval hyn)).mono hr' (by omega)
          (hlast _ le_rfl)
    · rw [if_neg hrp]
      refine Returns.ok ⟨sh2, ?_, ?_⟩
      · intro i hi1 hi2 hi3
        exact g2 i hi1 (by omega)
      · have e : t + 1 + 1 = (j2 + 1) + (t + 1 - j2) := by omega
        have hl := hlast (j2 + 1) (by omega)
        have z1 : ∑ x ∈ Finset.range (t + 1 - j2), A (t + 1) (j2 + 1 + x) * P (j2 + 1 + x) = 0 := by
          refine Finset.sum_eq_zero fun x hx => ?_
          rw [hP0 hm (j2 + 1 + x) (by have := Finset.mem_range.1 hx; omega), mul_zero]
        have z2 : ∑ x ∈ Finset.range (t + 1 - j2), |A (t + 1) (j2 + 1 + x)| * P (j2 + 1 + x) = 0 := by
          refine Finset.sum_eq_zero fun x hx => ?_
          rw [hP0 hm (j2 + 1 + x) (by have := Finset.mem_range.1 hx; omega), mul_zero]
        have s1 : ∑ i ∈ Finset.range (t + 1 + 1), A (t + 1) i * P i
            = ∑ i ∈ Finset.range (j2 + 1), A (t + 1) i * P i := by
          rw [e, Finset.sum_range_add _ (j2 + 1) (t + 1 - j2), z1, add_zero]
        have s2 : ∑ i ∈ Finset.range (t + 1 + 1), |A (t + 1) i| * P i
            = ∑ i ∈ Finset.range (j2 + 1), |A (t + 1) i| * P i := by
          rw [e, Finset.sum_range_add _ (j2 + 1) (t + 1 - j2), z2, add_zero]
        rw [s1, s2]
        exact g3.mono hr' (by omega) hl
  rintro ⟨a3, d3⟩ ⟨sh3, k1, k2⟩
  exact finish a3 d3 sh3 k1 (by rw [hraw, hrab]; exact k2)

end step

end PySpline
