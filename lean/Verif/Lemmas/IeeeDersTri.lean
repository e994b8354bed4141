import Verif.Lemmas.Ieee
import Verif.Lemmas.ExtendedDers
import Verif.Model.IeeeDers

/-!
# `basis_function_ders` in IEEE arithmetic: the triangle
-/

set_option linter.unusedSectionVars false

namespace PySpline

open Polynomial Spec Ext

variable {K : Type} [Field K] [LinearOrder K] [IsStrictOrderedRing K]

/-- What the array `ndu` holds: the basis functions of degree `j` up to `6 j` roundings and
`(4 ^ j - 1) c`, and the differences of knots up to two roundings. -/
structure TriR (rd : K → Ext K) (ρ c : K) (V : ℕ → K) (k p : ℕ) (u : K) (ndu : List (List (Ext K))) :
    Prop where
  shape : Shape ndu (p + 1) (p + 1)
  upper : ∀ r j, r ≤ j → j ≤ p → IsNear rd ρ (6 * j) ((4 ^ j - 1) * c) (at2 ndu r j 0)
    ((piece V k j (k - j + r)).eval u)
  lower : ∀ r j, r < j → j ≤ p → IsNear rd ρ 2 0 (at2 ndu j r 0) (V (k + r + 1) - V (k + 1 - j + r))

theorem nduTableR_tri {ρ η M H : K} {rd : K → Ext K} (hr : IeeeRounding ρ η M rd) {U : List K}
    (hU : Monotone (knotFn U)) {k p : ℕ} {u : K}
    (hp : p ≤ k) (hk : k + p < U.length) (hs : knotFn U k < knotFn U (k + 1))
    (h1 : knotFn U k ≤ u) (h2 : u ≤ knotFn U (k + 1))
    (hrep : ∀ x ∈ U, rd x = fin x) (hu : rd u = fin u)
    (hH : knotFn U (k + p) - knotFn U (k + 1 - p) ≤ H) (hE : 4 ^ p * (2 * H + 1) * η ≤ 1)
    (hM : 8 ≤ M) (hMh : 8 ≤ M * (knotFn U (k + 1) - knotFn U k)) (hMH : 2 * H ≤ M)
    (hρ : 1 ≤ 2 * ρ ^ (6 * p)) :
    Returns (nduTableR rd (k : ℤ) (fin u) p (lift1 U))
      (TriR rd ρ ((2 * H + 1) * η) (knotFn U) k p u) := by
  have p0 := hr.pos
  have p1 := hr.le_one
  have hη := hr.eta
  set V := knotFn U with hV
  have hH0 : 1 ≤ p → V (k + 1) - V k ≤ H := fun h => by
    have a : V (k + 1) ≤ V (k + p) := hU (by omega)
    have b : V (k + 1 - p) ≤ V k := hU (by omega)
    linarith
  set c := (2 * H + 1) * η with hc
  -- the bound after round `j`
  have hEj : ∀ j, 1 ≤ p → j ≤ p → 0 ≤ (4 ^ j - 1) * c ∧ (4 ^ j - 1) * c ≤ 1 := by
    intro j hp1 hj
    have := hH0 hp1
    have hc0 : 0 ≤ c := mul_nonneg (by linarith) hη
    have a1 : (1 : K) ≤ 4 ^ j := one_le_pow₀ (by norm_num)
    have a2 : (4 : K) ^ j ≤ 4 ^ p := pow_le_pow_right₀ (by norm_num) hj
    have a3 := mul_le_mul_of_nonneg_right a2 hc0
    rw [mul_assoc, ← hc] at hE
    exact ⟨mul_nonneg (by linarith) hc0, by linarith⟩
  unfold nduTableR
  dsimp only
  obtain ⟨m0, e0, sh0, at0⟩ := set2_nat (shape_ones2E (K := K) (p + 1) (p + 1)) 0 0 0 0 (1 : Ext K) 0
    rfl rfl (by omega) (by omega)
  rw [e0, ok_bind]
  have hgetU : ∀ (i : ℤ) (m : ℕ), i = (m : ℤ) → m < U.length → pyGet (lift1 U) i = .ok (fin (V m)) := by
    intro i m hi hm
    rw [pyGet_nat (lift1 U) i m 0 hi (by simpa using hm)]
    congr 1
    rw [List.getD_eq_getElem?_getD, List.getElem?_map, List.getElem?_eq_getElem hm, hV, knotFn_eq hm]
    rfl
  have hrepV : ∀ m, m < U.length → rd (V m) = fin (V m) := fun m hm =>
    hrep _ (by rw [hV, knotFn_eq hm]; exact List.getElem_mem _)
  refine Returns.bind (Returns.forN (fun j st => st.2.1.length = p + 1 ∧ st.2.2.length = p + 1 ∧
      Shape st.1 (p + 1) (p + 1) ∧
      (∀ r q, r ≤ q → q < j → IsNear rd ρ (6 * q) ((4 ^ q - 1) * c) (at2 st.1 r q 0)
        ((piece V k q (k - q + r)).eval u)) ∧
      (∀ r q, r < q → q < j → IsNear rd ρ 2 0 (at2 st.1 q r 0) (V (k + r + 1) - V (k + 1 - q + r))) ∧
      (∀ q, 1 ≤ q → q < j → IsNear rd ρ 1 0 (st.2.1.getD q 0) (u - V (k + 1 - q)) ∧
        IsNear rd ρ 1 0 (st.2.2.getD q 0) (V (k + q) - u))) (by omega) ?_ ?_) ?_
  · refine ⟨by simp, by simp, sh0, ?_, ?_, ?_⟩
    · intro r q h1 h2
      have : q = 0 := by omega
      subst this
      have : r = 0 := by omega
      subst this
      show IsNear rd ρ _ _ (at2 m0 0 0 0) _
      rw [at0]
      simpa [piece] using IsNear.one hr
    · intro r q h1 h2; omega
    · intro q h1 h2; omega
  · rintro j ⟨ndu, left, right⟩ hj1 hj2 ⟨hl, hrl, hsh, hup, hlow, hlr⟩
    simp only at hl hrl hsh hup hlow hlr ⊢
    rw [hgetU _ (k + 1 - j) (by omega) (by omega), ok_bind,
      pySet_nat left _ j _ rfl (by omega), ok_bind,
      hgetU _ (k + j) (by omega) (by omega), ok_bind,
      pySet_nat right _ j _ rfl (by omega), ok_bind]
    set left' := left.set j (rnd rd (fin u - fin (V (k + 1 - j)))) with hleft'
    set right' := right.set j (rnd rd (fin (V (k + j)) - fin u)) with hright'
    have hl' : left'.length = p + 1 := by simp [hleft', hl]
    have hr' : right'.length = p + 1 := by simp [hright', hrl]
    have hHM : H ≤ M := by
      have := hH0 (by omega)
      linarith
    have hlr' : ∀ q, 1 ≤ q → q < j + 1 → IsNear rd ρ 1 0 (left'.getD q 0) (u - V (k + 1 - q)) ∧
        IsNear rd ρ 1 0 (right'.getD q 0) (V (k + q) - u) := by
      intro q q1 q2
      rw [hleft', hright', getD_set _ _ _ _ _ (by omega), getD_set _ _ _ _ _ (by omega)]
      by_cases hq : q = j
      · subst hq
        have a1 : V (k + 1 - q) ≤ V k := hU (by omega)
        have a2 : V (k + 1) ≤ V (k + q) := hU (by omega)
        have a3 : V (k + q) ≤ V (k + p) := hU (by omega)
        have a4 : V (k + 1 - p) ≤ V (k + 1 - q) := hU (by omega)
        rw [if_pos rfl, if_pos rfl]
        exact ⟨IsNear.sub hr hu (hrepV _ (by omega)) (by linarith) (by linarith),
          IsNear.sub hr (hrepV _ (by omega)) hu (by linarith) (by linarith)⟩
      · simp only [if_neg hq]; exact hlr q q1 (by omega)
    have hSj : 2 * ((4 ^ (j - 1) - 1) * c) + (2 * H + 1) * η ≤ (4 ^ j - 1) * c / 2 := by
      have := hH0 (by omega)
      have hc0 : 0 ≤ c := mul_nonneg (by linarith) hη
      obtain ⟨m, rfl⟩ : ∃ m, j = m + 1 := ⟨j - 1, by omega⟩
      rw [Nat.add_sub_cancel, pow_succ, ← hc]
      linarith
    have hEb := hEj j (by omega) (by omega)
    refine Returns.bind (Returns.forN (fun r st => Shape st.1 (p + 1) (p + 1) ∧
      (∀ x q, x ≤ q → q < j → IsNear rd ρ (6 * q) ((4 ^ q - 1) * c) (at2 st.1 x q 0)
        ((piece V k q (k - q + x)).eval u)) ∧
      (∀ x q, x < q → q < j → IsNear rd ρ 2 0 (at2 st.1 q x 0) (V (k + x + 1) - V (k + 1 - q + x))) ∧
      (∀ x < r, IsNear rd ρ (6 * j) ((4 ^ j - 1) * c) (at2 st.1 x j 0) ((piece V k j (k - j + x)).eval u)) ∧
      (∀ x < r, IsNear rd ρ 2 0 (at2 st.1 j x 0) (V (k + x + 1) - V (k + 1 - j + x))) ∧
      IsNear rd ρ (6 * (j - 1) + 5) ((4 ^ j - 1) * c / 2) st.2 (w V (j - 1) (k - j + r) * (u - V (k - j + r))
        * (piece V k (j - 1) (k - j + r)).eval u) ∧
      w V (j - 1) (k - j + r) * (u - V (k - j + r)) * (piece V k (j - 1) (k - j + r)).eval u ≤ 1)
      (by omega) ?_ ?_) ?_
    · refine ⟨hsh, hup, hlow, by intro x hx; omega, by intro x hx; omega, ?_, ?_⟩
      · rw [piece_eq_zero_of_gt V k (j - 1) (k - j + 0) (by omega)]
        simpa using IsNear.zero hr (6 * (j - 1) + 5) (show 0 ≤ (4 ^ j - 1) * c / 2 by linarith [hEb.1])
      · rw [piece_eq_zero_of_gt V k (j - 1) (k - j + 0) (by omega)]
        simp
    · rintro r ⟨ndu, saved⟩ - hrj ⟨hsh, i2, i3, i4, i5, i6, i7⟩
      simp only at hsh i2 i3 i4 i5 i6 i7 ⊢
      rw [pyGet_nat right' _ (r + 1) 0 (by push_cast; rfl) (by omega), ok_bind,
        pyGet_nat left' _ (j - r) 0 (by omega) (by omega), ok_bind]
      have n1 := i2 r (j - 1) (by omega) (by omega)
      have n2 := (hlr' (r + 1) (by omega) (by omega)).2
      have n3 := (hlr' (j - r) (by omega) (by omega)).1
      have nb := piece_le_one hU hs h1 h2 (p := j - 1) (r := r) (by omega) (by omega)
      have nb0 := piece_nonneg hU h1 h2 (j - 1) (k - j + r + 1)
      have e2 : k + 1 - (j - r) = k - j + r + 1 := by omega
      have e3 : k + (r + 1) = k - j + r + 1 + (j - 1) + 1 := by omega
      have e0 : k - (j - 1) + r = k - j + r + 1 := by omega
      rw [e0] at nb n1
      rw [e3] at n2
      rw [e2] at n3
      have l1 : V (k - j + r + 1) ≤ V k := hU (by omega)
      have l2 : V (k + 1) ≤ V (k - j + r + 1 + (j - 1) + 1) := hU (by omega)
      have l3 : V (k - j + r + 1 + (j - 1) + 1) ≤ V (k + p) := hU (by omega)
      have l4 : V (k + 1 - p) ≤ V (k - j + r + 1) := hU (by omega)
      set h := V (k - j + r + 1 + (j - 1) + 1) - V (k - j + r + 1) with hh
      have hpos : 0 < h := by linarith
      have hη1 : h * η ≤ 1 := by
        have q1 : h * η ≤ H * η := mul_le_mul_of_nonneg_right (by linarith) hη
        have q2 := (hEj 1 (by omega) (by omega)).2
        rw [hc] at q2
        have q3 : 0 ≤ H * η := mul_nonneg (by have := hH0 (by omega); linarith) hη
        linarith
      have hst := n1.step hr n2 n3 hpos (by rw [hh]; ring) (show h ≤ H by linarith) nb
        (hEj (j - 1) (by omega) (by omega)).2 hη1 hM
        (hMh.trans (mul_le_mul_of_nonneg_left (by linarith) (by linarith))) hMH
        (hρ.trans (mul_le_mul_of_nonneg_left (pow_le_pow_of_le_one p0.le p1 (by omega)) zero_le_two))
      have n4 := n2.add hr n3 (by
        have : 1 ≤ 2 * ρ ^ 1 :=
          hρ.trans (mul_le_mul_of_nonneg_left (pow_le_pow_of_le_one p0.le p1 (by omega)) zero_le_two)
        have := mul_le_mul_of_nonneg_left this (show 0 ≤ M by linarith)
        linarith)
      rw [show V (k - j + r + 1 + (j - 1) + 1) - u + (u - V (k - j + r + 1)) = h by rw [hh]; ring,
        add_zero] at n4
      generalize right'.getD (r + 1) 0 = rr at *
      generalize left'.getD (j - r) 0 = lf at *
      obtain ⟨m1, g1, sh1, at1⟩ := set2_nat hsh (j : ℤ) (r : ℤ) j r (rnd rd (rr + lf)) 0 rfl rfl
        (by omega) (by omega)
      rw [g1, ok_bind, get2_nat sh1 _ _ r (j - 1) 0 rfl (by omega) (by omega) (by omega), ok_bind,
        get2_nat sh1 _ _ j r 0 rfl rfl (by omega) (by omega), ok_bind, at1, at1,
        if_neg (by omega), if_pos ⟨rfl, rfl⟩]
      generalize at2 ndu r (j - 1) 0 = nr at *
      obtain ⟨n6, n7⟩ := hst
      have n6 := n6.mono hr (l := 6 * (j - 1) + 5) (by omega) hSj
      have n7 := n7.mono hr (l := 6 * (j - 1) + 5) (by omega) hSj
      set temp := rnd rd (nr / rnd rd (rr + lf)) with htemp
      obtain ⟨m2, g2, sh2, at2'⟩ := set2_nat sh1 (r : ℤ) (j : ℤ) r j
        (rnd rd (saved + rnd rd (rr * temp))) 0 rfl rfl (by omega) (by omega)
      rw [g2, ok_bind]
      have bR : (V (k - j + r + 1 + (j - 1) + 1) - u) *
          ((piece V k (j - 1) (k - j + r + 1)).eval u / h) ≤ 1 := by
        rw [mul_div_assoc', div_le_one hpos]
        exact (mul_le_mul (by linarith : _ ≤ h) nb nb0 hpos.le).trans (mul_one _).le
      have bL : (u - V (k - j + r + 1)) * ((piece V k (j - 1) (k - j + r + 1)).eval u / h) ≤ 1 := by
        rw [mul_div_assoc', div_le_one hpos]
        exact (mul_le_mul (by linarith : _ ≤ h) nb nb0 hpos.le).trans (mul_one _).le
      have eL : (u - V (k - j + r + 1)) * ((piece V k (j - 1) (k - j + r + 1)).eval u / h)
          = w V (j - 1) (k - j + (r + 1)) * (u - V (k - j + (r + 1)))
            * (piece V k (j - 1) (k - j + (r + 1))).eval u := by
        rw [← add_assoc (k - j) r 1]
        unfold w
        rw [hh]
        ring
      refine Returns.ok ⟨sh2, ?_, ?_, ?_, ?_, ?_, ?_⟩
      · intro x q hx hq
        show IsNear rd ρ _ _ (at2 m2 x q 0) _
        rw [at2', if_neg (by omega), at1, if_neg (by omega)]; exact i2 x q hx hq
      · intro x q hx hq
        show IsNear rd ρ _ _ (at2 m2 q x 0) _
        rw [at2', if_neg (by omega), at1, if_neg (by omega)]; exact i3 x q hx hq
      · intro x hx
        show IsNear rd ρ _ _ (at2 m2 x j 0) _
        rw [at2']
        by_cases hxr : x = r
        · subst hxr
          rw [if_pos ⟨rfl, rfl⟩]
          have n8 := i6.add hr n6 (by
            have : 1 ≤ 2 * ρ ^ (6 * (j - 1) + 5) :=
              hρ.trans (mul_le_mul_of_nonneg_left (pow_le_pow_of_le_one p0.le p1 (by omega)) zero_le_two)
            have := mul_le_mul_of_nonneg_left this (show 0 ≤ M by linarith)
            linarith [hEb.2])
          have n9 := n8.mono hr (l := 6 * j) (F := (4 ^ j - 1) * c) (by omega) (by linarith)
          refine (congrArg (IsNear rd ρ (6 * j) _ _) ?_).mp n9
          obtain ⟨m, rfl⟩ : ∃ m, j = m + 1 := ⟨j - 1, by omega⟩
          rw [piece_succ, hh]
          simp only [eval_add, eval_mul, eval_C, eval_sub, eval_X, w, Nat.add_sub_cancel]
          have e4 : k - (m + 1) + x + m + 2 = k - (m + 1) + x + 1 + m + 1 := by omega
          rw [e4]
          congr 1
          ring
        · rw [if_neg (by omega), at1, if_neg (by omega)]; exact i4 x (by omega)
      · intro x hx
        show IsNear rd ρ _ _ (at2 m2 j x 0) _
        rw [at2', if_neg (by omega), at1]
        by_cases hxr : x = r
        · subst hxr
          rw [if_pos ⟨rfl, rfl⟩]
          have a1 : k + x + 1 = k - j + x + 1 + (j - 1) + 1 := by omega
          have a2 : k + 1 - j + x = k - j + x + 1 := by omega
          rw [a1, a2]
          exact n4
        · rw [if_neg (by omega)]; exact i5 x (by omega)
      · rw [← eL]; exact n7
      · rw [← eL]; exact bL
    · rintro ⟨ndu, saved⟩ ⟨hsh, h2, h3, h4, h5, h6, -⟩
      simp only at hsh h2 h3 h4 h5 h6 ⊢
      obtain ⟨m1, g1, sh1, at1⟩ := set2_nat hsh (j : ℤ) (j : ℤ) j j saved 0 rfl rfl
        (by omega) (by omega)
      rw [g1, ok_bind]
      refine Returns.ok ⟨hl', hr', sh1, ?_, ?_, hlr'⟩
      · intro x q hx hq
        show IsNear rd ρ _ _ (at2 m1 x q 0) _
        rw [at1]
        by_cases hqj : q = j
        · subst hqj
          by_cases hxq : x = q
          · subst hxq
            rw [if_pos ⟨rfl, rfl⟩]
            obtain ⟨m, rfl⟩ : ∃ m, x = m + 1 := ⟨x - 1, by omega⟩
            have e : k - (m + 1) + (m + 1) = k := by omega
            rw [e] at h6 ⊢
            rw [piece_succ, piece_eq_zero_of_lt V k m (k + 1) (by omega)]
            have := h6.mono hr (l := 6 * (m + 1)) (F := (4 ^ (m + 1) - 1) * c) (by omega)
              (by linarith [hEb.1])
            simpa [eval_mul, eval_sub] using this
          · rw [if_neg (by omega)]; exact h4 x (by omega)
        · rw [if_neg (by omega)]; exact h2 x q hx (by omega)
      · intro x q hx hq
        show IsNear rd ρ _ _ (at2 m1 q x 0) _
        rw [at1, if_neg (by omega)]
        by_cases hqj : q = j
        · subst hqj; exact h5 x hx
        · exact h3 x q hx (by omega)
  · rintro ⟨ndu, left, right⟩ ⟨-, -, h3, h4, h5, -⟩
    exact Returns.ok ⟨h3, fun r j h1 h2 => h4 r j h1 (by omega),
      fun r j h1 h2 => h5 r j h1 (by omega)⟩

end PySpline
