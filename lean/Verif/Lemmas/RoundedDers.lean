import Verif.Lemmas.Ders
import Verif.Lemmas.Rounded
import Verif.Lemmas.RoundedInsertion
import Verif.Model.RoundedDers

/-!
# `basis_function_ders` in rounded arithmetic: the triangle and one derivative step
-/

set_option linter.unusedSectionVars false

namespace PySpline

open Polynomial Spec

variable {K : Type} [Field K] [LinearOrder K] [IsStrictOrderedRing K]

/-! ## More about `Approx` -/

namespace Approx

theorem zero (g : K) (k : ℕ) : Approx g k 0 0 0 := by
  constructor <;> simp

end Approx

theorem Near.neg_one_pow_approx {ρ : K} (h0 : 0 < ρ) (h1 : ρ ≤ 1) {k j : ℕ} {a b : K}
    (h : Near ρ k ((-1) ^ j * a) ((-1) ^ j * b)) : Approx (1 / ρ) k a b |b| := by
  have h2 := (h.approx h0 h1).2
  refine ⟨le_rfl, ?_⟩
  have e : ∀ x : K, |(-1) ^ j * x| = |x| := fun x => by rw [abs_mul, abs_pow, abs_neg, abs_one, one_pow, one_mul]
  have e3 : (-1) ^ j * b = |b| := by rw [← e b, abs_of_nonneg h.1]
  rw [← mul_sub, e, e3] at h2
  exact h2

/-! ## The coefficients alternate in sign -/

theorem w_nonneg {V : ℕ → K} (hV : Monotone V) (q i : ℕ) : 0 ≤ w V q i :=
  one_div_nonneg.2 (sub_nonneg.2 (hV (by omega)))

/-- `(-1) ^ j a_{m,j}`, which is a sum of non-negative terms. -/
theorem aCoef_alternating (V : ℕ → K) (p i m j : ℕ) :
    (-1) ^ j * aCoef V p i (m + 1) j = ((-1) ^ j * aCoef V p i m j
      + if j = 0 then 0 else (-1) ^ (j - 1) * aCoef V p i m (j - 1)) * w V (p - m - 1) (i + j) := by
  rw [aCoef]
  rcases j with _ | j
  · simp
  · simp only [Nat.succ_ne_zero, if_false, Nat.add_sub_cancel]
    rw [pow_succ]
    ring

theorem aCoef_sign {V : ℕ → K} (hV : Monotone V) (p i m j : ℕ) : 0 ≤ (-1) ^ j * aCoef V p i m j := by
  induction m generalizing j with
  | zero => rcases j with _ | j <;> simp [aCoef]
  | succ m ih =>
    rw [aCoef_alternating]
    refine mul_nonneg (add_nonneg (ih j) ?_) (w_nonneg hV _ _)
    split
    · exact le_rfl
    · exact ih (j - 1)

/-! ## The triangle `ndu` -/

/-- What the array `ndu` holds after rounding. -/
structure TriFl (ρ : K) (V : ℕ → K) (k p : ℕ) (u : K) (ndu : List (List K)) : Prop where
  shape : Shape ndu (p + 1) (p + 1)
  upper : ∀ r j, r ≤ j → j ≤ p → Near ρ (6 * j) (at2 ndu r j 0) ((piece V k j (k - j + r)).eval u)
  lower : ∀ r j, r < j → j ≤ p → Near ρ 2 (at2 ndu j r 0) (V (k + r + 1) - V (k + 1 - j + r))

theorem nduTableFl_tri {ρ : K} {fl : K → K} (hf : Accurate ρ fl) {U : List K}
    (hU : Monotone (knotFn U)) {k p : ℕ} {u : K}
    (hp : p ≤ k) (hk : k + p < U.length) (hs : knotFn U k < knotFn U (k + 1))
    (h1 : knotFn U k ≤ u) (h2 : u ≤ knotFn U (k + 1)) :
    Returns (nduTableFl fl (k : ℤ) u p U) (TriFl ρ (knotFn U) k p u) := by
  have p0 := hf.pos
  have p1 := hf.le_one
  unfold nduTableFl
  set V := knotFn U with hV
  have dl : ∀ q, 1 ≤ q → 0 ≤ u - V (k + 1 - q) := fun q hq =>
    sub_nonneg.2 ((hU (by omega)).trans h1)
  have dr : ∀ q, 1 ≤ q → 0 ≤ V (k + q) - u := fun q hq =>
    sub_nonneg.2 (h2.trans (hU (by omega)))
  dsimp only
  obtain ⟨m0, e0, sh0, at0⟩ := set2_nat (shape_replicate (p + 1) (p + 1) (1 : K)) 0 0 0 0 (1 : K) 0
    rfl rfl (by omega) (by omega)
  have e0' : set2 (ones2 (p + 1) (p + 1) : List (List K)) 0 0 1 = .ok m0 := e0
  rw [e0', ok_bind]
  refine Returns.bind (Returns.forN (fun j st => st.2.1.length = p + 1 ∧ st.2.2.length = p + 1 ∧
      Shape st.1 (p + 1) (p + 1) ∧
      (∀ r q, r ≤ q → q < j → Near ρ (6 * q) (at2 st.1 r q 0) ((piece V k q (k - q + r)).eval u)) ∧
      (∀ r q, r < q → q < j → Near ρ 2 (at2 st.1 q r 0) (V (k + r + 1) - V (k + 1 - q + r))) ∧
      (∀ q, 1 ≤ q → q < j → Near ρ 1 (st.2.1.getD q 0) (u - V (k + 1 - q)) ∧
        Near ρ 1 (st.2.2.getD q 0) (V (k + q) - u))) (by omega) ?_ ?_) ?_
  · refine ⟨by simp [ones], by simp [ones], sh0, ?_, ?_, ?_⟩
    · intro r q h1 h2
      have : q = 0 := by omega
      subst this
      have : r = 0 := by omega
      subst this
      show Near ρ _ (at2 m0 0 0 0) _
      rw [at0]
      simpa [piece] using Near.refl p0 p1 0 (zero_le_one (α := K))
    · intro r q h1 h2; omega
    · intro q h1 h2; omega
  · rintro j ⟨ndu, left, right⟩ hj1 hj2 ⟨hl, hr, hsh, hup, hlow, hlr⟩
    simp only at hl hr hsh hup hlow hlr ⊢
    rw [pyGet_knot U _ (k + 1 - j) (by omega) (by omega), ok_bind,
      pySet_nat left _ j _ rfl (by omega), ok_bind,
      pyGet_knot U _ (k + j) (by omega) (by omega), ok_bind,
      pySet_nat right _ j _ rfl (by omega), ok_bind]
    rw [← hV]
    set left' := left.set j (fl (u - V (k + 1 - j))) with hleft'
    set right' := right.set j (fl (V (k + j) - u)) with hright'
    have hl' : left'.length = p + 1 := by simp [hleft', hl]
    have hr' : right'.length = p + 1 := by simp [hright', hr]
    have hlr' : ∀ q, 1 ≤ q → q < j + 1 → Near ρ 1 (left'.getD q 0) (u - V (k + 1 - q)) ∧
        Near ρ 1 (right'.getD q 0) (V (k + q) - u) := by
      intro q h1 h2
      rw [hleft', hright', getD_set _ _ _ _ _ (by omega), getD_set _ _ _ _ _ (by omega)]
      by_cases hq : q = j
      · subst hq
        rw [if_pos rfl, if_pos rfl]
        exact ⟨(Near.refl p0 p1 0 (dl q h1)).fl hf, (Near.refl p0 p1 0 (dr q h1)).fl hf⟩
      · simp only [if_neg hq]; exact hlr q h1 (by omega)
    refine Returns.bind (Returns.forN (fun r st => Shape st.1 (p + 1) (p + 1) ∧
      (∀ x q, x ≤ q → q < j → Near ρ (6 * q) (at2 st.1 x q 0) ((piece V k q (k - q + x)).eval u)) ∧
      (∀ x q, x < q → q < j → Near ρ 2 (at2 st.1 q x 0) (V (k + x + 1) - V (k + 1 - q + x))) ∧
      (∀ x < r, Near ρ (6 * j) (at2 st.1 x j 0) ((piece V k j (k - j + x)).eval u)) ∧
      (∀ x < r, Near ρ 2 (at2 st.1 j x 0) (V (k + x + 1) - V (k + 1 - j + x))) ∧
      Near ρ (6 * (j - 1) + 5) st.2 (w V (j - 1) (k - j + r) * (u - V (k - j + r))
        * (piece V k (j - 1) (k - j + r)).eval u)) (by omega) ?_ ?_) ?_
    · refine ⟨hsh, hup, hlow, by intro x hx; omega, by intro x hx; omega, ?_⟩
      rw [piece_eq_zero_of_gt V k (j - 1) (k - j + 0) (by omega)]
      simpa using Near.refl p0 p1 (6 * (j - 1) + 5) (le_refl (0 : K))
    · rintro r ⟨ndu, saved⟩ - hrj ⟨hsh, h2, h3, h4, h5, h6⟩
      simp only at hsh h2 h3 h4 h5 h6 ⊢
      rw [pyGet_nat right' _ (r + 1) 0 (by push_cast; rfl) (by omega), ok_bind,
        pyGet_nat left' _ (j - r) 0 (by omega) (by omega), ok_bind]
      have n1 := h2 r (j - 1) (by omega) (by omega)
      have n2 := (hlr' (r + 1) (by omega) (by omega)).2
      have n3 := (hlr' (j - r) (by omega) (by omega)).1
      have e1 : k - (j - 1) + r = k - j + r + 1 := by omega
      have e2 : k + 1 - (j - r) = k - j + r + 1 := by omega
      have e3 : k + (r + 1) = k - j + r + 1 + (j - 1) + 1 := by omega
      rw [e1] at n1
      rw [e3] at n2
      rw [e2] at n3
      generalize right'.getD (r + 1) 0 = rr at *
      generalize left'.getD (j - r) 0 = lf at *
      have hd : V (k - j + r + 1) < V (k - j + r + 1 + (j - 1) + 1) :=
        lt_of_le_of_lt (hU (by omega : k - j + r + 1 ≤ k))
          (lt_of_lt_of_le hs (hU (by omega)))
      have e5 : V (k - j + r + 1 + (j - 1) + 1) - u + (u - V (k - j + r + 1))
          = V (k - j + r + 1 + (j - 1) + 1) - V (k - j + r + 1) := by ring
      have n4 := (n2.add n3).fl hf
      rw [e5] at n4
      have hd' := n4.pos p0 (sub_pos.2 hd)
      obtain ⟨m1, g1, sh1, at1⟩ := set2_nat hsh (j : ℤ) (r : ℤ) j r (fl (rr + lf)) 0 rfl rfl
        (by omega) (by omega)
      unfold pyDivFl
      rw [g1, ok_bind, get2_nat sh1 _ _ r (j - 1) 0 rfl (by omega) (by omega) (by omega), ok_bind,
        get2_nat sh1 _ _ j r 0 rfl rfl (by omega) (by omega), ok_bind, at1, at1,
        if_neg (by omega), if_pos ⟨rfl, rfl⟩, pyDiv_ok hd'.ne', ok_bind, ok_bind]
      generalize at2 ndu r (j - 1) 0 = nr at *
      have n5 := (n1.div p0 n4 (sub_pos.2 hd)).fl hf
      set temp := fl (nr / fl (rr + lf)) with htemp
      have n6 := ((n2.mul p0 n5).fl hf)
      have n7 := ((n3.mul p0 n5).fl hf)
      obtain ⟨m2, g2, sh2, at2'⟩ := set2_nat sh1 (r : ℤ) (j : ℤ) r j
        (fl (saved + fl (rr * temp))) 0 rfl rfl (by omega) (by omega)
      rw [g2, ok_bind]
      refine Returns.ok ⟨sh2, ?_, ?_, ?_, ?_, ?_⟩
      · intro x q hx hq
        show Near ρ _ (at2 m2 x q 0) _
        rw [at2', if_neg (by omega), at1, if_neg (by omega)]; exact h2 x q hx hq
      · intro x q hx hq
        show Near ρ _ (at2 m2 q x 0) _
        rw [at2', if_neg (by omega), at1, if_neg (by omega)]; exact h3 x q hx hq
      · intro x hx
        show Near ρ _ (at2 m2 x j 0) _
        rw [at2']
        by_cases hxr : x = r
        · subst hxr
          rw [if_pos ⟨rfl, rfl⟩]
          obtain ⟨m, rfl⟩ : ∃ m, j = m + 1 := ⟨j - 1, by omega⟩
          have n8 := ((h6.add (n6.mono p0 p1 (l := 6 * (m + 1 - 1) + 5) (by omega))).fl hf).mono p0 p1
            (l := 6 * (m + 1)) (by omega)
          refine (congrArg (Near ρ (6 * (m + 1)) _) ?_).mp n8
          rw [piece_succ]
          simp only [eval_add, eval_mul, eval_C, eval_sub, eval_X, w, Nat.add_sub_cancel]
          have e4 : k - (m + 1) + x + m + 2 = k - (m + 1) + x + 1 + m + 1 := by omega
          rw [e4]
          ring
        · rw [if_neg (by omega), at1, if_neg (by omega)]; exact h4 x (by omega)
      · intro x hx
        show Near ρ _ (at2 m2 j x 0) _
        rw [at2', if_neg (by omega), at1]
        by_cases hxr : x = r
        · subst hxr
          rw [if_pos ⟨rfl, rfl⟩]
          have a1 : k + x + 1 = k - j + x + 1 + (j - 1) + 1 := by omega
          have a2 : k + 1 - j + x = k - j + x + 1 := by omega
          rw [a1, a2]
          exact n4
        · rw [if_neg (by omega)]; exact h5 x (by omega)
      · rw [← add_assoc (k - j) r 1]
        have n8 := n7.mono p0 p1 (l := 6 * (j - 1) + 5) (by omega)
        refine (congrArg (Near ρ (6 * (j - 1) + 5) _) ?_).mp n8
        unfold w
        ring
    · rintro ⟨ndu, saved⟩ ⟨hsh, h2, h3, h4, h5, h6⟩
      simp only at hsh h2 h3 h4 h5 h6 ⊢
      obtain ⟨m1, g1, sh1, at1⟩ := set2_nat hsh (j : ℤ) (j : ℤ) j j saved 0 rfl rfl
        (by omega) (by omega)
      rw [g1, ok_bind]
      refine Returns.ok ⟨hl', hr', sh1, ?_, ?_, hlr'⟩
      · intro x q hx hq
        show Near ρ _ (at2 m1 x q 0) _
        rw [at1]
        by_cases hqj : q = j
        · subst hqj
          by_cases hxq : x = q
          · subst hxq
            rw [if_pos ⟨rfl, rfl⟩]
            obtain ⟨m, rfl⟩ : ∃ m, x = m + 1 := ⟨x - 1, by omega⟩
            have e : k - (m + 1) + (m + 1) = k := by omega
            rw [e] at h6 ⊢
            rw [piece_succ, piece_eq_zero_of_lt V k m (k + 1) (by omega)]
            have := h6.mono p0 p1 (l := 6 * (m + 1)) (by omega)
            simpa [eval_mul, eval_sub] using this
          · rw [if_neg (by omega)]; exact h4 x (by omega)
        · rw [if_neg (by omega)]; exact h2 x q hx (by omega)
      · intro x q hx hq
        show Near ρ _ (at2 m1 q x 0) _
        rw [at1, if_neg (by omega)]
        by_cases hqj : q = j
        · subst hqj; exact h5 x hx
        · exact h3 x q hx (by omega)
  · rintro ⟨ndu, left, right⟩ ⟨-, -, h3, h4, h5, -⟩
    exact Returns.ok ⟨h3, fun r j h1 h2 => h4 r j h1 (by omega),
      fun r j h1 h2 => h5 r j h1 (by omega)⟩

/-! ## One derivative step -/

theorem Rounding.neg_one_pow {fl : K → K} (hr : Rounding fl) (j : ℕ) (x : K) :
    (-1) ^ j * fl x = fl ((-1) ^ j * x) := by
  rcases neg_one_pow_eq_or K j with h | h <;> rw [h]
  · rw [one_mul, one_mul]
  · rw [neg_one_mul, neg_one_mul, hr.neg]

section step
variable {ρ : K} {fl : K → K} {V : ℕ → K} {k p : ℕ} {u : K} {ndu : List (List K)}

/-- The two `ndu` entries used for the coefficient `j` of order `t + 1` in row `r`. -/
theorem TriFl.entry (hr : Rounding fl) (hf : Accurate ρ fl) (h : TriFl ρ V k p u ndu) (hV : Monotone V)
    (hp : p ≤ k) (hs : V k < V (k + 1))
    {r t j : ℕ} (hm : t + 1 ≤ p) (h1 : t + 1 ≤ r + j) (h2 : r + j ≤ p) (x : ℤ)
    (hx : x = (r : ℤ) - (t + 1 : ℕ) + j) :
    (∃ z, get2 ndu ((p : ℤ) - (t + 1 : ℕ) + 1) x = .ok z ∧
      ∀ y, ∃ q, pyDivFl fl y z = .ok q ∧ ∀ c s b, Near ρ c ((-1) ^ s * y) b →
        Near ρ (c + 3) ((-1) ^ s * q) (b * w V (p - t - 1) (k - p + r + j))) ∧
    ∃ y, get2 ndu x ((p : ℤ) - (t + 1 : ℕ)) = .ok y ∧
      Near ρ (6 * (p - (t + 1))) y ((piece V k (p - (t + 1)) (k - p + r + j)).eval u) := by
  constructor
  · refine ⟨_, get2_nat h.shape _ _ (p - t) (r + j - (t + 1)) 0 (by omega) (by omega) (by omega)
      (by omega), fun y => ?_⟩
    have hl := h.lower (r + j - (t + 1)) (p - t) (by omega) (by omega)
    have e1 : k + (r + j - (t + 1)) + 1 = k - p + r + j + (p - t - 1) + 1 := by omega
    have e2 : k + 1 - (p - t) + (r + j - (t + 1)) = k - p + r + j := by omega
    rw [e1, e2] at hl
    have hd : V (k - p + r + j) < V (k - p + r + j + (p - t - 1) + 1) :=
      lt_of_le_of_lt (hV (by omega : k - p + r + j ≤ k)) (lt_of_lt_of_le hs (hV (by omega)))
    have hpos := hl.pos hf.pos (sub_pos.2 hd)
    unfold pyDivFl
    rw [pyDiv_ok hpos.ne', ok_bind]
    refine ⟨_, rfl, fun c s b hb => ?_⟩
    have := (hb.div hf.pos hl (sub_pos.2 hd)).fl hf
    rw [hr.neg_one_pow, ← mul_div_assoc]
    unfold w
    rw [mul_one_div]
    exact this
  · refine ⟨_, get2_nat h.shape _ _ (r + j - (t + 1)) (p - (t + 1)) 0 (by omega) (by omega) (by omega)
      (by omega), ?_⟩
    have := h.upper (r + j - (t + 1)) (p - (t + 1)) (by omega) (by omega)
    rwa [show k - (p - (t + 1)) + (r + j - (t + 1)) = k - p + r + j by omega] at this

/-- The sum of the absolute values of the terms of `rawDer`. -/
noncomputable def rawAbs (V : ℕ → K) (k p : ℕ) (u : K) (r m : ℕ) : K :=
  if m ≤ p then ∑ j ∈ Finset.range (m + 1),
    |aCoef V p (k - p + r) m j| * (piece V k (p - m) (k - p + r + j)).eval u
  else 0

/-- The state of the loop over derivative orders after order `m` in row `r`. -/
def StepInvFl (ρ : K) (V : ℕ → K) (k p : ℕ) (u : K) (order r : ℕ) (ders0 : List (List K)) (m : ℕ)
    (st : List (List K) × ℤ × ℤ × List (List K)) : Prop :=
  Shape st.1 2 (p + 1) ∧
  (∃ s1 s2 : ℕ, st.2.1 = s1 ∧ st.2.2.1 = s2 ∧ s1 < 2 ∧ s2 < 2 ∧ s1 ≠ s2 ∧
    ∀ j, m ≤ r + j → r + j ≤ p → j ≤ m → Near ρ (4 * m) ((-1) ^ j * at2 st.1 s1 j 0)
      ((-1) ^ j * aCoef V p (k - p + r) m j)) ∧
  Shape st.2.2.2 (p + 1) (order + 1) ∧
  ∀ x y, if x = r ∧ 1 ≤ y ∧ y ≤ m then
      Approx (1 / ρ) (6 * p + 2) (at2 st.2.2.2 x y 0) (rawDer V k p u r y) (rawAbs V k p u r y)
    else at2 st.2.2.2 x y 0 = at2 ders0 x y 0

theorem dersStepFl_inv (hr' : Rounding fl) (hf : Accurate ρ fl) (h : TriFl ρ V k p u ndu)
    (hV : Monotone V) (hp : p ≤ k) (hs : V k < V (k + 1))
    {order r t : ℕ} (hr : r ≤ p) (ht : t + 1 ≤ order) (ders0 : List (List K))
    (st : List (List K) × ℤ × ℤ × List (List K)) (hst : StepInvFl ρ V k p u order r ders0 t st) :
    Returns (dersStepFl fl p ndu r (t + 1) st) (StepInvFl ρ V k p u order r ders0 (t + 1)) := by
  have p0 := hf.pos
  have p1 := hf.le_one
  have g1 := hf.one_le
  obtain ⟨a, s1', s2', ders⟩ := st
  obtain ⟨hsh, ⟨s1, s2, e1, e2, hs1, hs2, hne, ha⟩, hdsh, hd⟩ := hst
  simp only at hsh e1 e2 ha hdsh hd
  subst e1 e2
  unfold dersStepFl
  dsimp only
  set A := aCoef V p (k - p + r) with hA
  set P : ℕ → K := fun j => (piece V k (p - (t + 1)) (k - p + r + j)).eval u with hP
  set E : ℕ := 4 * (t + 1) + 6 * (p - (t + 1)) + 1 with hE
  have hP0 : t + 1 ≤ p → ∀ j, (r + j < t + 1 ∨ p < r + j) → P j = 0 := by
    intro hm j hj
    rcases hj with hj | hj
    · simp only [hP]; rw [piece_eq_zero_of_gt V k _ _ (by omega)]; simp
    · simp only [hP]; rw [piece_eq_zero_of_lt V k _ _ (by omega)]; simp
  -- one term
  have term : ∀ (j : ℕ) (x y : K), Near ρ (4 * (t + 1)) ((-1) ^ j * x) ((-1) ^ j * A (t + 1) j) →
      Near ρ (6 * (p - (t + 1))) y (P j) →
      Approx (1 / ρ) E (fl (x * y)) (A (t + 1) j * P j) (|A (t + 1) j| * P j) := by
    intro j x y hx hy
    exact ((hx.neg_one_pow_approx p0 p1).mul g1 (hy.approx p0 p1)).fl hr' hf
  -- final assignment, common to both cases
  have finish : ∀ (a : List (List K)) (d : K), Shape a 2 (p + 1) →
      (∀ j, t + 1 ≤ r + j → r + j ≤ p → j ≤ t + 1 →
        Near ρ (4 * (t + 1)) ((-1) ^ j * at2 a s2 j 0) ((-1) ^ j * A (t + 1) j)) →
      Approx (1 / ρ) (6 * p + 2) d (rawDer V k p u r (t + 1)) (rawAbs V k p u r (t + 1)) →
      Returns (do
        let ders ← set2 ders r ((t + 1 : ℕ) : ℤ) d
        .ok (a, (s2 : ℤ), (s1 : ℤ), ders)) (StepInvFl ρ V k p u order r ders0 (t + 1)) := by
    intro a d hsh ha hdv
    obtain ⟨m1, g1, sh1, at1⟩ := set2_nat hdsh (r : ℤ) ((t + 1 : ℕ) : ℤ) r (t + 1) d 0 rfl rfl
      (by omega) (by omega)
    rw [g1, ok_bind]
    refine Returns.ok ⟨hsh, ⟨s2, s1, rfl, rfl, hs2, hs1, hne.symm, ha⟩, sh1, ?_⟩
    intro x y
    have hdxy := hd x y
    simp only [at1]
    by_cases hx : x = r
    · subst hx
      by_cases hy : y = t + 1
      · subst hy
        rw [if_pos (by omega), if_pos (by omega)]
        exact hdv
      · rw [if_neg (show ¬ (x = x ∧ y = t + 1) by omega)]
        by_cases hy2 : 1 ≤ y ∧ y ≤ t
        · rw [if_pos ⟨rfl, hy2⟩] at hdxy
          rw [if_pos ⟨rfl, by omega, by omega⟩]
          exact hdxy
        · rw [if_neg (by omega)] at hdxy
          rw [if_neg (by omega)]
          exact hdxy
    · rw [if_neg (by omega)] at hdxy
      rw [if_neg (by omega), if_neg (by omega)]
      exact hdxy
  by_cases hm : t + 1 ≤ p
  swap
  · -- order above the degree: nothing is computed
    rw [if_neg (by omega), ok_bind]
    dsimp only
    rw [forZ_empty (by split_ifs <;> omega), ok_bind]
    dsimp only
    rw [if_neg (by omega), ok_bind]
    dsimp only
    refine finish a 0 hsh (by intro j h1 h2 h3; omega) ?_
    unfold rawDer rawAbs
    rw [if_neg hm, if_neg hm]
    exact Approx.zero _ _
  -- order at most the degree
  have hraw : rawDer V k p u r (t + 1) = ∑ j ∈ Finset.range (t + 1 + 1), A (t + 1) j * P j := by
    unfold rawDer; rw [if_pos hm]
  have hrab : rawAbs V k p u r (t + 1) = ∑ j ∈ Finset.range (t + 1 + 1), |A (t + 1) j| * P j := by
    unfold rawAbs; rw [if_pos hm]
  set j1 : ℕ := max 1 (t + 1 - r) with hj1
  set j2 : ℕ := min t (p - r) with hj2
  -- first coefficient
  refine Returns.bind (P := fun (ad : List (List K) × K) => Shape ad.1 2 (p + 1) ∧
      (∀ j, at2 ad.1 s1 j 0 = at2 a s1 j 0) ∧
      (∀ j, t + 1 ≤ r + j → j < j1 →
        Near ρ (4 * (t + 1)) ((-1) ^ j * at2 ad.1 s2 j 0) ((-1) ^ j * A (t + 1) j)) ∧
      Approx (1 / ρ) (E + j1) ad.2 (∑ j ∈ Finset.range j1, A (t + 1) j * P j)
        (∑ j ∈ Finset.range j1, |A (t + 1) j| * P j)) ?_ ?_
  · by_cases hrk : r ≥ t + 1
    · rw [if_pos hrk]
      have hj1' : j1 = 1 := by omega
      obtain ⟨⟨z, hz, hdiv⟩, y, hy, hyn⟩ := h.entry hr' hf hV hp hs (j := 0) hm (by omega) (by omega)
        ((r : ℤ) - (t + 1 : ℕ)) (by simp)
      obtain ⟨q, hq, hqn⟩ := hdiv (at2 a s1 0 0)
      rw [get2_nat hsh _ 0 s1 0 0 rfl rfl hs1 (by omega), ok_bind, hz, ok_bind, hq, ok_bind]
      obtain ⟨m1, g1, sh1, at1⟩ := set2_nat hsh (s2 : ℤ) 0 s2 0 q 0 rfl rfl hs2 (by omega)
      rw [g1, ok_bind, get2_nat sh1 _ 0 s2 0 0 rfl rfl hs2 (by omega), ok_bind, hy, ok_bind]
      have hval : Near ρ (4 * (t + 1)) ((-1) ^ 0 * at2 m1 s2 0 0) ((-1) ^ 0 * A (t + 1) 0) := by
        rw [at1, if_pos ⟨rfl, rfl⟩]
        have := (hqn (4 * t) 0 _ (ha 0 (by omega) (by omega) (by omega))).mono p0 p1
          (l := 4 * (t + 1)) (by omega)
        refine (congrArg (Near ρ (4 * (t + 1)) _) ?_).mp this
        rw [hA, aCoef_alternating]
        simp
      refine Returns.ok ⟨sh1, ?_, ?_, ?_⟩
      · intro j
        show at2 m1 s1 j 0 = _
        rw [at1, if_neg (by omega)]
      · intro j _ hj
        have : j = 0 := by omega
        subst this
        exact hval
      · rw [hj1']
        simpa using (term 0 _ y hval hyn).mono hf.one_le (l := E + 1) (by omega)
    · rw [if_neg hrk]
      refine Returns.ok ⟨hsh, fun _ => rfl, ?_, ?_⟩
      · intro j hj1 hj2; omega
      · have z1 : ∑ j ∈ Finset.range j1, A (t + 1) j * P j = 0 := Finset.sum_eq_zero fun j hj => by
          rw [hP0 hm j (by have := Finset.mem_range.1 hj; omega), mul_zero]
        have z2 : ∑ j ∈ Finset.range j1, |A (t + 1) j| * P j = 0 := Finset.sum_eq_zero fun j hj => by
          rw [hP0 hm j (by have := Finset.mem_range.1 hj; omega), mul_zero]
        rw [z1, z2]
        exact Approx.zero _ _
  rintro ⟨a1, d1⟩ ⟨sh1, hs1eq, hs2eq, hd1⟩
  simp only at sh1 hs1eq hs2eq hd1 ⊢
  have ej1 : (if (r : ℤ) - ((t + 1 : ℕ) : ℤ) ≥ -1 then (1 : ℤ) else -((r : ℤ) - ((t + 1 : ℕ) : ℤ)))
      = (j1 : ℤ) := by split_ifs <;> omega
  have ej2 : (if (r : ℤ) - 1 ≤ (p : ℤ) - ((t + 1 : ℕ) : ℤ) then ((t + 1 : ℕ) : ℤ) - 1
      else (p : ℤ) - r) = (j2 : ℤ) := by split_ifs <;> omega
  rw [ej1, ej2]
  -- middle coefficients
  refine Returns.bind (Returns.forZ (fun (jz : ℤ) (ad : List (List K) × K) => ∃ j : ℕ, jz = j ∧ j1 ≤ j ∧
      Shape ad.1 2 (p + 1) ∧
      (∀ i, at2 ad.1 s1 i 0 = at2 a s1 i 0) ∧
      (∀ i, t + 1 ≤ r + i → i < j →
        Near ρ (4 * (t + 1)) ((-1) ^ i * at2 ad.1 s2 i 0) ((-1) ^ i * A (t + 1) i)) ∧
      Approx (1 / ρ) (E + j) ad.2 (∑ i ∈ Finset.range j, A (t + 1) i * P i)
        (∑ i ∈ Finset.range j, |A (t + 1) i| * P i)) (by omega) ?_ ?_) ?_
  · exact ⟨j1, rfl, le_rfl, sh1, hs1eq, hs2eq, hd1⟩
  · rintro jz ⟨a2, d2⟩ hlo hhi ⟨j, rfl, hjj, sh2, g1, g2, g3⟩
    simp only at sh2 g1 g2 g3 ⊢
    have hj_le : j ≤ t := by omega
    have hj_p : r + j ≤ p := by omega
    obtain ⟨⟨z, hz, hdiv⟩, y, hy, hyn⟩ := h.entry hr' hf hV hp hs (j := j) hm (by omega) hj_p
      ((r : ℤ) - (t + 1 : ℕ) + j) rfl
    obtain ⟨q, hq, hqn⟩ := hdiv (fl (at2 a2 s1 j 0 - at2 a2 s1 (j - 1) 0))
    rw [get2_nat sh2 _ _ s1 j 0 rfl rfl hs1 (by omega), ok_bind,
      get2_nat sh2 _ _ s1 (j - 1) 0 rfl (by omega) hs1 (by omega), ok_bind, hz, ok_bind, hq,
      ok_bind]
    obtain ⟨m1, k1, sh3, at3⟩ := set2_nat sh2 (s2 : ℤ) (j : ℤ) s2 j q 0 rfl rfl hs2 (by omega)
    rw [k1, ok_bind, get2_nat sh3 _ _ s2 j 0 rfl rfl hs2 (by omega), ok_bind, hy, ok_bind]
    have hval : Near ρ (4 * (t + 1)) ((-1) ^ j * at2 m1 s2 j 0) ((-1) ^ j * A (t + 1) j) := by
      rw [at3, if_pos ⟨rfl, rfl⟩]
      have b1 := ha j (by omega) (by omega) (by omega)
      have b2 := ha (j - 1) (by omega) (by omega) (by omega)
      have b3 := (b1.add b2).fl hf
      have ee : (-1) ^ j * at2 a s1 j 0 + (-1) ^ (j - 1) * at2 a s1 (j - 1) 0
          = (-1) ^ j * (at2 a2 s1 j 0 - at2 a2 s1 (j - 1) 0) := by
        rw [g1, g1]
        obtain ⟨i, rfl⟩ : ∃ i, j = i + 1 := ⟨j - 1, by omega⟩
        rw [Nat.add_sub_cancel, pow_succ]
        ring
      rw [ee, ← hr'.neg_one_pow] at b3
      have := hqn _ j _ b3
      refine (congrArg (Near ρ (4 * (t + 1)) _) ?_).mp this
      rw [hA, aCoef_alternating, if_neg (by omega)]
    refine Returns.ok ⟨j + 1, by push_cast; rfl, by omega, sh3, ?_, ?_, ?_⟩
    · intro i
      show at2 m1 s1 i 0 = _
      rw [at3, if_neg (by omega), g1]
    · intro i hi1 hi2
      show Near ρ _ ((-1) ^ i * at2 m1 s2 i 0) _
      by_cases hij : i = j
      · subst hij; exact hval
      · rw [at3, if_neg (by omega)]; exact g2 i hi1 (by omega)
    · show Approx _ _ (fl (d2 + fl (at2 m1 s2 j 0 * y))) _ _
      rw [Finset.sum_range_succ, Finset.sum_range_succ]
      exact (g3.add ((term j _ y hval hyn).mono hf.one_le (l := E + j) (by omega))).fl hr' hf
  rintro ⟨a2, d2⟩ ⟨j, hj, -, sh2, g1, g2, g3⟩
  have hj' : j = j2 + 1 := by omega
  subst hj'
  simp only at sh2 g1 g2 g3 ⊢
  -- last coefficient
  refine Returns.bind (P := fun (ad : List (List K) × K) => Shape ad.1 2 (p + 1) ∧
      (∀ i, t + 1 ≤ r + i → r + i ≤ p → i ≤ t + 1 →
        Near ρ (4 * (t + 1)) ((-1) ^ i * at2 ad.1 s2 i 0) ((-1) ^ i * A (t + 1) i)) ∧
      Approx (1 / ρ) (6 * p + 2) ad.2 (∑ i ∈ Finset.range (t + 1 + 1), A (t + 1) i * P i)
        (∑ i ∈ Finset.range (t + 1 + 1), |A (t + 1) i| * P i)) ?_ ?_
  · by_cases hrp : (r : ℤ) ≤ (p : ℤ) - ((t + 1 : ℕ) : ℤ)
    · rw [if_pos hrp]
      obtain ⟨⟨z, hz, hdiv⟩, y, hy, hyn⟩ := h.entry hr' hf hV hp hs (r := r) (j := t + 1) hm (by omega)
        (by omega) (r : ℤ) (by omega)
      obtain ⟨q, hq, hqn⟩ := hdiv (-at2 a2 s1 t 0)
      rw [get2_nat sh2 _ _ s1 t 0 rfl (by push_cast; ring) hs1 (by omega), ok_bind, hz, ok_bind,
        hq, ok_bind]
      obtain ⟨m1, k1, sh3, at3⟩ := set2_nat sh2 (s2 : ℤ) ((t + 1 : ℕ) : ℤ) s2 (t + 1) q 0 rfl rfl hs2
        (by omega)
      rw [k1, ok_bind, get2_nat sh3 _ _ s2 (t + 1) 0 rfl rfl hs2 (by omega), ok_bind, hy, ok_bind]
      have hval : Near ρ (4 * (t + 1)) ((-1) ^ (t + 1) * at2 m1 s2 (t + 1) 0)
          ((-1) ^ (t + 1) * A (t + 1) (t + 1)) := by
        rw [at3, if_pos ⟨rfl, rfl⟩]
        have b1 := ha t (by omega) (by omega) (by omega)
        have ee : (-1) ^ t * at2 a s1 t 0 = (-1) ^ (t + 1) * -at2 a2 s1 t 0 := by
          rw [g1, pow_succ]; ring
        rw [ee] at b1
        have := (hqn _ (t + 1) _ b1).mono p0 p1 (l := 4 * (t + 1)) (by omega)
        refine (congrArg (Near ρ (4 * (t + 1)) _) ?_).mp this
        rw [hA, aCoef_alternating, if_neg (by omega), aCoef_zero V p _ t (t + 1) (by omega),
          Nat.add_sub_cancel]
        ring
      have hj2t : j2 = t := by omega
      refine Returns.ok ⟨sh3, ?_, ?_⟩
      · intro i hi1 hi2 hi3
        show Near ρ _ ((-1) ^ i * at2 m1 s2 i 0) _
        by_cases hit : i = t + 1
        · subst hit; exact hval
        · rw [at3, if_neg (by omega)]; exact g2 i hi1 (by omega)
      · show Approx _ _ (fl (d2 + fl (at2 m1 s2 (t + 1) 0 * y))) _ _
        rw [hj2t] at g3
        rw [Finset.sum_range_succ _ (t + 1), Finset.sum_range_succ _ (t + 1)]
        exact ((g3.add ((term (t + 1) _ y hval hyn).mono hf.one_le (l := E + (t + 1))
          (by omega))).fl hr' hf).mono hf.one_le (by omega)
    · rw [if_neg hrp]
      refine Returns.ok ⟨sh2, ?_, ?_⟩
      · intro i hi1 hi2 hi3
        exact g2 i hi1 (by omega)
      · have e : t + 1 + 1 = (j2 + 1) + (t + 1 - j2) := by omega
        rw [e, Finset.sum_range_add _ (j2 + 1) (t + 1 - j2), Finset.sum_range_add _ (j2 + 1) (t + 1 - j2)]
        have z1 : ∑ x ∈ Finset.range (t + 1 - j2), A (t + 1) (j2 + 1 + x) * P (j2 + 1 + x) = 0 := by
          refine Finset.sum_eq_zero fun x hx => ?_
          rw [hP0 hm (j2 + 1 + x) (by have := Finset.mem_range.1 hx; omega), mul_zero]
        have z2 : ∑ x ∈ Finset.range (t + 1 - j2), |A (t + 1) (j2 + 1 + x)| * P (j2 + 1 + x) = 0 := by
          refine Finset.sum_eq_zero fun x hx => ?_
          rw [hP0 hm (j2 + 1 + x) (by have := Finset.mem_range.1 hx; omega), mul_zero]
        rw [e] at *
        rw [z1, z2, add_zero, add_zero]
        exact g3.mono hf.one_le (by omega)
  rintro ⟨a3, d3⟩ ⟨sh3, k1, k2⟩
  exact finish a3 d3 sh3 k1 (by rw [hraw, hrab]; exact k2)

end step

end PySpline
