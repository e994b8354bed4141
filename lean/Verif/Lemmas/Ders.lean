import Verif.Lemmas.BasisFunctions

/-!
# Correctness of `basis_function_ders` (algorithm A2.3)
-/

set_option linter.unusedSectionVars false

namespace PySpline

open Polynomial Spec

variable {K : Type} [Field K] [LinearOrder K] [IsStrictOrderedRing K]

/-! ## The derivative of a piece in terms of pieces of lower degree -/

/-- The coefficients `a_{m,j}` of The NURBS Book, eq. 2.10, for the basis function `i` of
degree `p`. -/
def aCoef (V : ℕ → K) (p i : ℕ) : ℕ → ℕ → K
  | 0, j => if j = 0 then 1 else 0
  | m + 1, j => (aCoef V p i m j - if j = 0 then 0 else aCoef V p i m (j - 1))
      * w V (p - m - 1) (i + j)

theorem aCoef_zero (V : ℕ → K) (p i m j : ℕ) (h : m < j) : aCoef V p i m j = 0 := by
  induction m generalizing j with
  | zero => simp [aCoef, show j ≠ 0 by omega]
  | succ m ih => simp [aCoef, show j ≠ 0 by omega, ih j (by omega), ih (j - 1) (by omega)]

/-- `p (p-1) ... (p-m+1)`. -/
def fall (p m : ℕ) : K := ∏ t ∈ Finset.range m, ((p : K) - t)

theorem deriv_piece {V : ℕ → K} (hV : Monotone V) (k p i m : ℕ) (hm : m ≤ p) :
    Spec.deriv m (piece V k p i)
      = C (fall p m) * ∑ j ∈ Finset.range (m + 1), C (aCoef V p i m j) * piece V k (p - m) (i + j) := by
  induction m with
  | zero => simp [Spec.deriv, fall, aCoef]
  | succ m ih =>
    have e : Spec.deriv (m + 1) (piece V k p i) = derivative (Spec.deriv m (piece V k p i)) := by
      unfold Spec.deriv; rw [Function.iterate_succ_apply']
    rw [e, ih (by omega), derivative_C_mul, derivative_sum]
    obtain ⟨q, hq⟩ : ∃ q, p - m = q + 1 := ⟨p - m - 1, by omega⟩
    have hq' : p - (m + 1) = q := by omega
    have hq2 : p - m - 1 = q := by omega
    have hc : ((q : K) + 1) = (p : K) - m := by
      have : p = q + 1 + m := by omega
      rw [this]; push_cast; ring
    rw [hq, hq']
    simp only [derivative_C_mul, derivative_piece hV, hc]
    have h1 : ∑ j ∈ Finset.range (m + 1), C (aCoef V p i m j) * (C ((p : K) - m) *
        (C (w V q (i + j)) * piece V k q (i + j)
          - C (w V q (i + j + 1)) * piece V k q (i + j + 1)))
        = C ((p : K) - m) * (∑ j ∈ Finset.range (m + 1 + 1),
            C (aCoef V p i m j) * (C (w V q (i + j)) * piece V k q (i + j))
          - ∑ j ∈ Finset.range (m + 1),
            C (aCoef V p i m j) * (C (w V q (i + j + 1)) * piece V k q (i + j + 1))) := by
      rw [Finset.sum_range_succ _ (m + 1), aCoef_zero V p i m (m + 1) (by omega), C_0, zero_mul,
        add_zero, ← Finset.sum_sub_distrib, Finset.mul_sum]
      exact Finset.sum_congr rfl fun j _ => by ring
    have h2 : ∑ j ∈ Finset.range (m + 1 + 1), C (aCoef V p i (m + 1) j) * piece V k q (i + j)
        = ∑ j ∈ Finset.range (m + 1 + 1),
            C (aCoef V p i m j) * (C (w V q (i + j)) * piece V k q (i + j))
          - ∑ j ∈ Finset.range (m + 1),
            C (aCoef V p i m j) * (C (w V q (i + j + 1)) * piece V k q (i + j + 1)) := by
      rw [Finset.sum_range_succ' _ (m + 1), Finset.sum_range_succ' _ (m + 1)]
      have : ∀ j, C (aCoef V p i (m + 1) (j + 1)) * piece V k q (i + (j + 1))
          = C (aCoef V p i m (j + 1)) * (C (w V q (i + (j + 1))) * piece V k q (i + (j + 1)))
            - C (aCoef V p i m j) * (C (w V q (i + j + 1)) * piece V k q (i + j + 1)) := by
        intro j
        simp only [aCoef, hq2, Nat.add_sub_cancel, if_neg (Nat.succ_ne_zero j), C_mul, C_sub,
          add_assoc]
        ring
      simp only [this, Finset.sum_sub_distrib]
      simp only [aCoef, hq2, if_true, C_mul, C_sub, C_0]
      ring
    rw [h1, h2]
    have h3 : (fall p (m + 1) : K) = fall p m * ((p : K) - m) := by
      unfold fall; rw [Finset.prod_range_succ]
    rw [h3, C_mul]
    ring

theorem deriv_piece_zero {V : ℕ → K} (hV : Monotone V) (k p i m : ℕ) (hm : p < m) :
    Spec.deriv m (piece V k p i) = 0 := by
  have h0 : Spec.deriv (p + 1) (piece V k p i) = 0 := by
    have e : Spec.deriv (p + 1) (piece V k p i) = derivative (Spec.deriv p (piece V k p i)) := by
      unfold Spec.deriv; rw [Function.iterate_succ_apply']
    rw [e, deriv_piece hV k p i p le_rfl, derivative_C_mul, derivative_sum]
    have : ∀ x, derivative (piece V k 0 x) = 0 := by intro x; unfold piece; split <;> simp
    simp [this]
  obtain ⟨d, rfl⟩ : ∃ d, m = d + (p + 1) := ⟨m - (p + 1), by omega⟩
  unfold Spec.deriv at h0 ⊢
  rw [Function.iterate_add_apply, h0]
  simp

/-! ## The triangle `ndu` -/

/-- What the array `ndu` holds. -/
structure Tri (V : ℕ → K) (k p : ℕ) (u : K) (ndu : List (List K)) : Prop where
  shape : Shape ndu (p + 1) (p + 1)
  upper : ∀ r j, r ≤ j → j ≤ p → at2 ndu r j 0 = (piece V k j (k - j + r)).eval u
  lower : ∀ r j, r < j → j ≤ p → at2 ndu j r 0 = V (k + r + 1) - V (k + 1 - j + r)

theorem nduTable_tri {U : List K} (hU : Monotone (knotFn U)) {k p : ℕ} (u : K)
    (hp : p ≤ k) (hk : k + p < U.length) (hs : knotFn U k < knotFn U (k + 1)) :
    Returns (nduTable (k : ℤ) u p U) (Tri (knotFn U) k p u) := by
  unfold nduTable
  set V := knotFn U with hV
  dsimp only
  obtain ⟨m0, e0, sh0, at0⟩ := set2_nat (shape_replicate (p + 1) (p + 1) (1 : K)) 0 0 0 0 (1 : K) 0
    rfl rfl (by omega) (by omega)
  have e0' : set2 (ones2 (p + 1) (p + 1) : List (List K)) 0 0 1 = .ok m0 := e0
  rw [e0', ok_bind]
  refine Returns.bind (Returns.forN (fun j st => st.2.1.length = p + 1 ∧ st.2.2.length = p + 1 ∧
      Shape st.1 (p + 1) (p + 1) ∧
      (∀ r q, r ≤ q → q < j → at2 st.1 r q 0 = (piece V k q (k - q + r)).eval u) ∧
      (∀ r q, r < q → q < j → at2 st.1 q r 0 = V (k + r + 1) - V (k + 1 - q + r)) ∧
      (∀ q, 1 ≤ q → q < j → st.2.1.getD q 0 = u - V (k + 1 - q) ∧
        st.2.2.getD q 0 = V (k + q) - u)) (by omega) ?_ ?_) ?_
  · refine ⟨by simp [ones], by simp [ones], sh0, ?_, ?_, ?_⟩
    · intro r q h1 h2
      have : q = 0 := by omega
      subst this
      have : r = 0 := by omega
      subst this
      show at2 m0 0 0 0 = _
      rw [at0]
      simp [piece]
    · intro r q h1 h2; omega
    · intro q h1 h2; omega
  · rintro j ⟨ndu, left, right⟩ hj1 hj2 ⟨hl, hr, hsh, hup, hlow, hlr⟩
    simp only at hl hr hsh hup hlow hlr ⊢
    rw [pyGet_knot U _ (k + 1 - j) (by omega) (by omega), ok_bind,
      pySet_nat left _ j _ rfl (by omega), ok_bind,
      pyGet_knot U _ (k + j) (by omega) (by omega), ok_bind,
      pySet_nat right _ j _ rfl (by omega), ok_bind]
    rw [← hV]
    set left' := left.set j (u - V (k + 1 - j)) with hleft'
    set right' := right.set j (V (k + j) - u) with hright'
    have hl' : left'.length = p + 1 := by simp [hleft', hl]
    have hr' : right'.length = p + 1 := by simp [hright', hr]
    have hlr' : ∀ q, 1 ≤ q → q < j + 1 → left'.getD q 0 = u - V (k + 1 - q) ∧
        right'.getD q 0 = V (k + q) - u := by
      intro q h1 h2
      rw [hleft', hright', getD_set _ _ _ _ _ (by omega), getD_set _ _ _ _ _ (by omega)]
      by_cases hq : q = j
      · subst hq; simp
      · simp only [if_neg hq]; exact hlr q h1 (by omega)
    refine Returns.bind (Returns.forN (fun r st => Shape st.1 (p + 1) (p + 1) ∧
      (∀ x q, x ≤ q → q < j → at2 st.1 x q 0 = (piece V k q (k - q + x)).eval u) ∧
      (∀ x q, x < q → q < j → at2 st.1 q x 0 = V (k + x + 1) - V (k + 1 - q + x)) ∧
      (∀ x < r, at2 st.1 x j 0 = (piece V k j (k - j + x)).eval u) ∧
      (∀ x < r, at2 st.1 j x 0 = V (k + x + 1) - V (k + 1 - j + x)) ∧
      st.2 = w V (j - 1) (k - j + r) * (u - V (k - j + r))
        * (piece V k (j - 1) (k - j + r)).eval u) (by omega) ?_ ?_) ?_
    · refine ⟨hsh, hup, hlow, by intro x hx; omega, by intro x hx; omega, ?_⟩
      rw [piece_eq_zero_of_gt V k (j - 1) (k - j + 0) (by omega)]
      simp
    · rintro r ⟨ndu, saved⟩ - hrj ⟨hsh, h2, h3, h4, h5, h6⟩
      simp only at hsh h2 h3 h4 h5 h6 ⊢
      rw [pyGet_nat right' _ (r + 1) 0 (by push_cast; rfl) (by omega), ok_bind,
        pyGet_nat left' _ (j - r) 0 (by omega) (by omega), ok_bind,
        (hlr' (r + 1) (by omega) (by omega)).2, (hlr' (j - r) (by omega) (by omega)).1]
      have e2 : k + 1 - (j - r) = k - j + r + 1 := by omega
      have e3 : k + (r + 1) = k - j + r + 1 + (j - 1) + 1 := by omega
      rw [e2, e3]
      have hd : V (k - j + r + 1) < V (k - j + r + 1 + (j - 1) + 1) :=
        lt_of_le_of_lt (hU (by omega : k - j + r + 1 ≤ k))
          (lt_of_lt_of_le hs (hU (by omega)))
      have hsum : V (k - j + r + 1 + (j - 1) + 1) - u + (u - V (k - j + r + 1))
          = V (k - j + r + 1 + (j - 1) + 1) - V (k - j + r + 1) := by ring
      have hd' : V (k - j + r + 1 + (j - 1) + 1) - V (k - j + r + 1) ≠ 0 := by
        intro h; linarith
      rw [hsum]
      obtain ⟨m1, g1, sh1, at1⟩ := set2_nat hsh (j : ℤ) (r : ℤ) j r
        (V (k - j + r + 1 + (j - 1) + 1) - V (k - j + r + 1)) 0 rfl rfl (by omega) (by omega)
      rw [g1, ok_bind, get2_nat sh1 _ _ r (j - 1) 0 rfl (by omega) (by omega) (by omega), ok_bind,
        get2_nat sh1 _ _ j r 0 rfl rfl (by omega) (by omega), ok_bind, at1, at1,
        if_neg (by omega), if_pos ⟨rfl, rfl⟩, pyDiv_ok hd', ok_bind,
        h2 r (j - 1) (by omega) (by omega)]
      have e1 : k - (j - 1) + r = k - j + r + 1 := by omega
      rw [e1]
      obtain ⟨m2, g2, sh2, at2'⟩ := set2_nat sh1 (r : ℤ) (j : ℤ) r j
        (saved + (V (k - j + r + 1 + (j - 1) + 1) - u) *
          ((piece V k (j - 1) (k - j + r + 1)).eval u /
            (V (k - j + r + 1 + (j - 1) + 1) - V (k - j + r + 1)))) 0 rfl rfl (by omega) (by omega)
      rw [g2, ok_bind]
      refine Returns.ok ⟨sh2, ?_, ?_, ?_, ?_, ?_⟩
      · intro x q hx hq
        show at2 m2 x q 0 = _
        rw [at2', if_neg (by omega), at1, if_neg (by omega)]; exact h2 x q hx hq
      · intro x q hx hq
        show at2 m2 q x 0 = _
        rw [at2', if_neg (by omega), at1, if_neg (by omega)]; exact h3 x q hx hq
      · intro x hx
        show at2 m2 x j 0 = _
        rw [at2']
        by_cases hxr : x = r
        · subst hxr
          rw [if_pos ⟨rfl, rfl⟩, h6]
          obtain ⟨m, rfl⟩ : ∃ m, j = m + 1 := ⟨j - 1, by omega⟩
          rw [piece_succ]
          simp only [eval_add, eval_mul, eval_C, eval_sub, eval_X, w, Nat.add_sub_cancel]
          have e4 : k - (m + 1) + x + m + 2 = k - (m + 1) + x + 1 + m + 1 := by omega
          rw [e4]
          ring
        · rw [if_neg (by omega), at1, if_neg (by omega)]; exact h4 x (by omega)
      · intro x hx
        show at2 m2 j x 0 = _
        rw [at2', if_neg (by omega), at1]
        by_cases hxr : x = r
        · subst hxr
          rw [if_pos ⟨rfl, rfl⟩]
          congr 2 <;> omega
        · rw [if_neg (by omega)]; exact h5 x (by omega)
      · show _ = _
        rw [← add_assoc (k - j) r 1]
        unfold w
        ring
    · rintro ⟨ndu, saved⟩ ⟨hsh, h2, h3, h4, h5, h6⟩
      simp only at hsh h2 h3 h4 h5 h6 ⊢
      obtain ⟨m1, g1, sh1, at1⟩ := set2_nat hsh (j : ℤ) (j : ℤ) j j saved 0 rfl rfl
        (by omega) (by omega)
      rw [g1, ok_bind]
      refine Returns.ok ⟨hl', hr', sh1, ?_, ?_, hlr'⟩
      · intro x q hx hq
        show at2 m1 x q 0 = _
        rw [at1]
        by_cases hqj : q = j
        · subst hqj
          by_cases hxq : x = q
          · subst hxq
            rw [if_pos ⟨rfl, rfl⟩, h6]
            obtain ⟨m, rfl⟩ : ∃ m, x = m + 1 := ⟨x - 1, by omega⟩
            have e : k - (m + 1) + (m + 1) = k := by omega
            rw [e, piece_succ, piece_eq_zero_of_lt V k m (k + 1) (by omega)]
            simp [eval_mul, eval_sub]
          · rw [if_neg (by omega)]; exact h4 x (by omega)
        · rw [if_neg (by omega)]; exact h2 x q hx (by omega)
      · intro x q hx hq
        show at2 m1 q x 0 = _
        rw [at1, if_neg (by omega)]
        by_cases hqj : q = j
        · subst hqj; exact h5 x hx
        · exact h3 x q hx (by omega)
  · rintro ⟨ndu, left, right⟩ ⟨-, -, h3, h4, h5, -⟩
    exact Returns.ok ⟨h3, fun r j h1 h2 => h4 r j h1 (by omega),
      fun r j h1 h2 => h5 r j h1 (by omega)⟩

/-! ## One derivative step -/

section step
variable {V : ℕ → K} {k p : ℕ} {u : K} {ndu : List (List K)}

/-- The two `ndu` entries used for the coefficient `j` of order `t + 1` in row `r`. -/
theorem Tri.entry (h : Tri V k p u ndu) (hV : Monotone V) (hp : p ≤ k) (hs : V k < V (k + 1))
    {r t j : ℕ} (hm : t + 1 ≤ p) (h1 : t + 1 ≤ r + j) (h2 : r + j ≤ p) (x : ℤ)
    (hx : x = (r : ℤ) - (t + 1 : ℕ) + j) :
    (∃ z, get2 ndu ((p : ℤ) - (t + 1 : ℕ) + 1) x = .ok z ∧
      ∀ y, pyDiv y z = .ok (y * w V (p - t - 1) (k - p + r + j))) ∧
    get2 ndu x ((p : ℤ) - (t + 1 : ℕ))
      = .ok ((piece V k (p - (t + 1)) (k - p + r + j)).eval u) := by
  constructor
  · refine ⟨_, get2_nat h.shape _ _ (p - t) (r + j - (t + 1)) 0 (by omega) (by omega) (by omega)
      (by omega), fun y => ?_⟩
    rw [h.lower _ _ (by omega) (by omega)]
    have e1 : k + (r + j - (t + 1)) + 1 = k - p + r + j + (p - t - 1) + 1 := by omega
    have e2 : k + 1 - (p - t) + (r + j - (t + 1)) = k - p + r + j := by omega
    rw [e1, e2]
    have hd : V (k - p + r + j) < V (k - p + r + j + (p - t - 1) + 1) :=
      lt_of_le_of_lt (hV (by omega : k - p + r + j ≤ k)) (lt_of_lt_of_le hs (hV (by omega)))
    rw [pyDiv_ok (by intro h; linarith)]
    unfold w
    congr 1
    ring
  · rw [get2_nat h.shape _ _ (r + j - (t + 1)) (p - (t + 1)) 0 (by omega) (by omega) (by omega)
      (by omega), h.upper _ _ (by omega) (by omega)]
    congr 3
    omega

/-- The unscaled derivative of order `m` in row `r`: `∑ a_{m,j} N_{i+j,p-m}`. -/
noncomputable def rawDer (V : ℕ → K) (k p : ℕ) (u : K) (r m : ℕ) : K :=
  if m ≤ p then ∑ j ∈ Finset.range (m + 1),
    aCoef V p (k - p + r) m j * (piece V k (p - m) (k - p + r + j)).eval u
  else 0

/-- The state of the loop over derivative orders after order `m` in row `r`. -/
def StepInv (V : ℕ → K) (k p : ℕ) (u : K) (order r : ℕ) (ders0 : List (List K)) (m : ℕ)
    (st : List (List K) × ℤ × ℤ × List (List K)) : Prop :=
  Shape st.1 2 (p + 1) ∧
  (∃ s1 s2 : ℕ, st.2.1 = s1 ∧ st.2.2.1 = s2 ∧ s1 < 2 ∧ s2 < 2 ∧ s1 ≠ s2 ∧
    ∀ j, m ≤ r + j → r + j ≤ p → j ≤ m → at2 st.1 s1 j 0 = aCoef V p (k - p + r) m j) ∧
  Shape st.2.2.2 (p + 1) (order + 1) ∧
  ∀ x y, at2 st.2.2.2 x y 0
    = if x = r ∧ 1 ≤ y ∧ y ≤ m then rawDer V k p u r y else at2 ders0 x y 0

theorem dersStep_inv (h : Tri V k p u ndu) (hV : Monotone V) (hp : p ≤ k) (hs : V k < V (k + 1))
    {order r t : ℕ} (hr : r ≤ p) (ht : t + 1 ≤ order) (ders0 : List (List K))
    (st : List (List K) × ℤ × ℤ × List (List K)) (hst : StepInv V k p u order r ders0 t st) :
    Returns (dersStep p ndu r (t + 1) st) (StepInv V k p u order r ders0 (t + 1)) := by
  obtain ⟨a, s1', s2', ders⟩ := st
  obtain ⟨hsh, ⟨s1, s2, e1, e2, hs1, hs2, hne, ha⟩, hdsh, hd⟩ := hst
  simp only at hsh e1 e2 ha hdsh hd
  subst e1 e2
  unfold dersStep
  dsimp only
  set A := aCoef V p (k - p + r) with hA
  set P : ℕ → K := fun j => (piece V k (p - (t + 1)) (k - p + r + j)).eval u with hP
  have hP0 : t + 1 ≤ p → ∀ j, (r + j < t + 1 ∨ p < r + j) → P j = 0 := by
    intro hm j hj
    rcases hj with hj | hj
    · simp only [hP]; rw [piece_eq_zero_of_gt V k _ _ (by omega)]; simp
    · simp only [hP]; rw [piece_eq_zero_of_lt V k _ _ (by omega)]; simp
  -- final assignment, common to both cases
  have finish : ∀ (a : List (List K)) (d : K), Shape a 2 (p + 1) →
      (∀ j, t + 1 ≤ r + j → r + j ≤ p → j ≤ t + 1 → at2 a s2 j 0 = A (t + 1) j) →
      d = rawDer V k p u r (t + 1) →
      Returns (do
        let ders ← set2 ders r ((t + 1 : ℕ) : ℤ) d
        .ok (a, (s2 : ℤ), (s1 : ℤ), ders)) (StepInv V k p u order r ders0 (t + 1)) := by
    intro a d hsh ha hdv
    obtain ⟨m1, g1, sh1, at1⟩ := set2_nat hdsh (r : ℤ) ((t + 1 : ℕ) : ℤ) r (t + 1) d 0 rfl rfl
      (by omega) (by omega)
    rw [g1, ok_bind]
    refine Returns.ok ⟨hsh, ⟨s2, s1, rfl, rfl, hs2, hs1, hne.symm, ha⟩, sh1, ?_⟩
    intro x y
    show at2 m1 x y 0 = _
    rw [at1, hd]
    by_cases hx : x = r
    · subst hx
      by_cases hy : y = t + 1
      · subst hy; simp [hdv]
      · rw [if_neg (by omega)]
        by_cases hy2 : 1 ≤ y ∧ y ≤ t
        · rw [if_pos ⟨rfl, hy2⟩, if_pos ⟨rfl, by omega, by omega⟩]
        · rw [if_neg (by omega), if_neg (by omega)]
    · rw [if_neg (by omega), if_neg (by omega), if_neg (by omega)]
  by_cases hm : t + 1 ≤ p
  swap
  · -- order above the degree: nothing is computed
    rw [if_neg (by omega), ok_bind]
    dsimp only
    rw [forZ_empty (by split_ifs <;> omega), ok_bind]
    dsimp only
    rw [if_neg (by omega), ok_bind]
    dsimp only
    exact finish a 0 hsh (by intro j h1 h2 h3; omega) (by unfold rawDer; rw [if_neg hm])
  -- order at most the degree
  have hraw : rawDer V k p u r (t + 1) = ∑ j ∈ Finset.range (t + 1 + 1), A (t + 1) j * P j := by
    unfold rawDer; rw [if_pos hm]
  set j1 : ℕ := max 1 (t + 1 - r) with hj1
  set j2 : ℕ := min t (p - r) with hj2
  -- first coefficient
  refine Returns.bind (P := fun (ad : List (List K) × K) => Shape ad.1 2 (p + 1) ∧
      (∀ j, at2 ad.1 s1 j 0 = at2 a s1 j 0) ∧
      (∀ j, t + 1 ≤ r + j → j < j1 → at2 ad.1 s2 j 0 = A (t + 1) j) ∧
      ad.2 = ∑ j ∈ Finset.range j1, A (t + 1) j * P j) ?_ ?_
  · by_cases hrk : r ≥ t + 1
    · rw [if_pos hrk]
      have hj1' : j1 = 1 := by omega
      obtain ⟨⟨z, hz, hdiv⟩, hy⟩ := h.entry hV hp hs (j := 0) hm (by omega) (by omega)
        ((r : ℤ) - (t + 1 : ℕ)) (by simp)
      rw [get2_nat hsh _ 0 s1 0 0 rfl rfl hs1 (by omega), ok_bind, hz, ok_bind, hdiv, ok_bind]
      obtain ⟨m1, g1, sh1, at1⟩ := set2_nat hsh (s2 : ℤ) 0 s2 0
        (at2 a s1 0 0 * w V (p - t - 1) (k - p + r + 0)) 0 rfl rfl hs2 (by omega)
      rw [g1, ok_bind, get2_nat sh1 _ 0 s2 0 0 rfl rfl hs2 (by omega), ok_bind, hy, ok_bind]
      have hval : at2 m1 s2 0 0 = A (t + 1) 0 := by
        rw [at1, if_pos ⟨rfl, rfl⟩, ha 0 (by omega) (by omega) (by omega)]
        simp [hA, aCoef]
      refine Returns.ok ⟨sh1, ?_, ?_, ?_⟩
      · intro j
        show at2 m1 s1 j 0 = _
        rw [at1, if_neg (by omega)]
      · intro j _ hj
        have : j = 0 := by omega
        subst this
        exact hval
      · show at2 m1 s2 0 0 * _ = _
        rw [hj1', hval]
        simp [hP]
    · rw [if_neg hrk]
      refine Returns.ok ⟨hsh, fun _ => rfl, ?_, ?_⟩
      · intro j hj1 hj2; omega
      · symm
        refine Finset.sum_eq_zero fun j hj => ?_
        rw [hP0 hm j (by have := Finset.mem_range.1 hj; omega), mul_zero]
  rintro ⟨a1, d1⟩ ⟨sh1, hs1eq, hs2eq, hd1⟩
  simp only at sh1 hs1eq hs2eq hd1 ⊢
  have ej1 : (if (r : ℤ) - ((t + 1 : ℕ) : ℤ) ≥ -1 then (1 : ℤ) else -((r : ℤ) - ((t + 1 : ℕ) : ℤ)))
      = (j1 : ℤ) := by split_ifs <;> omega
  have ej2 : (if (r : ℤ) - 1 ≤ (p : ℤ) - ((t + 1 : ℕ) : ℤ) then ((t + 1 : ℕ) : ℤ) - 1
      else (p : ℤ) - r) = (j2 : ℤ) := by split_ifs <;> omega
  rw [ej1, ej2]
  -- middle coefficients
  refine Returns.bind (Returns.forZ (fun (jz : ℤ) (ad : List (List K) × K) => ∃ j : ℕ, jz = j ∧ j1 ≤ j ∧
      Shape ad.1 2 (p + 1) ∧
      (∀ i, at2 ad.1 s1 i 0 = at2 a s1 i 0) ∧
      (∀ i, t + 1 ≤ r + i → i < j → at2 ad.1 s2 i 0 = A (t + 1) i) ∧
      ad.2 = ∑ i ∈ Finset.range j, A (t + 1) i * P i) (by omega) ?_ ?_) ?_
  · exact ⟨j1, rfl, le_rfl, sh1, hs1eq, hs2eq, hd1⟩
  · rintro jz ⟨a2, d2⟩ hlo hhi ⟨j, rfl, hjj, sh2, g1, g2, g3⟩
    simp only at sh2 g1 g2 g3 ⊢
    have hj_le : j ≤ t := by omega
    have hj_p : r + j ≤ p := by omega
    obtain ⟨⟨z, hz, hdiv⟩, hy⟩ := h.entry hV hp hs (j := j) hm (by omega) hj_p
      ((r : ℤ) - (t + 1 : ℕ) + j) rfl
    rw [get2_nat sh2 _ _ s1 j 0 rfl rfl hs1 (by omega), ok_bind,
      get2_nat sh2 _ _ s1 (j - 1) 0 rfl (by omega) hs1 (by omega), ok_bind, hz, ok_bind, hdiv,
      ok_bind]
    obtain ⟨m1, k1, sh3, at3⟩ := set2_nat sh2 (s2 : ℤ) (j : ℤ) s2 j
      ((at2 a2 s1 j 0 - at2 a2 s1 (j - 1) 0) * w V (p - t - 1) (k - p + r + j)) 0 rfl rfl hs2
      (by omega)
    rw [k1, ok_bind, get2_nat sh3 _ _ s2 j 0 rfl rfl hs2 (by omega), ok_bind, hy, ok_bind]
    have hval : at2 m1 s2 j 0 = A (t + 1) j := by
      rw [at3, if_pos ⟨rfl, rfl⟩, g1, g1, ha j (by omega) (by omega) (by omega),
        ha (j - 1) (by omega) (by omega) (by omega)]
      simp [hA, aCoef, show j ≠ 0 by omega]
    refine Returns.ok ⟨j + 1, by push_cast; rfl, by omega, sh3, ?_, ?_, ?_⟩
    · intro i
      show at2 m1 s1 i 0 = _
      rw [at3, if_neg (by omega), g1]
    · intro i hi1 hi2
      show at2 m1 s2 i 0 = _
      by_cases hij : i = j
      · subst hij; exact hval
      · rw [at3, if_neg (by omega)]; exact g2 i hi1 (by omega)
    · show d2 + at2 m1 s2 j 0 * _ = _
      rw [hval, g3, Finset.sum_range_succ]
  rintro ⟨a2, d2⟩ ⟨j, hj, -, sh2, g1, g2, g3⟩
  have hj' : j = j2 + 1 := by omega
  subst hj'
  simp only at sh2 g1 g2 g3 ⊢
  -- last coefficient
  refine Returns.bind (P := fun (ad : List (List K) × K) => Shape ad.1 2 (p + 1) ∧
      (∀ i, t + 1 ≤ r + i → r + i ≤ p → i ≤ t + 1 → at2 ad.1 s2 i 0 = A (t + 1) i) ∧
      ad.2 = ∑ i ∈ Finset.range (t + 1 + 1), A (t + 1) i * P i) ?_ ?_
  · by_cases hrp : (r : ℤ) ≤ (p : ℤ) - ((t + 1 : ℕ) : ℤ)
    · rw [if_pos hrp]
      obtain ⟨⟨z, hz, hdiv⟩, hy⟩ := h.entry hV hp hs (r := r) (j := t + 1) hm (by omega) (by omega)
        (r : ℤ) (by omega)
      rw [get2_nat sh2 _ _ s1 t 0 rfl (by push_cast; ring) hs1 (by omega), ok_bind, hz, ok_bind,
        hdiv, ok_bind]
      obtain ⟨m1, k1, sh3, at3⟩ := set2_nat sh2 (s2 : ℤ) ((t + 1 : ℕ) : ℤ) s2 (t + 1)
        ((-at2 a2 s1 t 0) * w V (p - t - 1) (k - p + r + (t + 1))) 0 rfl rfl hs2 (by omega)
      rw [k1, ok_bind, get2_nat sh3 _ _ s2 (t + 1) 0 rfl rfl hs2 (by omega), ok_bind, hy, ok_bind]
      have hval : at2 m1 s2 (t + 1) 0 = A (t + 1) (t + 1) := by
        rw [at3, if_pos ⟨rfl, rfl⟩, g1, ha t (by omega) (by omega) (by omega)]
        simp only [hA, aCoef, if_neg (Nat.succ_ne_zero t), Nat.add_sub_cancel]
        rw [aCoef_zero V p _ t (t + 1) (by omega)]
        ring
      have hj2t : j2 = t := by omega
      refine Returns.ok ⟨sh3, ?_, ?_⟩
      · intro i hi1 hi2 hi3
        show at2 m1 s2 i 0 = _
        by_cases hit : i = t + 1
        · subst hit; exact hval
        · rw [at3, if_neg (by omega)]; exact g2 i hi1 (by omega)
      · show d2 + at2 m1 s2 (t + 1) 0 * _ = _
        rw [hval, g3, hj2t, Finset.sum_range_succ _ (t + 1)]
    · rw [if_neg hrp]
      refine Returns.ok ⟨sh2, ?_, ?_⟩
      · intro i hi1 hi2 hi3
        exact g2 i hi1 (by omega)
      · show d2 = _
        rw [g3]
        have e : t + 1 + 1 = (j2 + 1) + (t + 1 - j2) := by omega
        rw [e, Finset.sum_range_add _ (j2 + 1) (t + 1 - j2)]
        have : ∑ x ∈ Finset.range (t + 1 - j2), A (t + 1) (j2 + 1 + x) * P (j2 + 1 + x) = 0 := by
          refine Finset.sum_eq_zero fun x hx => ?_
          rw [hP0 hm (j2 + 1 + x) (by have := Finset.mem_range.1 hx; omega), mul_zero]
        rw [this, add_zero]
  rintro ⟨a3, d3⟩ ⟨sh3, k1, k2⟩
  exact finish a3 d3 sh3 k1 (by rw [hraw]; exact k2)

end step

/-- The whole routine. -/
theorem basisFunctionDers_correct {U : List K} (hU : Monotone (knotFn U)) {k p : ℕ} (u : K)
    (hp : p ≤ k) (hk : k + p < U.length) (hs : knotFn U k < knotFn U (k + 1)) (order : ℕ) :
    Returns (basisFunctionDers (k : ℤ) u p U order) fun ders =>
      Shape ders (p + 1) (order + 1) ∧
      ∀ r m, r ≤ p → m ≤ order →
        at2 ders r m 0 = (Spec.deriv m (piece (knotFn U) k p (k - p + r))).eval u := by
  unfold basisFunctionDers
  dsimp only
  set V := knotFn U with hV
  refine Returns.bind (nduTable_tri hU u hp hk hs) fun ndu htri => ?_
  -- zeroth column
  refine Returns.bind (Returns.forN (fun j ders => Shape ders (p + 1) (order + 1) ∧
    ∀ x < j, at2 ders x 0 0 = (piece V k p (k - p + x)).eval u) (by omega) ?_ ?_) ?_
  · exact ⟨shape_replicate _ _ _, by intro x hx; omega⟩
  · rintro j ders - hj ⟨h1, h2⟩
    rw [get2_nat htri.shape _ _ j p 0 rfl rfl (by omega) (by omega), ok_bind,
      htri.upper j p (by omega) le_rfl]
    obtain ⟨m1, g1, sh1, at1⟩ := set2_nat h1 (j : ℤ) 0 j 0
      ((piece V k p (k - p + j)).eval u) 0 rfl rfl (by omega) (by omega)
    rw [g1]
    refine Returns.ok ⟨sh1, fun x hx => ?_⟩
    rw [at1]
    by_cases hxj : x = j
    · subst hxj; simp
    · rw [if_neg (by omega)]; exact h2 x (by omega)
  rintro ders0 ⟨hsh0, hcol0⟩
  -- derivative rows
  refine Returns.bind (Returns.forN (fun r st => Shape st.1 2 (p + 1) ∧
    Shape st.2 (p + 1) (order + 1) ∧
    (∀ x ≤ p, at2 st.2 x 0 0 = (piece V k p (k - p + x)).eval u) ∧
    (∀ x < r, ∀ y, 1 ≤ y → y ≤ order → at2 st.2 x y 0 = rawDer V k p u x y)) (by omega) ?_ ?_) ?_
  · refine ⟨shape_replicate _ _ _, hsh0, fun x hx => hcol0 x (by omega), ?_⟩
    intro x hx; omega
  · rintro r ⟨a, ders⟩ - hr ⟨h1, h2, h3, h4⟩
    simp only at h1 h2 h3 h4 ⊢
    obtain ⟨m1, g1, sh1, at1⟩ := set2_nat h1 0 0 0 0 (1 : K) 0 rfl rfl (by omega) (by omega)
    rw [g1, ok_bind]
    refine Returns.bind (Returns.forN (fun m st => StepInv V k p u order r ders (m - 1) st)
      (by omega) ?_ ?_) ?_
    · refine ⟨sh1, ⟨0, 1, rfl, rfl, by omega, by omega, by omega, ?_⟩, h2, ?_⟩
      · intro j _ _ hj
        have : j = 0 := by omega
        subst this
        show at2 m1 0 0 0 = _
        rw [at1]
        simp [aCoef]
      · intro x y
        show at2 ders x y 0 = _
        rw [if_neg (by omega)]
    · rintro m st hm1 hm2 hinv
      obtain ⟨t, rfl⟩ : ∃ t, m = t + 1 := ⟨m - 1, by omega⟩
      exact dersStep_inv htri hU hp hs (by omega) (by omega) ders st hinv
    · rintro ⟨a', s1, s2, ders'⟩ ⟨k1, -, k3, k4⟩
      simp only [Nat.add_sub_cancel] at k1 k3 k4 ⊢
      refine Returns.ok ⟨k1, k3, ?_, ?_⟩
      · intro x hx
        show at2 ders' x 0 0 = _
        rw [k4, if_neg (by omega)]; exact h3 x hx
      · intro x hx y hy1 hy2
        show at2 ders' x y 0 = _
        rw [k4]
        by_cases hxr : x = r
        · subst hxr; rw [if_pos ⟨rfl, hy1, hy2⟩]
        · rw [if_neg (by omega)]; exact h4 x (by omega) y hy1 hy2
  rintro ⟨a, ders1⟩ ⟨-, hsh1, hc0, hraw⟩
  simp only at hsh1 hc0 hraw ⊢
  -- factors
  refine Returns.bind (Returns.forN (fun m st => st.2 = fall p m ∧
    Shape st.1 (p + 1) (order + 1) ∧
    (∀ x ≤ p, at2 st.1 x 0 0 = (piece V k p (k - p + x)).eval u) ∧
    (∀ x ≤ p, ∀ y, 1 ≤ y → y ≤ order → at2 st.1 x y 0
      = if y < m then fall p y * rawDer V k p u x y else rawDer V k p u x y)) (by omega) ?_ ?_) ?_
  · refine ⟨by simp [fall], hsh1, hc0, ?_⟩
    intro x hx y hy1 hy2
    show at2 ders1 x y 0 = _
    rw [if_neg (by omega)]; exact hraw x (by omega) y hy1 hy2
  · rintro m ⟨ders, f⟩ hm1 hm2 ⟨hf, h2, h3, h4⟩
    simp only at hf h2 h3 h4 ⊢
    refine Returns.bind (Returns.forN (fun j d => Shape d (p + 1) (order + 1) ∧
      (∀ x y, at2 d x y 0 = if x < j ∧ y = m then at2 ders x y 0 * f else at2 ders x y 0))
      (by omega) ?_ ?_) ?_
    · refine ⟨h2, fun x y => ?_⟩
      rw [if_neg (by omega)]
    · rintro j d - hj ⟨k1, k2⟩
      rw [get2_nat k1 _ _ j m 0 rfl rfl (by omega) (by omega), ok_bind]
      obtain ⟨m1, g1, sh1, at1⟩ := set2_nat k1 (j : ℤ) (m : ℤ) j m (at2 d j m 0 * f) 0 rfl rfl
        (by omega) (by omega)
      rw [g1]
      refine Returns.ok ⟨sh1, fun x y => ?_⟩
      rw [at1, k2, k2]
      by_cases hxy : x = j ∧ y = m
      · obtain ⟨rfl, rfl⟩ := hxy
        rw [if_pos ⟨rfl, rfl⟩, if_neg (by omega), if_pos (by omega)]
      · rw [if_neg hxy]
        by_cases hx2 : x < j ∧ y = m
        · rw [if_pos hx2, if_pos (by omega)]
        · rw [if_neg hx2, if_neg (by omega)]
    · rintro d ⟨k1, k2⟩
      refine Returns.ok ⟨?_, k1, ?_, ?_⟩
      · show f * ((p : K) - (m : K)) = _
        rw [hf]; unfold fall; rw [Finset.prod_range_succ]
      · intro x hx
        show at2 d x 0 0 = _
        rw [k2, if_neg (by omega)]; exact h3 x hx
      · intro x hx y hy1 hy2
        show at2 d x y 0 = _
        rw [k2, h4 x hx y hy1 hy2]
        by_cases hym : y = m
        · subst hym
          rw [if_pos (by omega), if_neg (by omega), if_pos (by omega), hf]
          ring
        · rw [if_neg (by omega)]
          by_cases hlt : y < m
          · rw [if_pos hlt, if_pos (by omega)]
          · rw [if_neg hlt, if_neg (by omega)]
  rintro ⟨ders, f⟩ ⟨-, h2, h3, h4⟩
  simp only at h2 h3 h4 ⊢
  refine Returns.ok ⟨h2, fun r m hr hm => ?_⟩
  by_cases hm0 : m = 0
  · subst hm0; rw [h3 r hr]; rfl
  · rw [h4 r hr m (by omega) hm, if_pos (by omega)]
    unfold rawDer
    by_cases hmp : m ≤ p
    · rw [if_pos hmp, deriv_piece hU k p _ m hmp]
      simp only [eval_mul, eval_C, eval_finsetSum]
    · rw [if_neg hmp, deriv_piece_zero hU k p _ m (by omega)]
      simp

end PySpline
