import Verif.Lemmas.InsertionEnd

/-!
# `curve_knot_insertion` up to multiplicity `degree + 1`
-/

set_option linter.unusedSectionVars false

namespace PySpline

open Spec

variable {K : Type} [Field K] [LinearOrder K] [IsStrictOrderedRing K]

/-- The row that line 246 reads at the index `-1` in the last round. -/
def overfullRow (P : List (List K)) (k s y : ℕ) : K := if s = 0 then at2 P k y 0 else 0

theorem insertion_overfull_rows {U : List K} {P : List (List K)} {k r s n p : ℕ} (u : K)
    (hl : U.length = n + p + 1) (hP : Shape P n 3) (hpk : p ≤ k) (hk : k < n)
    (hm : Monotone (knotFn U)) (hlt : knotFn U k < knotFn U (k + 1)) (hr : r + s = p + 1) (hsp : s ≤ p)
    (Q : ℕ → ℕ → ℕ → K) (q0 : ∀ m y, at2 P m y 0 = Q 0 m y)
    (qleft : ∀ t m y, t ≤ r → m + p ≤ k + t → Q r m y = Q t m y)
    (qright : ∀ t m y, t ≤ r → k ≤ m + s → Q r (m + (r - t)) y = Q t m y)
    (qmid : ∀ t i y, t < r → k - p + t + 1 + i + s ≤ k → Q (t + 1) (k - p + t + 1 + i) y
      = (u - knotFn U (k - p + t + 1 + i)) / (knotFn U (i + k + 1) - knotFn U (k - p + t + 1 + i))
          * Q t (k - p + t + (i + 1)) y
        + (1 - (u - knotFn U (k - p + t + 1 + i))
            / (knotFn U (i + k + 1) - knotFn U (k - p + t + 1 + i)))
          * Q t (k - p + t + i) y) :
    Returns (do
      let newP ← forZ 0 ((k : ℤ) - p + 1) (zeros2 (P.length + r) 3) fun i m => do
        let row ← pyGet P i
        assignRow m i row
      let newP ← forZ ((k : ℤ) - s) P.length newP fun i m => do
        let row ← pyGet P i
        assignRow m (i + r) row
      let R ← forZ 0 ((p : ℤ) - s + 1) (zeros2 (p + 1) 3) fun i m => do
        let row ← pyGet P ((k : ℤ) - p + i)
        assignRow m i row
      let (newP, R) ← forZ 1 ((r : ℤ) + 1) (newP, R) fun j (newP, R) => do
        let L : ℤ := k - p + j
        let R ← forZ 0 ((p : ℤ) - j - s + 1) R fun i R => do
          let a ← pyGet U (L + i)
          let b ← pyGet U (i + k + 1)
          let alpha ← pyDiv (u - a) (b - a)
          let x ← pyGet R (i + 1)
          let y ← pyGet R i
          assignRow R i (rowComb alpha x (1 - alpha) y)
        let r0 ← pyGet R 0
        let newP ← assignRow newP L r0
        let r1 ← pyGet R ((p : ℤ) - j - s)
        let newP ← assignRow newP (k + r - j - s) r1
        .ok (newP, R)
      let L : ℤ := k - p + r
      forZ (L + 1) ((k : ℤ) - s) newP fun i m => do
        let row ← pyGet R (i - L)
        assignRow m i row) fun newP =>
      Shape newP (n + r) 3 ∧ ∀ m < n + r, ∀ y < 3,
        at2 newP m y 0 = if m = k - s then overfullRow P k s y else Q r m y := by
  have hPl : P.length = n := hP.1
  rw [hPl]
  -- first loop
  refine Returns.bind (Returns.forZ (fun i m => Shape m (n + r) 3 ∧
    ∀ x : ℕ, (x : ℤ) < i → ∀ y < 3, at2 m x y 0 = at2 P x y 0) (by omega) ?_ ?_) ?_
  · exact ⟨shape_replicate _ _ _, fun x hx => by omega⟩
  · rintro i m hi1 hi2 ⟨sh, h⟩
    lift i to ℕ using hi1
    rw [pyGet_nat P _ i [] rfl (by omega), ok_bind]
    obtain ⟨m1, g1, sh1, at1⟩ := assignRow_nat sh (i : ℤ) i (P.getD i []) rfl (by omega)
      (hP.row (by omega))
    rw [g1]
    refine Returns.ok ⟨sh1, fun x hx y hy => ?_⟩
    rw [at1]
    split
    · next e => rw [e, at2_row]
    · exact h x (by omega) y hy
  rintro m ⟨sh, hA⟩
  -- second loop
  refine Returns.bind (Returns.forZ (fun i m => Shape m (n + r) 3 ∧
    (∀ x : ℕ, x + p ≤ k → ∀ y < 3, at2 m x y 0 = at2 P x y 0) ∧
    ∀ x : ℕ, k + r ≤ x + s → (x : ℤ) < i + r → ∀ y < 3, at2 m x y 0 = at2 P (x - r) y 0)
    (by omega) ?_ ?_) ?_
  · exact ⟨sh, fun x hx => hA x (by omega), fun x hx1 hx2 => by omega⟩
  · rintro i m hi1 hi2 ⟨sh, ha, hb⟩
    lift i to ℕ using (by omega)
    rw [pyGet_nat P _ i [] rfl (by omega), ok_bind]
    obtain ⟨m1, g1, sh1, at1⟩ := assignRow_nat sh ((i : ℤ) + r) (i + r) (P.getD i [])
      (by push_cast; ring) (by omega) (hP.row (by omega))
    rw [g1]
    refine Returns.ok ⟨sh1, fun x hx y hy => ?_, fun x hx1 hx2 y hy => ?_⟩
    · rw [at1, if_neg (by omega)]
      exact ha x hx y hy
    · rw [at1]
      split
      · next e => rw [e, Nat.add_sub_cancel, at2_row]
      · exact hb x hx1 (by omega) y hy
  rintro m ⟨sh, ha, hb⟩
  -- R
  refine Returns.bind (Returns.forZ (fun i R => Shape R (p + 1) 3 ∧
    (∀ x : ℕ, (x : ℤ) < i → ∀ y < 3, at2 R x y 0 = at2 P (k - p + x) y 0) ∧
    ∀ x : ℕ, x ≤ p → i ≤ x → ∀ y < 3, at2 R x y 0 = 0) (by omega) ?_ ?_) ?_
  · exact ⟨shape_replicate _ _ _, fun x hx => by omega, fun x hx _ y _ => zeros2_row (by omega)⟩
  · rintro i R hi1 hi2 ⟨sh, h, hz⟩
    lift i to ℕ using hi1
    rw [pyGet_nat P _ (k - p + i) [] (by push_cast [hpk]; ring) (by omega), ok_bind]
    obtain ⟨m1, g1, sh1, at1⟩ := assignRow_nat sh (i : ℤ) i (P.getD (k - p + i) []) rfl (by omega)
      (hP.row (by omega))
    rw [g1]
    refine Returns.ok ⟨sh1, fun x hx y hy => ?_, fun x hx1 hx2 y hy => ?_⟩
    · rw [at1]
      split
      · next e => rw [e, at2_row]
      · exact h x (by omega) y hy
    · rw [at1, if_neg (by omega)]
      exact hz x hx1 (by omega) y hy
  rintro R ⟨shR, hR, hRz⟩
  -- insertion loop
  refine Returns.bind (Returns.forZ (fun (j : ℤ) (st : List (List K) × List (List K)) =>
    Shape st.1 (n + r) 3 ∧ Shape st.2 (p + 1) 3 ∧
    (∀ x : ℕ, (x : ℤ) + p < k + j → (x = k - s → j ≤ r) → ∀ y < 3, at2 st.1 x y 0 = Q r x y) ∧
    (∀ x : ℕ, x < n + r → (k : ℤ) + r + 1 ≤ x + s + j → (x = k - s → j ≤ r) → ∀ y < 3,
      at2 st.1 x y 0 = Q r x y) ∧
    (∀ x t : ℕ, j = t + 1 → x + s + t ≤ p → ∀ y < 3, at2 st.2 x y 0 = Q t (k - p + t + x) y) ∧
    (∀ y < 3, at2 st.2 p y 0 = overfullRow P k s y) ∧
    (j = r + 1 → ∀ y < 3, at2 st.1 (k - s) y 0 = overfullRow P k s y))
    (by omega) ?_ ?_) ?_
  · refine ⟨sh, shR, fun x hx _ y hy => ?_, fun x hx1 hx2 _ y hy => ?_, fun x t e hx y hy => ?_, fun y hy => ?_,
      fun h => by omega⟩
    · rw [ha x (by omega) y hy, q0, qleft 0 x y (by omega) (by omega)]
    · rw [hb x (by omega) (by omega) y hy, q0]
      have := qright 0 (x - r) y (by omega) (by omega)
      rw [show x - r + (r - 0) = x by omega] at this
      rw [this]
    · have : t = 0 := by omega
      subst this
      rw [hR x (by omega) y hy, q0]; rfl
    · unfold overfullRow
      split
      · rw [hR p (by omega) y hy, show k - p + p = k by omega]
      · exact hRz p le_rfl (by omega) y hy
  · rintro j ⟨m, R⟩ hj1 hj2 ⟨sh, shR, hl', hr', hR, hRp, -⟩
    obtain ⟨t, rfl⟩ : ∃ t : ℕ, j = t + 1 := ⟨(j - 1).toNat, by omega⟩
    simp only at hl' hr' hR hRp ⊢
    have hR := fun x hx => hR x t rfl hx
    -- inner loop
    refine Returns.bind (Returns.forZ (fun (i : ℤ) (R : List (List K)) => Shape R (p + 1) 3 ∧
      (∀ x : ℕ, (x : ℤ) < i → ∀ y < 3, at2 R x y 0 = Q (t + 1) (k - p + t + 1 + x) y) ∧
      (∀ x : ℕ, i ≤ x → x + s + t ≤ p → ∀ y < 3, at2 R x y 0 = Q t (k - p + t + x) y) ∧
      ∀ y < 3, at2 R p y 0 = overfullRow P k s y)
      (by omega) ?_ ?_) ?_
    · exact ⟨shR, fun x hx => by omega, fun x _ hx => hR x hx, hRp⟩
    · rintro i R hi1 hi2 ⟨shR, hRa, hRb, hRp⟩
      lift i to ℕ using hi1
      have hne : knotFn U (i + k + 1) - knotFn U (k - p + t + 1 + i) ≠ 0 := by
        have e1 : knotFn U (k - p + t + 1 + i) ≤ knotFn U k := hm (by omega)
        have e2 : knotFn U (k + 1) ≤ knotFn U (i + k + 1) := hm (by omega)
        intro h; linarith
      have l1 := shR.row (i := i + 1) (by omega)
      have l0 := shR.row (i := i) (by omega)
      rw [pyGet_knot U _ (k - p + t + 1 + i) (by push_cast [hpk]; ring) (by omega), ok_bind,
        pyGet_knot U _ (i + k + 1) (by push_cast; ring) (by omega), ok_bind, pyDiv_ok hne, ok_bind,
        pyGet_nat R _ (i + 1) [] (by push_cast; ring) (by rw [shR.1]; omega),
        ok_bind, pyGet_nat R _ i [] rfl (by rw [shR.1]; omega), ok_bind]
      obtain ⟨m1, g1, sh1, at1⟩ := assignRow_nat shR (i : ℤ) i _ rfl (by omega) (rowComb_length l1 l0)
      rw [g1]
      refine Returns.ok ⟨sh1, fun x hx y hy => ?_, fun x hx1 hx2 y hy => ?_, fun y hy => ?_⟩
      · rw [at1]
        split
        · next e =>
          subst e
          rw [rowComb_getD (by omega) (by omega), at2_row, at2_row, hRb (x + 1) (by omega) (by omega) y hy,
            hRb x le_rfl (by omega) y hy]
          exact (qmid t x y (by omega) (by omega)).symm
        · exact hRa x (by omega) y hy
      · rw [at1, if_neg (by omega)]; exact hRb x (by omega) hx2 y hy
      · rw [at1, if_neg (by omega)]; exact hRp y hy
    rintro R ⟨shR, hRa, hRb, hRp⟩
    rw [pyGet_nat R 0 0 [] rfl (by rw [shR.1]; omega), ok_bind]
    obtain ⟨m1, g1, sh1, at1⟩ := assignRow_nat sh ((k : ℤ) - p + (t + 1)) (k - p + t + 1)
      (R.getD 0 []) (by push_cast [hpk]; ring) (by omega) (shR.row (by omega))
    rw [g1, ok_bind]
    by_cases hlast : t + 1 = r
    · -- the last round
      have v1 : ∀ y < 3, (R.getD 0 []).getD y 0 = Q r (k - p + t + 1) y := by
        intro y hy
        have := qright t (k - s) y (by omega) (by omega)
        rw [at2_row, hRb 0 (by omega) (by omega) y hy, show k - p + t + 0 = k - s by omega, ← this]
        congr 1
        omega
      rw [pyGet_neg R _ p [] (by omega) (by rw [shR.1]; push_cast; omega), ok_bind]
      obtain ⟨m2, g2, sh2, at2'⟩ := assignRow_nat sh1 ((k : ℤ) + r - (t + 1) - s) (k - s) (R.getD p [])
        (by omega) (by omega) (shR.row (by omega))
      rw [g2, ok_bind]
      refine Returns.ok ⟨sh2, shR, fun x hx hne y hy => ?_, fun x hx1 hx2 hne y hy => ?_,
        fun x t' e hx y hy => ?_, hRp, fun _ y hy => ?_⟩
      · have : x ≠ k - s := fun e => by have := hne e; omega
        rw [at2', if_neg this, at1]
        split
        · next e => rw [e, v1 y hy]
        · exact hl' x (by omega) (fun _ => by omega) y hy
      · have : x ≠ k - s := fun e => by have := hne e; omega
        rw [at2', if_neg this, at1]
        split
        · next e => rw [e, v1 y hy]
        · exact hr' x hx1 (by omega) (fun _ => by omega) y hy
      · omega
      · rw [at2', if_pos rfl, at2_row, hRp y hy]
    rw [pyGet_nat R _ (p - (t + 1) - s) [] (by omega) (by rw [shR.1]; omega), ok_bind]
    obtain ⟨m2, g2, sh2, at2'⟩ := assignRow_nat sh1 ((k : ℤ) + r - (t + 1) - s)
      (k - s + (r - (t + 1))) (R.getD (p - (t + 1) - s) []) (by omega) (by omega)
      (shR.row (by omega))
    rw [g2, ok_bind]
    have v1 : ∀ y < 3, (R.getD 0 []).getD y 0 = Q r (k - p + t + 1) y := by
      intro y hy
      rw [at2_row, hRa 0 (by omega) y hy, qleft (t + 1) _ y (by omega) (by omega)]
    have v2 : ∀ y < 3, (R.getD (p - (t + 1) - s) []).getD y 0 = Q r (k - s + (r - (t + 1))) y := by
      intro y hy
      rw [at2_row, hRa _ (by omega) y hy, qright (t + 1) _ y (by omega) (by omega)]
      congr 1
      omega
    refine Returns.ok ⟨sh2, shR, fun x hx hne y hy => ?_, fun x hx1 hx2 hne y hy => ?_,
      fun x t' e hx y hy => ?_, hRp, fun h => by omega⟩
    · rw [at2']
      split
      · next e => rw [e, v2 y hy]
      · rw [at1]
        split
        · next e => rw [e, v1 y hy]
        · exact hl' x (by omega) (fun _ => by omega) y hy
    · rw [at2']
      split
      · next e => rw [e, v2 y hy]
      · rw [at1]
        split
        · next e => rw [e, v1 y hy]
        · exact hr' x hx1 (by omega) (fun _ => by omega) y hy
    · have : t' = t + 1 := by omega
      subst this
      rw [hRa x (by omega) y hy]
      rfl
  rintro ⟨m, R⟩ ⟨sh, shR, hl', hr', -, -, hbad⟩
  simp only at sh shR hl' hr' hbad ⊢
  rw [forZ_empty (by omega)]
  refine Returns.ok ⟨sh, fun x hx y hy => ?_⟩
  split
  · next e => rw [e]; exact hbad trivial y hy
  · next e =>
    by_cases h : x + p ≤ k + r
    · exact hl' x (by omega) (fun h => absurd h e) y hy
    · exact hr' x hx (by omega) (fun h => absurd h e) y hy

/-- `curve_knot_insertion` up to multiplicity `degree + 1`: the control points of the insertion, with one of them
overwritten. -/
theorem curveKnotInsertion_overfull {U : List K} {P : List (List K)} {k r s n p : ℕ} {u : K}
    (hl : U.length = n + p + 1) (hP : Shape P n 3) (hpk : p ≤ k) (hk : k < n)
    (hfs : findSpan n p u U = .ok (k : ℤ)) (hs : findMultiplicity u U = s) (hm : Monotone (knotFn U))
    (hlt : knotFn U k < knotFn U (k + 1)) (hr : r + s = p + 1) (hsp : s ≤ p)
    (hrun : ∀ j, k < j + s → j ≤ k → knotFn U j = u) :
    Returns (curveKnotInsertion p U P u r) fun res =>
      res.1.length = n + p + 1 + r ∧ knotFn res.1 = insKnots (knotFn U) k u r ∧
      Shape res.2 (n + r) 3 ∧ ∀ m < n + r, ∀ y < 3, at2 res.2 m y 0
        = if m = k - s then overfullRow P k s y else boehmIter (knotFn U) p k u (coord P y) r m := by
  obtain ⟨kv, hkv, lkv, vkv⟩ := insertion_knots (r := r) u hl hk
  have step : ∀ (y t m : ℕ), t < r → k ≤ m + s → boehmIter (knotFn U) p k u (coord P y) (t + 1) (m + 1)
      = boehmIter (knotFn U) p k u (coord P y) t m := by
    intro y t m ht hm'
    conv_lhs => unfold boehmIter boehm boehmA
    rw [if_neg (by omega)]
    have e : insKnots (knotFn U) k u t (m + 1) = u ∨ k + t < m + 1 := by
      by_cases a : m + 1 ≤ k
      · left; unfold insKnots; rw [if_pos a, hrun _ (by omega) a]
      · by_cases b : k + t < m + 1
        · right; exact b
        · left; unfold insKnots; rw [if_neg a, if_pos (by omega)]
    rcases e with e | e
    · rw [e, sub_self, zero_div]; simp
    · rw [if_pos e]; simp
  have steps : ∀ (y t d m : ℕ), t + d ≤ r → k ≤ m + s → boehmIter (knotFn U) p k u (coord P y) (t + d) (m + d)
      = boehmIter (knotFn U) p k u (coord P y) t m := by
    intro y t d m ht hm'
    induction d with
    | zero => rfl
    | succ d ih => rw [← Nat.add_assoc, ← Nat.add_assoc, step y _ _ (by omega) (by omega), ih (by omega)]
  obtain ⟨newP, hnew, shP, vP⟩ := insertion_overfull_rows (r := r) (s := s) u hl hP hpk hk hm hlt hr hsp
    (fun t m y => boehmIter (knotFn U) p k u (coord P y) t m) (fun m y => rfl)
    (fun t m y h h' => by
      have := boehmIter_left (V := knotFn U) (k := k) (p := p) (u := u) (c := coord P y) (r - t) h'
      rwa [show t + (r - t) = r by omega] at this)
    (fun t m y h h' => by
      have := steps y t (r - t) m (by omega) h'
      rwa [show t + (r - t) = r by omega] at this)
    (fun t i y _ h => boehmIter_mid hpk (by omega))
  unfold curveKnotInsertion
  rw [hP.1, hfs, ok_bind, hs]
  rw [hP.1] at hnew
  simp only at hkv hnew ⊢
  rw [bind3_ok _ _ _ _ _ hkv, bind5_ok _ _ _ _ _ _ _ hnew]
  exact Returns.ok ⟨lkv, knotFn_of_getD hl hk lkv vkv, shP, vP⟩

/-- The basis function whose support is one span followed by a knot of full multiplicity. -/
theorem N_before_full {W : ℕ → K} {i p : ℕ} {u x : K} (h : ∀ j ≤ p, W (i + 1 + j) = u)
    (h1 : W i ≤ x) (h2 : x < u) : ∀ q ≤ p, N W q i x = ((x - W i) / (u - W i)) ^ q := by
  intro q
  induction q with
  | zero =>
    intro _
    unfold N
    rw [if_pos ⟨h1, by rw [show i + 1 = i + 1 + 0 from rfl, h 0 (by omega)]; exact h2⟩, pow_zero]
  | succ q ih =>
    intro hq
    unfold N
    have e1 : W (i + q + 1) = u := by rw [show i + q + 1 = i + 1 + q by omega, h q (by omega)]
    have e2 : W (i + 1) = u := h 0 (by omega)
    have e3 : W (i + q + 2) = u := by rw [show i + q + 2 = i + 1 + (q + 1) by omega, h _ hq]
    rw [ih (by omega), e1, e2, e3, sub_self, div_zero, zero_mul, add_zero, pow_succ, mul_comm]

end PySpline
