import Verif.Model.Basis
import Verif.Lemmas.Piece

/-!
# Correctness of `basis_functions` (algorithm A2.2) in terms of polynomial pieces
-/

set_option linter.unusedSectionVars false

namespace PySpline

open Polynomial Spec

variable {K : Type} [Field K] [LinearOrder K] [IsStrictOrderedRing K]

theorem monotone_knotFn {U : List K} (h : U.Pairwise (· ≤ ·)) : Monotone (knotFn U) := by
  rcases U.eq_nil_or_concat with rfl | ⟨L, b, rfl⟩
  · intro a b _; simp [knotFn]
  refine monotone_nat_of_le_succ fun i => ?_
  unfold knotFn
  simp only [List.concat_eq_append] at h ⊢
  rw [List.getD_eq_getElem?_getD, List.getD_eq_getElem?_getD]
  rw [List.getLastD_eq_getLast?]
  simp only [List.getLast?_append, List.getLast?_singleton, Option.some_or, Option.getD_some]
  by_cases h1 : i + 1 < (L ++ [b]).length
  · rw [List.getElem?_eq_getElem h1, List.getElem?_eq_getElem (by omega)]
    exact List.pairwise_iff_getElem.1 h i (i + 1) (by omega) h1 (by omega)
  · rw [List.getElem?_eq_none (by omega : (L ++ [b]).length ≤ i + 1)]
    by_cases h2 : i < (L ++ [b]).length
    · rw [List.getElem?_eq_getElem h2]
      have : i = L.length := by simp at h1 h2; omega
      subst this; simp
    · rw [List.getElem?_eq_none (by omega)]

theorem knotFn_eq {U : List K} {i : ℕ} (h : i < U.length) : knotFn U i = U[i] := by
  unfold knotFn
  rw [List.getD_eq_getElem?_getD, List.getElem?_eq_getElem h]; rfl

theorem pyGet_knot (U : List K) (i : ℤ) (k : ℕ) (hi : i = k) (hk : k < U.length) :
    pyGet U i = .ok (knotFn U k) := pyGet_nat U i k _ hi hk

theorem basisFunctions_piece {U : List K} (hU : Monotone (knotFn U)) {k p : ℕ} (u : K)
    (hp : p ≤ k) (hk : k + p < U.length) (hs : knotFn U k < knotFn U (k + 1)) :
    Returns (basisFunctions (k : ℤ) u p U) fun N =>
      N.length = p + 1 ∧ ∀ r ≤ p, N.getD r 0 = (piece (knotFn U) k p (k - p + r)).eval u := by
  unfold basisFunctions
  set V := knotFn U with hV
  refine Returns.bind (P := fun st => st.1.length = p + 1 ∧
    ∀ r ≤ p, st.1.getD r 0 = (piece V k p (k - p + r)).eval u) ?_ ?_
  swap
  · rintro ⟨N, left, right⟩ h
    exact Returns.ok h
  have key := Returns.forN (a := 1) (b := p + 1) (s := ((ones (p + 1) : List K), zeros (p + 1), zeros (p + 1)))
    (f := fun j (N, left, right) => do
      let a ← pyGet U ((k : ℤ) + 1 - j)
      let left ← pySet left j (u - a)
      let b ← pyGet U ((k : ℤ) + j)
      let right ← pySet right j (b - u)
      let (N, saved) ← forN 0 j (N, (0 : K)) fun r (N, saved) => do
        let nr ← pyGet N r
        let rr ← pyGet right ((r : ℤ) + 1)
        let lf ← pyGet left ((j : ℤ) - r)
        let temp ← pyDiv nr (rr + lf)
        let N ← pySet N r (saved + rr * temp)
        .ok (N, lf * temp)
      let N ← pySet N j saved
      .ok (N, left, right))
    (fun j st => st.1.length = p + 1 ∧ st.2.1.length = p + 1 ∧ st.2.2.length = p + 1 ∧
      (∀ r < j, st.1.getD r 0 = (piece V k (j - 1) (k + 1 - j + r)).eval u) ∧
      (∀ q, 1 ≤ q → q < j → st.2.1.getD q 0 = u - V (k + 1 - q) ∧
        st.2.2.getD q 0 = V (k + q) - u))
    (by omega) ?_ ?_
  · refine key.mono ?_
    rintro ⟨N, left, right⟩ ⟨h1, -, -, h4, -⟩
    refine ⟨h1, fun r hr => ?_⟩
    have := h4 r (by omega)
    simpa [show k + 1 - (p + 1) = k - p by omega] using this
  · refine ⟨by simp [ones], by simp [zeros], by simp [zeros], ?_, ?_⟩
    · intro r hr
      have : r = 0 := by omega
      subst this
      simp [ones, piece]
    · intro q h1 h2; omega
  · rintro j ⟨N, left, right⟩ hj1 hj2 ⟨hN, hl, hr, hb, hlr⟩
    simp only at hN hl hr hb hlr ⊢
    rw [pyGet_knot U _ (k + 1 - j) (by omega) (by omega), ok_bind,
      pySet_nat left _ j _ rfl (by omega), ok_bind,
      pyGet_knot U _ (k + j) (by omega) (by omega), ok_bind,
      pySet_nat right _ j _ rfl (by omega), ok_bind]
    set left' := left.set j (u - V (k + 1 - j)) with hleft'
    set right' := right.set j (V (k + j) - u) with hright'
    have hl' : left'.length = p + 1 := by simp [hleft', hl]
    have hr' : right'.length = p + 1 := by simp [hright', hr]
    have hlr' : ∀ q, 1 ≤ q → q < j + 1 → left'.getD q 0 = u - V (k + 1 - q) ∧
        right'.getD q 0 = V (k + q) - u := by
      intro q h1 h2
      rw [hleft', hright', getD_set _ _ _ _ _ (by omega), getD_set _ _ _ _ _ (by omega)]
      by_cases hq : q = j
      · subst hq; simp
      · simp only [if_neg hq]; exact hlr q h1 (by omega)
    refine Returns.bind (P := fun st => st.1.length = p + 1 ∧
      (∀ r < j, st.1.getD r 0 = (piece V k j (k - j + r)).eval u) ∧
      st.2 = (piece V k j k).eval u) ?_ ?_
    · have inner := Returns.forN (a := 0) (b := j) (s := (N, (0 : K)))
        (f := fun r (N, saved) => do
          let nr ← pyGet N r
          let rr ← pyGet right' ((r : ℤ) + 1)
          let lf ← pyGet left' ((j : ℤ) - r)
          let temp ← pyDiv nr (rr + lf)
          let N ← pySet N r (saved + rr * temp)
          .ok (N, lf * temp))
        (fun r st => st.1.length = p + 1 ∧
          (∀ q < r, st.1.getD q 0 = (piece V k j (k - j + q)).eval u) ∧
          (∀ q, r ≤ q → q < j → st.1.getD q 0 = (piece V k (j - 1) (k + 1 - j + q)).eval u) ∧
          st.2 = w V (j - 1) (k - j + r) * (u - V (k - j + r))
            * (piece V k (j - 1) (k - j + r)).eval u)
        (by omega) ?_ ?_
      · refine inner.mono ?_
        rintro ⟨N, saved⟩ ⟨h1, h2, -, h4⟩
        refine ⟨h1, h2, ?_⟩
        simp only at h4 ⊢
        obtain ⟨m, rfl⟩ : ∃ m, j = m + 1 := ⟨j - 1, by omega⟩
        rw [h4, piece_succ, piece_eq_zero_of_lt V k m (k + 1) (by omega)]
        have e : k - (m + 1) + (m + 1) = k := by omega
        rw [e]
        simp [eval_mul, eval_sub]
      · refine ⟨hN, by intro q hq; omega, fun q _ hq => hb q hq, ?_⟩
        rw [piece_eq_zero_of_gt V k (j - 1) (k - j + 0) (by omega)]
        simp
      · rintro r ⟨N, saved⟩ - hrj ⟨h1, h2, h3, h4⟩
        simp only at h1 h2 h3 h4 ⊢
        rw [pyGet_nat N _ r 0 rfl (by omega), ok_bind,
          pyGet_nat right' _ (r + 1) 0 (by push_cast; rfl) (by omega), ok_bind,
          pyGet_nat left' _ (j - r) 0 (by omega) (by omega), ok_bind,
          h3 r le_rfl hrj, (hlr' (r + 1) (by omega) (by omega)).2,
          (hlr' (j - r) (by omega) (by omega)).1]
        have e1 : k + 1 - j + r = k - j + r + 1 := by omega
        have e2 : k + 1 - (j - r) = k - j + r + 1 := by omega
        have e3 : k + (r + 1) = k - j + r + 1 + (j - 1) + 1 := by omega
        rw [e1, e2, e3]
        have hd : V (k - j + r + 1) < V (k - j + r + 1 + (j - 1) + 1) :=
          lt_of_le_of_lt (hU (by omega : k - j + r + 1 ≤ k))
            (lt_of_lt_of_le hs (hU (by omega)))
        have hd' : V (k - j + r + 1 + (j - 1) + 1) - u + (u - V (k - j + r + 1)) ≠ 0 := by
          intro h; linarith
        rw [pyDiv_ok hd', ok_bind, pySet_nat N _ r _ rfl (by omega), ok_bind]
        refine Returns.ok ⟨by simp [h1], ?_, ?_, ?_⟩
        · intro q hq
          rw [getD_set _ _ _ _ _ (by omega)]
          by_cases hqr : q = r
          · subst hqr
            rw [if_pos rfl, h4]
            obtain ⟨m, rfl⟩ : ∃ m, j = m + 1 := ⟨j - 1, by omega⟩
            rw [piece_succ]
            simp only [eval_add, eval_mul, eval_C, eval_sub, eval_X, w, Nat.add_sub_cancel]
            have e4 : k - (m + 1) + q + m + 2 = k - (m + 1) + q + 1 + m + 1 := by omega
            rw [e4]
            congr 1
            have e5 : V (k - (m + 1) + q + 1 + m + 1) - u + (u - V (k - (m + 1) + q + 1))
              = V (k - (m + 1) + q + 1 + m + 1) - V (k - (m + 1) + q + 1) := by ring
            rw [e5]
            ring
          · rw [if_neg hqr]; exact h2 q (by omega)
        · intro q hq1 hq2
          rw [getD_set _ _ _ _ _ (by omega), if_neg (by omega)]
          exact h3 q (by omega) hq2
        · show _ = _
          rw [← add_assoc (k - j) r 1]
          have e5 : V (k - j + r + 1 + (j - 1) + 1) - u + (u - V (k - j + r + 1))
              = V (k - j + r + 1 + (j - 1) + 1) - V (k - j + r + 1) := by ring
          rw [e5]
          unfold w
          ring
    · rintro ⟨N, saved⟩ ⟨h1, h2, h3⟩
      simp only at h1 h2 h3 ⊢
      rw [pySet_nat N _ j _ rfl (by omega), ok_bind]
      refine Returns.ok ⟨by simp [h1], hl', hr', ?_, hlr'⟩
      intro r hr
      show (N.set j saved).getD r 0 = _
      rw [getD_set _ _ _ _ _ (by omega)]
      have e : k + 1 - (j + 1) + r = k - j + r := by omega
      rw [e, Nat.add_sub_cancel]
      by_cases hrj : r = j
      · subst hrj; rw [if_pos rfl, h3, show k - r + r = k by omega]
      · rw [if_neg hrj]; exact h2 r (by omega)

/-- On an empty span the first division is by zero. -/
theorem basisFunctions_empty_span {U : List K} {k p : ℕ} (u : K) (hp : 1 ≤ p)
    (hk : k + 1 < U.length) (hs : knotFn U k = knotFn U (k + 1)) :
    basisFunctions (k : ℤ) u p U = .error .nonfinite := by
  unfold basisFunctions
  dsimp only
  rw [forN_succ_left (by omega)]
  dsimp only
  rw [pyGet_knot U _ k (by push_cast; ring) (by omega), ok_bind,
    pySet_nat _ _ 1 _ (by simp) (by simp [zeros]; omega), ok_bind,
    pyGet_knot U _ (k + 1) (by push_cast; rfl) (by omega), ok_bind,
    pySet_nat _ _ 1 _ (by simp) (by simp [zeros]; omega), ok_bind]
  rw [forN_succ_left (by omega)]
  dsimp only
  rw [pyGet_nat _ _ 0 0 (by simp) (by simp [ones]), ok_bind,
    pyGet_nat _ _ 1 0 (by simp) (by simp [zeros]; omega), ok_bind,
    pyGet_nat _ _ 1 0 (by simp) (by simp [zeros]; omega), ok_bind,
    getD_set _ _ _ _ _ (by simp [zeros]; omega), getD_set _ _ _ _ _ (by simp [zeros]; omega),
    if_pos rfl, if_pos rfl, pyDiv_zero (by rw [hs]; ring)]
  rfl

end PySpline
