import Verif.Lemmas.Rounded

/-!
# `basis_functions` in rounded arithmetic at the ends of a clamped knot vector
-/

set_option linter.unusedSectionVars false

namespace PySpline

open Spec

section
variable {K : Type} [Field K] [LinearOrder K] [IsStrictOrderedRing K]

/-- At a knot that is repeated to the left of the span the first value is exactly one, if the length of the span times
its reciprocal is rounded to one. -/
theorem basisFunctionsFl_first {fl : K → K} (h0 : fl 0 = 0) (hid : ∀ x, fl (fl x) = fl x)
    {U : List K} {k p : ℕ} {u : K} (hp : p ≤ k) (hk : k + p < U.length)
    (hl : ∀ j, 1 ≤ j → j ≤ p → knotFn U (k + 1 - j) = u)
    (hr : ∀ j, 1 ≤ j → j ≤ p → fl (knotFn U (k + j) - u) ≠ 0)
    (hx : fl (fl (knotFn U (k + 1) - u) * fl (1 / fl (knotFn U (k + 1) - u))) = 1) :
    Returns (basisFunctionsFl fl (k : ℤ) u p U) fun N =>
      N.length = p + 1 ∧ N.getD 0 0 = 1 ∧ ∀ r, 1 ≤ r → r ≤ p → N.getD r 0 = 0 := by
  unfold basisFunctionsFl
  set V := knotFn U with hV
  refine Returns.bind (P := fun st => st.1.length = p + 1 ∧ st.1.getD 0 0 = 1 ∧
    ∀ r, 1 ≤ r → r ≤ p → st.1.getD r 0 = 0) ?_ ?_
  swap
  · rintro ⟨N, left, right⟩ h
    exact Returns.ok h
  have key := Returns.forN (a := 1) (b := p + 1) (s := ((ones (p + 1) : List K), zeros (p + 1), zeros (p + 1)))
    (f := fun j (N, left, right) => do
      let a ← pyGet U ((k : ℤ) + 1 - j)
      let left ← pySet left j (fl (u - a))
      let b ← pyGet U ((k : ℤ) + j)
      let right ← pySet right j (fl (b - u))
      let (N, saved) ← forN 0 j (N, (0 : K)) fun r (N, saved) => do
        let nr ← pyGet N r
        let rr ← pyGet right ((r : ℤ) + 1)
        let lf ← pyGet left ((j : ℤ) - r)
        let temp ← pyDivFl fl nr (fl (rr + lf))
        let N ← pySet N r (fl (saved + fl (rr * temp)))
        .ok (N, fl (lf * temp))
      let N ← pySet N j saved
      .ok (N, left, right))
    (fun j st => st.1.length = p + 1 ∧ st.2.1.length = p + 1 ∧ st.2.2.length = p + 1 ∧
      (st.1.getD 0 0 = 1 ∧ ∀ r, 1 ≤ r → r < j → st.1.getD r 0 = 0) ∧
      (∀ q, 1 ≤ q → q < j → st.2.1.getD q 0 = 0 ∧ st.2.2.getD q 0 = fl (V (k + q) - u)))
    (by omega) ?_ ?_
  · refine key.mono ?_
    rintro ⟨N, left, right⟩ ⟨h1, -, -, h4, -⟩
    exact ⟨h1, h4.1, fun r hr hr' => h4.2 r hr (by omega)⟩
  · refine ⟨by simp [ones], by simp [zeros], by simp [zeros], ⟨by simp [ones], fun r h1 h2 => by omega⟩,
      fun q h1 h2 => by omega⟩
  · rintro j ⟨N, left, right⟩ hj1 hj2 ⟨hN, hle, hri, hb, hlr⟩
    simp only at hN hle hri hb hlr ⊢
    rw [pyGet_knot U _ (k + 1 - j) (by omega) (by omega), ok_bind,
      pySet_nat left _ j _ rfl (by omega), ok_bind,
      pyGet_knot U _ (k + j) (by omega) (by omega), ok_bind,
      pySet_nat right _ j _ rfl (by omega), ok_bind]
    set left' := left.set j (fl (u - V (k + 1 - j))) with hleft'
    set right' := right.set j (fl (V (k + j) - u)) with hright'
    have hl' : left'.length = p + 1 := by simp [hleft', hle]
    have hr' : right'.length = p + 1 := by simp [hright', hri]
    have hlr' : ∀ q, 1 ≤ q → q < j + 1 → left'.getD q 0 = 0 ∧ right'.getD q 0 = fl (V (k + q) - u) := by
      intro q h1 h2
      rw [hleft', hright', getD_set _ _ _ _ _ (by omega), getD_set _ _ _ _ _ (by omega)]
      by_cases hq : q = j
      · subst hq
        rw [if_pos rfl, if_pos rfl, hl q h1 (by omega), sub_self, h0]
        exact ⟨rfl, rfl⟩
      · simp only [if_neg hq]; exact hlr q h1 (by omega)
    refine Returns.bind (P := fun st => st.1.length = p + 1 ∧
      (st.1.getD 0 0 = 1 ∧ ∀ r, 1 ≤ r → r < j → st.1.getD r 0 = 0) ∧ st.2 = 0) ?_ ?_
    · have inner := Returns.forN (a := 0) (b := j) (s := (N, (0 : K)))
        (f := fun r (N, saved) => do
          let nr ← pyGet N r
          let rr ← pyGet right' ((r : ℤ) + 1)
          let lf ← pyGet left' ((j : ℤ) - r)
          let temp ← pyDivFl fl nr (fl (rr + lf))
          let N ← pySet N r (fl (saved + fl (rr * temp)))
          .ok (N, fl (lf * temp)))
        (fun _ st => st.1.length = p + 1 ∧
          (st.1.getD 0 0 = 1 ∧ ∀ r, 1 ≤ r → r < j → st.1.getD r 0 = 0) ∧ st.2 = 0)
        (by omega) ⟨hN, hb, rfl⟩ ?_
      · exact inner
      · rintro r ⟨N, saved⟩ - hrj ⟨h2, h3, h4⟩
        simp only at h2 h3 h4 ⊢
        subst h4
        rw [pyGet_nat N _ r 0 rfl (by omega), ok_bind,
          pyGet_nat right' _ (r + 1) 0 (by push_cast; rfl) (by omega), ok_bind,
          pyGet_nat left' _ (j - r) 0 (by omega) (by omega), ok_bind, (hlr' (r + 1) (by omega) (by omega)).2,
          (hlr' (j - r) (by omega) (by omega)).1, add_zero, hid]
        unfold pyDivFl
        rw [pyDiv_ok (hr (r + 1) (by omega) (by omega)), ok_bind, ok_bind, pySet_nat N _ r _ rfl (by omega), ok_bind,
          zero_mul, h0, zero_add]
        refine Returns.ok ⟨by simp [h2], ⟨?_, fun q hq1 hq2 => ?_⟩, rfl⟩ <;> dsimp only <;>
          rw [getD_set _ _ _ _ _ (by omega)]
        · by_cases hr0 : 0 = r
          · subst hr0
            rw [if_pos rfl, h3.1, zero_add, hid]
            exact hx
          · rw [if_neg hr0]; exact h3.1
        · by_cases hqr : q = r
          · subst hqr
            rw [if_pos rfl, h3.2 q hq1 hq2, zero_div, h0, mul_zero, h0, h0]
          · rw [if_neg hqr]; exact h3.2 q hq1 hq2
    · rintro ⟨N, saved⟩ ⟨h2, h3, h4⟩
      simp only at h2 h3 h4 ⊢
      rw [pySet_nat N _ j _ rfl (by omega), ok_bind]
      refine Returns.ok ⟨by simp [h2], hl', hr', ⟨?_, fun r hr hr2 => ?_⟩, hlr'⟩ <;> dsimp only <;>
        rw [getD_set _ _ _ _ _ (by omega)]
      · rw [if_neg (by omega)]; exact h3.1
      · by_cases hrj : r = j
        · rw [if_pos hrj]; exact h4
        · rw [if_neg hrj]; exact h3.2 r hr (by omega)

/-- The same at a knot that is repeated to the right of the span. -/
theorem basisFunctionsFl_last {fl : K → K} (h0 : fl 0 = 0) (hid : ∀ x, fl (fl x) = fl x)
    {U : List K} {k p : ℕ} {u : K} (hp : p ≤ k) (hk : k + p < U.length)
    (hr : ∀ j, 1 ≤ j → j ≤ p → knotFn U (k + j) = u)
    (hl : ∀ j, 1 ≤ j → j ≤ p → fl (u - knotFn U (k + 1 - j)) ≠ 0)
    (hx : fl (fl (u - knotFn U k) * fl (1 / fl (u - knotFn U k))) = 1) :
    Returns (basisFunctionsFl fl (k : ℤ) u p U) fun N =>
      N.length = p + 1 ∧ N.getD p 0 = 1 ∧ ∀ r < p, N.getD r 0 = 0 := by
  unfold basisFunctionsFl
  set V := knotFn U with hV
  refine Returns.bind (P := fun st => st.1.length = p + 1 ∧ st.1.getD p 0 = 1 ∧
    ∀ r < p, st.1.getD r 0 = 0) ?_ ?_
  swap
  · rintro ⟨N, left, right⟩ h
    exact Returns.ok h
  have key := Returns.forN (a := 1) (b := p + 1) (s := ((ones (p + 1) : List K), zeros (p + 1), zeros (p + 1)))
    (f := fun j (N, left, right) => do
      let a ← pyGet U ((k : ℤ) + 1 - j)
      let left ← pySet left j (fl (u - a))
      let b ← pyGet U ((k : ℤ) + j)
      let right ← pySet right j (fl (b - u))
      let (N, saved) ← forN 0 j (N, (0 : K)) fun r (N, saved) => do
        let nr ← pyGet N r
        let rr ← pyGet right ((r : ℤ) + 1)
        let lf ← pyGet left ((j : ℤ) - r)
        let temp ← pyDivFl fl nr (fl (rr + lf))
        let N ← pySet N r (fl (saved + fl (rr * temp)))
        .ok (N, fl (lf * temp))
      let N ← pySet N j saved
      .ok (N, left, right))
    (fun j st => st.1.length = p + 1 ∧ st.2.1.length = p + 1 ∧ st.2.2.length = p + 1 ∧
      (∀ r < j, st.1.getD r 0 = if r + 1 = j then 1 else 0) ∧
      (∀ q, 1 ≤ q → q < j → st.2.1.getD q 0 = fl (u - V (k + 1 - q)) ∧ st.2.2.getD q 0 = 0))
    (by omega) ?_ ?_
  · refine key.mono ?_
    rintro ⟨N, left, right⟩ ⟨h1, -, -, h4, -⟩
    exact ⟨h1, by rw [h4 p (by omega), if_pos rfl], fun r hr => by rw [h4 r (by omega), if_neg (by omega)]⟩
  · refine ⟨by simp [ones], by simp [zeros], by simp [zeros], fun r hr => ?_, fun q h1 h2 => by omega⟩
    obtain rfl : r = 0 := by omega
    simp [ones]
  · rintro j ⟨N, left, right⟩ hj1 hj2 ⟨hN, hle, hri, hb, hlr⟩
    simp only at hN hle hri hb hlr ⊢
    rw [pyGet_knot U _ (k + 1 - j) (by omega) (by omega), ok_bind,
      pySet_nat left _ j _ rfl (by omega), ok_bind,
      pyGet_knot U _ (k + j) (by omega) (by omega), ok_bind,
      pySet_nat right _ j _ rfl (by omega), ok_bind]
    set left' := left.set j (fl (u - V (k + 1 - j))) with hleft'
    set right' := right.set j (fl (V (k + j) - u)) with hright'
    have hl' : left'.length = p + 1 := by simp [hleft', hle]
    have hr' : right'.length = p + 1 := by simp [hright', hri]
    have hlr' : ∀ q, 1 ≤ q → q < j + 1 → left'.getD q 0 = fl (u - V (k + 1 - q)) ∧ right'.getD q 0 = 0 := by
      intro q h1 h2
      rw [hleft', hright', getD_set _ _ _ _ _ (by omega), getD_set _ _ _ _ _ (by omega)]
      by_cases hq : q = j
      · subst hq
        rw [if_pos rfl, if_pos rfl, hr q h1 (by omega), sub_self, h0]
        exact ⟨rfl, rfl⟩
      · simp only [if_neg hq]; exact hlr q h1 (by omega)
    refine Returns.bind (P := fun st => st.1.length = p + 1 ∧
      (∀ r < j, st.1.getD r 0 = 0) ∧ st.2 = 1) ?_ ?_
    · have inner := Returns.forN (a := 0) (b := j) (s := (N, (0 : K)))
        (f := fun r (N, saved) => do
          let nr ← pyGet N r
          let rr ← pyGet right' ((r : ℤ) + 1)
          let lf ← pyGet left' ((j : ℤ) - r)
          let temp ← pyDivFl fl nr (fl (rr + lf))
          let N ← pySet N r (fl (saved + fl (rr * temp)))
          .ok (N, fl (lf * temp)))
        (fun r st => st.1.length = p + 1 ∧ (∀ q < r, st.1.getD q 0 = 0) ∧
          (∀ q, r ≤ q → q < j → st.1.getD q 0 = if q + 1 = j then 1 else 0) ∧ st.2 = if r = j then 1 else 0)
        (by omega) ⟨hN, fun q hq => by omega, fun q _ hq => hb q hq, by rw [if_neg (by omega)]⟩ ?_
      · refine inner.mono ?_
        rintro ⟨N, saved⟩ ⟨h2, h3, -, h4⟩
        exact ⟨h2, h3, by rw [h4, if_pos rfl]⟩
      · rintro r ⟨N, saved⟩ - hrj ⟨h2, h3, h4, h5⟩
        simp only at h2 h3 h4 h5 ⊢
        rw [if_neg (by omega)] at h5
        subst h5
        rw [pyGet_nat N _ r 0 rfl (by omega), ok_bind,
          pyGet_nat right' _ (r + 1) 0 (by push_cast; rfl) (by omega), ok_bind,
          pyGet_nat left' _ (j - r) 0 (by omega) (by omega), ok_bind, (hlr' (r + 1) (by omega) (by omega)).2,
          (hlr' (j - r) (by omega) (by omega)).1, zero_add, hid]
        unfold pyDivFl
        rw [pyDiv_ok (hl (j - r) (by omega) (by omega)), ok_bind, ok_bind, pySet_nat N _ r _ rfl (by omega), ok_bind,
          zero_mul, h0, zero_add, h0]
        refine Returns.ok ⟨by simp [h2], fun q hq => ?_, fun q hq1 hq2 => ?_, ?_⟩ <;> dsimp only
        · rw [getD_set _ _ _ _ _ (by omega)]
          by_cases hqr : q = r
          · rw [if_pos hqr]
          · rw [if_neg hqr]; exact h3 q (by omega)
        · rw [getD_set _ _ _ _ _ (by omega), if_neg (by omega)]; exact h4 q (by omega) hq2
        · rw [h4 r le_rfl hrj]
          by_cases hrj' : r + 1 = j
          · rw [if_pos hrj', show j - r = 1 by omega, Nat.add_sub_cancel]
            exact hx
          · rw [if_neg hrj', zero_div, h0, mul_zero, h0]
    · rintro ⟨N, saved⟩ ⟨h2, h3, h4⟩
      simp only at h2 h3 h4 ⊢
      rw [pySet_nat N _ j _ rfl (by omega), ok_bind]
      refine Returns.ok ⟨by simp [h2], hl', hr', fun r hr => ?_, hlr'⟩
      dsimp only
      rw [getD_set _ _ _ _ _ (by omega)]
      by_cases hrj : r = j
      · rw [if_pos hrj, if_pos (by omega)]; exact h4
      · rw [if_neg hrj, if_neg (by omega)]; exact h3 r (by omega)

/-- A sum in which at most one product is not zero, that product being a double, is computed exactly. -/
theorem DotFl.one_term {fl : K → K} (h0 : fl 0 = 0) {r : K} (hr : fl r = r) {l : List (K × K)} {s : K}
    (h : DotFl fl l s) (h1 : ∀ x ∈ l, x.1 * x.2 = 0 ∨ x.1 * x.2 = r)
    (h2 : l.countP (fun x => x.1 * x.2 ≠ 0) ≤ 1) :
    (s = 0 ∧ l.countP (fun x => x.1 * x.2 ≠ 0) = 0) ∨ (s = r ∧ l.countP (fun x => x.1 * x.2 ≠ 0) = 1) := by
  have c0 : ∀ a b : K, a * b = 0 → [(a, b)].countP (fun x => x.1 * x.2 ≠ 0) = 0 := by
    intro a b h
    rw [List.countP_cons_of_neg (by rw [h]; simp), List.countP_nil]
  have c1 : ∀ a b : K, a * b ≠ 0 → [(a, b)].countP (fun x => x.1 * x.2 ≠ 0) = 1 := by
    intro a b h
    rw [List.countP_cons_of_pos (by exact decide_eq_true h), List.countP_nil]
  induction h with
  | mul a b =>
    by_cases h' : a * b = 0
    · left; rw [h', h0]; exact ⟨rfl, c0 a b h'⟩
    · right
      have := (h1 (a, b) (by simp)).resolve_left h'
      exact ⟨by rw [this, hr], c1 a b h'⟩
  | @add l m s t d1 d2 i1 i2 =>
    rw [List.countP_append] at h2 ⊢
    rcases i1 (fun x hx => h1 x (List.mem_append_left _ hx)) (by omega) with ⟨rfl, e1⟩ | ⟨rfl, e1⟩ <;>
    rcases i2 (fun x hx => h1 x (List.mem_append_right _ hx)) (by omega) with ⟨rfl, e2⟩ | ⟨e3, e2⟩
    · left; rw [add_zero, h0]; exact ⟨rfl, by omega⟩
    · right; rw [zero_add, e3, hr]; exact ⟨rfl, by omega⟩
    · right; rw [add_zero, hr]; exact ⟨rfl, by omega⟩
    · omega
  | @fma l s a b d i =>
    rw [List.countP_append] at h2 ⊢
    by_cases h' : a * b = 0
    · have e := c0 a b h'
      rw [h', add_zero]
      rcases i (fun x hx => h1 x (List.mem_append_left _ hx)) (by omega) with ⟨rfl, e1⟩ | ⟨rfl, e1⟩
      · left; rw [h0]; exact ⟨rfl, by omega⟩
      · right; rw [hr]; exact ⟨rfl, by omega⟩
    · have e := c1 a b h'
      have e2 := (h1 (a, b) (by simp)).resolve_left h'
      rcases i (fun x hx => h1 x (List.mem_append_left _ hx)) (by omega) with ⟨rfl, e1⟩ | ⟨rfl, e1⟩
      · right; rw [zero_add, e2, hr]; exact ⟨rfl, by omega⟩
      · omega
  | @perm l m s hp d i =>
    rw [← hp.countP_eq] at h2 ⊢
    exact i (fun x hx => h1 x (hp.mem_iff.1 hx)) h2

/-- A product with a unit vector is computed exactly. -/
theorem DotFl.unit {fl : K → K} (h0 : fl 0 = 0) {N c : List K} {n r0 : ℕ} (hN : N.length = n) (hc : c.length = n)
    (hr0 : r0 < n) (h1 : N.getD r0 0 = 1) (h2 : ∀ r < n, r ≠ r0 → N.getD r 0 = 0)
    (hd : fl (c.getD r0 0) = c.getD r0 0) {s : K} (h : DotFl fl (N.zip c) s) : s = c.getD r0 0 := by
  rw [zip_eq_map_range hN hc] at h
  have hone : ((List.range n).map fun r => (N.getD r 0, c.getD r 0)).countP (fun x => x.1 * x.2 ≠ 0) ≤ 1 := by
    rw [List.countP_map]
    refine (List.countP_mono_left (q := fun r => r == r0) fun r hr hx => ?_).trans ?_
    · by_contra hne
      have := h2 r (List.mem_range.1 hr) (by simpa using hne)
      simp only [Function.comp, this, zero_mul, ne_eq, not_true, decide_false] at hx
      cases hx
    · exact List.nodup_iff_count_le_one.1 List.nodup_range r0
  have hall : ∀ x ∈ (List.range n).map fun r => (N.getD r 0, c.getD r 0),
      x.1 * x.2 = 0 ∨ x.1 * x.2 = c.getD r0 0 := by
    intro x hx
    obtain ⟨r, hr, rfl⟩ := List.mem_map.1 hx
    by_cases hrr : r = r0
    · subst hrr; right; rw [h1, one_mul]
    · left; rw [h2 r (List.mem_range.1 hr) hrr, zero_mul]
  rcases h.one_term h0 hd hall hone with ⟨e, hcnt⟩ | ⟨e, -⟩
  · rw [List.countP_eq_zero] at hcnt
    have := hcnt (N.getD r0 0, c.getD r0 0) (List.mem_map.2 ⟨r0, List.mem_range.2 hr0, rfl⟩)
    rw [h1, decide_eq_true_eq, not_not, one_mul] at this
    rw [e]
    exact this.symm
  · exact e

theorem DotFl.swap {fl : K → K} {l : List (K × K)} {s : K} (h : DotFl fl l s) : DotFl fl (l.map Prod.swap) s := by
  induction h with
  | mul a b => rw [mul_comm]; exact .mul b a
  | add _ _ i1 i2 => rw [List.map_append]; exact .add i1 i2
  | fma a b _ i => rw [List.map_append, mul_comm]; exact .fma b a i
  | perm hp _ i => exact .perm (hp.map _) i

/-- `find_span` and `basis_functions` yield at `u` exactly the unit vector of control point `i`. -/
def UnitAt (fl : K → K) (close : K → K → Bool) (p n : ℕ) (U : List K) (u : K) (i : ℕ) : Prop :=
  ∃ (m r0 : ℕ) (N : List K), findSpanWith close (spanFuel n p) n p u U = .ok (m : ℤ) ∧ p ≤ m ∧ m < n ∧
    basisFunctionsFl fl (m : ℤ) u p U = .ok N ∧ N.length = p + 1 ∧ r0 ≤ p ∧ m - p + r0 = i ∧ N.getD r0 0 = 1 ∧
    ∀ r < p + 1, r ≠ r0 → N.getD r 0 = 0

theorem fl_ne_zero {ρ : K} {fl : K → K} (hf : Accurate ρ fl) {x : K} (hx : 0 < x) : fl x ≠ 0 :=
  (lt_of_lt_of_le (mul_pos hf.pos hx) (hf.lower x hx.le)).ne'

theorem unitAt_first {ρ : K} {fl : K → K} (hr : Rounding fl) (hf : Accurate ρ fl) {close : K → K → Bool}
    (hrefl : ∀ x, close x x = true) {p n : ℕ} {U : List K} (hU : Clamped p n U)
    (hlt : knotFn U 0 < knotFn U (p + 1)) (hend : close (knotFn U 0) (knotFn U n) = false)
    (hx : let x := fl (knotFn U (p + 1) - knotFn U 0); fl (x * fl (1 / x)) = 1) :
    UnitAt fl close p n U (knotFn U 0) 0 := by
  have hm := monotone_knotFn hU.mono
  have h0 : fl 0 = 0 := by
    have := hr.neg 0
    rw [neg_zero] at this
    linarith
  have hp0 := hU.left p le_rfl
  obtain ⟨m, hs, hpm, hmn, h1, h2, h3⟩ := findSpanWith_regular (u := knotFn U 0) (close := close) hU.toKnotVector hrefl
    hp0.le (hm (Nat.zero_le _))
    (fun i hi _ he => by
      obtain rfl : i = p := by
        by_contra hne
        exact absurd (hm (by omega : p + 1 ≤ i)) (not_le.2 (he ▸ hlt))
      rw [hp0]; exact hlt)
    (fun h => by rw [hend] at h; cases h)
  obtain rfl : m = p := by
    by_contra hne
    exact absurd ((hm (by omega : p + 1 ≤ m)).trans h1) (not_le.2 hlt)
  have hlen := hU.len
  have hsz := hU.size
  obtain ⟨N, hN, hl, ha, hb⟩ := basisFunctionsFl_first (fl := fl) h0 hr.idem (U := U) (k := m) (p := m)
    (u := knotFn U 0) le_rfl (by omega) (fun j h1 h2 => hU.left _ (by omega))
    (fun j h1 h2 => fl_ne_zero hf (sub_pos.2 (lt_of_lt_of_le hlt (hm (by omega))))) hx
  exact ⟨m, 0, N, hs, le_rfl, hmn, hN, hl, Nat.zero_le _, by omega, ha, fun r hr1 hr2 => hb r (by omega) (by omega)⟩

theorem unitAt_last {ρ : K} {fl : K → K} (hr : Rounding fl) (hf : Accurate ρ fl) {close : K → K → Bool}
    (hrefl : ∀ x, close x x = true) {p n : ℕ} {U : List K} (hU : Clamped p n U)
    (hlt : knotFn U (n - 1) < knotFn U (n + p))
    (hx : let x := fl (knotFn U (n + p) - knotFn U (n - 1)); fl (x * fl (1 / x)) = 1) :
    UnitAt fl close p n U (knotFn U (n + p)) (n - 1) := by
  have hm := monotone_knotFn hU.mono
  have h0 : fl 0 = 0 := by
    have := hr.neg 0
    rw [neg_zero] at this
    linarith
  have hsz := hU.size
  have hn0 := hU.right n le_rfl (by omega)
  obtain ⟨m, hs, hpm, hmn, h1, h2, h3⟩ := findSpanWith_regular (u := knotFn U (n + p)) (close := close)
    hU.toKnotVector hrefl (hm (by omega)) hn0.ge
    (fun i _ hi he => absurd (hm (by omega : i ≤ n - 1)) (not_le.2 (he ▸ hlt))) (fun _ => hlt.le)
  obtain rfl : m = n - 1 := by
    by_contra hne
    exact absurd (h2.trans (hm (by omega : m + 1 ≤ n - 1))) (not_le.2 hlt)
  have hlen := hU.len
  obtain ⟨N, hN, hl, ha, hb⟩ := basisFunctionsFl_last (fl := fl) h0 hr.idem (U := U) (k := n - 1) (p := p)
    (u := knotFn U (n + p)) hpm (by omega) (fun j h1 h2 => hU.right _ (by omega) (by omega))
    (fun j h1 h2 => fl_ne_zero hf (sub_pos.2 (lt_of_le_of_lt (hm (by omega)) hlt))) hx
  exact ⟨n - 1, p, N, hs, hpm, hmn, hN, hl, le_rfl, by omega, ha, fun r hr1 hr2 => hb r (by omega)⟩

theorem UnitAt.curve {fl : K → K} (h0 : fl 0 = 0) {close : K → K → Bool} {p n d i : ℕ} {U : List K}
    {P : List (List K)} {u : K} (h : UnitAt fl close p n U u i) (hP : Shape P n d) (hd : 3 ≤ d) (hu0 : 0 ≤ u)
    (hu1 : u ≤ 1) (hdbl : ∀ c < 3, fl (coord P c i) = coord P c i) (pt : List K) :
    Curve.PointFl fl close ⟨p, P, U⟩ u pt ↔ pt = [coord P 0 i, coord P 1 i, coord P 2 i] := by
  obtain ⟨m, r0, N, hm, hpm, hmn, hN, hNl, hr0, rfl, ha, hb⟩ := h
  have hPl := hP.1
  have hsl : pySlice P ((m : ℤ) - p) ((m : ℤ) + 1) = (List.range (p + 1)).map fun r => P.getD (m - p + r) [] :=
    pySlice_nat P _ _ (m - p) (p + 1) [] (by omega) (by omega) (by omega)
  have hc : ∀ c < 3, ∀ r < p + 1, c < (P.getD (m - p + r) []).length := fun c hc r hr => by
    rw [hP.row (by omega)]; omega
  have hcol : ∀ c < 3, column (pySlice P ((m : ℤ) - p) ((m : ℤ) + 1)) ((c : ℕ) : ℤ)
      = .ok ((List.range (p + 1)).map fun r => coord P c (m - p + r)) := fun c h => by
    rw [hsl]; exact column_rows P _ _ c c rfl (hc c h)
  have hval : ∀ c < 3, ∀ s, DotFl fl (N.zip ((List.range (p + 1)).map fun r => coord P c (m - p + r))) s →
      s = coord P c (m - p + r0) := by
    intro c hc s hs
    have e : ((List.range (p + 1)).map fun r => coord P c (m - p + r)).getD r0 0 = coord P c (m - p + r0) := by
      simp [List.getD_eq_getElem?_getD, Nat.lt_succ_of_le hr0]
    rw [← e]
    exact hs.unit h0 hNl (by simp) (by omega) ha hb (by rw [e]; exact hdbl c hc)
  have hne : ∀ c, N.zip ((List.range (p + 1)).map fun r => coord P c (m - p + r)) ≠ [] := by
    intro c h
    have := congrArg List.length h
    simp [hNl] at this
  constructor
  · rintro ⟨span, funs, -, hspan, hfuns, col0, col1, col2, x, y, z, c0, c1, c2, -, dx, dy, dz, rfl⟩
    simp only [hPl] at hspan hfuns c0 c1 c2
    rw [hm] at hspan
    cases hspan
    rw [hN] at hfuns
    cases hfuns
    have a0 := (hcol 0 (by omega)).symm.trans c0
    have a1 := (hcol 1 (by omega)).symm.trans c1
    have a2 := (hcol 2 (by omega)).symm.trans c2
    cases a0
    cases a1
    cases a2
    rw [hval 0 (by omega) x dx, hval 1 (by omega) y dy, hval 2 (by omega) z dz]
  · rintro rfl
    obtain ⟨x, hx⟩ := DotFl.exists fl (hne 0)
    obtain ⟨y, hy⟩ := DotFl.exists fl (hne 1)
    obtain ⟨z, hz⟩ := DotFl.exists fl (hne 2)
    obtain rfl := hval 0 (by omega) x hx
    obtain rfl := hval 1 (by omega) y hy
    obtain rfl := hval 2 (by omega) z hz
    refine ⟨m, N, (validateKnot_iff u).2 ⟨hu0, hu1⟩, ?_, hN, _, _, _, _, _, _,
      hcol 0 (by omega), hcol 1 (by omega), hcol 2 (by omega), ?_, hx, hy, hz, rfl⟩
    · simpa [hPl] using hm
    · show N.length = (pySlice P ((m : ℤ) - p) ((m : ℤ) + 1)).length
      rw [hsl]; simp [hNl]

end

end PySpline
