import Verif.Model.Rounded
import Verif.Lemmas.Curve

/-!
# Error propagation in rounded arithmetic
-/

set_option linter.unusedSectionVars false

namespace PySpline

open Polynomial Spec

section
variable {K : Type} [Field K] [LinearOrder K] [IsStrictOrderedRing K]

/-- `a` is `b ≥ 0` up to `k` roundings: up to a factor between `ρ ^ k` and `1 / ρ ^ k`. -/
def Near (ρ : K) (k : ℕ) (a b : K) : Prop := 0 ≤ b ∧ b * ρ ^ k ≤ a ∧ a * ρ ^ k ≤ b

namespace Near
variable {ρ : K} {k l : ℕ} {a b c d : K}

theorem refl (h0 : 0 < ρ) (h1 : ρ ≤ 1) (k : ℕ) (hb : 0 ≤ b) : Near ρ k b b := by
  have : ρ ^ k ≤ 1 := pow_le_one₀ h0.le h1
  exact ⟨hb, mul_le_of_le_one_right hb this, mul_le_of_le_one_right hb this⟩

theorem nonneg (h0 : 0 < ρ) (h : Near ρ k a b) : 0 ≤ a :=
  (mul_nonneg h.1 (pow_pos h0 k).le).trans h.2.1

theorem pos (h0 : 0 < ρ) (h : Near ρ k a b) (hb : 0 < b) : 0 < a :=
  (mul_pos hb (pow_pos h0 k)).trans_le h.2.1

theorem mono (h0 : 0 < ρ) (h1 : ρ ≤ 1) (h : Near ρ k a b) (hkl : k ≤ l) : Near ρ l a b := by
  have : ρ ^ l ≤ ρ ^ k := pow_le_pow_of_le_one h0.le h1 hkl
  exact ⟨h.1, (mul_le_mul_of_nonneg_left this h.1).trans h.2.1,
    (mul_le_mul_of_nonneg_left this (h.nonneg h0)).trans h.2.2⟩

theorem add (h : Near ρ k a b) (h' : Near ρ k c d) : Near ρ k (a + c) (b + d) := by
  refine ⟨add_nonneg h.1 h'.1, ?_, ?_⟩
  · rw [add_mul]; exact add_le_add h.2.1 h'.2.1
  · rw [add_mul]; exact add_le_add h.2.2 h'.2.2

theorem mul (h0 : 0 < ρ) (h : Near ρ k a b) (h' : Near ρ l c d) : Near ρ (k + l) (a * c) (b * d) := by
  have pk := (pow_pos h0 k).le
  have pl := (pow_pos h0 l).le
  refine ⟨mul_nonneg h.1 h'.1, ?_, ?_⟩
  · calc b * d * ρ ^ (k + l) = (b * ρ ^ k) * (d * ρ ^ l) := by rw [pow_add]; ring
      _ ≤ a * c := mul_le_mul h.2.1 h'.2.1 (mul_nonneg h'.1 pl) (h.nonneg h0)
  · calc a * c * ρ ^ (k + l) = (a * ρ ^ k) * (c * ρ ^ l) := by rw [pow_add]; ring
      _ ≤ b * d := mul_le_mul h.2.2 h'.2.2 (mul_nonneg (h'.nonneg h0) pl) h.1

theorem div (h0 : 0 < ρ) (h : Near ρ k a b) (h' : Near ρ l c d) (hd : 0 < d) :
    Near ρ (k + l) (a / c) (b / d) := by
  have hc := h'.pos h0 hd
  have pk := (pow_pos h0 k).le
  have pl := (pow_pos h0 l).le
  refine ⟨div_nonneg h.1 hd.le, ?_, ?_⟩
  · rw [le_div_iff₀ hc, div_mul_eq_mul_div, div_mul_eq_mul_div, div_le_iff₀ hd]
    calc b * ρ ^ (k + l) * c = (b * ρ ^ k) * (c * ρ ^ l) := by rw [pow_add]; ring
      _ ≤ a * d := mul_le_mul h.2.1 h'.2.2 (mul_nonneg hc.le pl) (h.nonneg h0)
  · rw [le_div_iff₀ hd, div_mul_eq_mul_div, div_mul_eq_mul_div, div_le_iff₀ hc]
    calc a * ρ ^ (k + l) * d = (a * ρ ^ k) * (d * ρ ^ l) := by rw [pow_add]; ring
      _ ≤ b * c := mul_le_mul h.2.2 h'.2.1 (mul_nonneg hd.le pl) h.1

theorem fl {f : K → K} (hf : Accurate ρ f) (h : Near ρ k a b) : Near ρ (k + 1) (f a) b := by
  have ha := h.nonneg hf.pos
  have pk := (pow_pos hf.pos k).le
  refine ⟨h.1, ?_, ?_⟩
  · calc b * ρ ^ (k + 1) = ρ * (b * ρ ^ k) := by rw [pow_succ]; ring
      _ ≤ ρ * a := mul_le_mul_of_nonneg_left h.2.1 hf.pos.le
      _ ≤ f a := hf.lower a ha
  · calc f a * ρ ^ (k + 1) = (ρ * f a) * ρ ^ k := by rw [pow_succ]; ring
      _ ≤ a * ρ ^ k := mul_le_mul_of_nonneg_right (hf.upper a ha) pk
      _ ≤ b := h.2.2

/-- The absolute error. -/
theorem abs_sub_le (h0 : 0 < ρ) (h1 : ρ ≤ 1) (h : Near ρ k a b) : |a - b| ≤ ((1 / ρ) ^ k - 1) * b := by
  have pk := pow_pos h0 k
  have e : (1 / ρ) ^ k = 1 / ρ ^ k := one_div_pow ρ k
  have hle : ρ ^ k ≤ 1 := pow_le_one₀ h0.le h1
  have h2 : a ≤ 1 / ρ ^ k * b := by
    rw [div_mul_eq_mul_div, one_mul, le_div_iff₀ pk]
    exact h.2.2
  have h3 : 2 * b ≤ (1 / ρ ^ k) * b + ρ ^ k * b := by
    rw [← add_mul]
    refine mul_le_mul_of_nonneg_right ?_ h.1
    rw [← sub_nonneg]
    have : 1 / ρ ^ k + ρ ^ k - 2 = (1 - ρ ^ k) ^ 2 / ρ ^ k := by field_simp; ring
    rw [this]
    positivity
  rw [e, abs_le, sub_mul, one_mul]
  constructor <;> linarith [h.2.1, mul_comm b (ρ ^ k)]

end Near

/-- `basis_functions` in rounded arithmetic: every value is the exact one up to `6 p` roundings. -/
theorem basisFunctionsFl_near {ρ : K} {fl : K → K} (hf : Accurate ρ fl) {U : List K}
    (hU : Monotone (knotFn U)) {k p : ℕ} {u : K}
    (hp : p ≤ k) (hk : k + p < U.length) (hs : knotFn U k < knotFn U (k + 1))
    (h1 : knotFn U k ≤ u) (h2 : u ≤ knotFn U (k + 1)) :
    Returns (basisFunctionsFl fl (k : ℤ) u p U) fun N =>
      N.length = p + 1 ∧
        ∀ r ≤ p, Near ρ (6 * p) (N.getD r 0) ((piece (knotFn U) k p (k - p + r)).eval u) := by
  have p0 := hf.pos
  have p1 := hf.le_one
  unfold basisFunctionsFl
  set V := knotFn U with hV
  refine Returns.bind (P := fun st => st.1.length = p + 1 ∧
    ∀ r ≤ p, Near ρ (6 * p) (st.1.getD r 0) ((piece V k p (k - p + r)).eval u)) ?_ ?_
  swap
  · rintro ⟨N, left, right⟩ h
    exact Returns.ok h
  have key := Returns.forN (a := 1) (b := p + 1) (s := ((ones (p + 1) : List K), zeros (p + 1), zeros (p + 1)))
    (f := fun j (N, left, right) => do
      let a ← pyGet U ((k : ℤ) + 1 - j)
      let left ← pySet left j (fl (u - a))
      let b ← pyGet U ((k : ℤ) + j)
      let right ← pySet right j (fl (b - u))
      let (N, saved) ← forN 0 j (N, (0 : K)) fun r (N, saved) => do
        let nr ← pyGet N r
        let rr ← pyGet right ((r : ℤ) + 1)
        let lf ← pyGet left ((j : ℤ) - r)
        let temp ← pyDivFl fl nr (fl (rr + lf))
        let N ← pySet N r (fl (saved + fl (rr * temp)))
        .ok (N, fl (lf * temp))
      let N ← pySet N j saved
      .ok (N, left, right))
    (fun j st => st.1.length = p + 1 ∧ st.2.1.length = p + 1 ∧ st.2.2.length = p + 1 ∧
      (∀ r < j, Near ρ (6 * (j - 1)) (st.1.getD r 0) ((piece V k (j - 1) (k + 1 - j + r)).eval u)) ∧
      (∀ q, 1 ≤ q → q < j → Near ρ 1 (st.2.1.getD q 0) (u - V (k + 1 - q)) ∧
        Near ρ 1 (st.2.2.getD q 0) (V (k + q) - u)))
    (by omega) ?_ ?_
  · refine key.mono ?_
    rintro ⟨N, left, right⟩ ⟨h1, -, -, h4, -⟩
    refine ⟨h1, fun r hr => ?_⟩
    have := h4 r (by omega)
    simpa [show k + 1 - (p + 1) = k - p by omega] using this
  · refine ⟨by simp [ones], by simp [zeros], by simp [zeros], ?_, ?_⟩
    · intro r hr
      have : r = 0 := by omega
      subst this
      simpa [ones, piece] using Near.refl p0 p1 0 (zero_le_one (α := K))
    · intro q h1 h2; omega
  · rintro j ⟨N, left, right⟩ hj1 hj2 ⟨hN, hl, hr, hb, hlr⟩
    simp only at hN hl hr hb hlr ⊢
    rw [pyGet_knot U _ (k + 1 - j) (by omega) (by omega), ok_bind,
      pySet_nat left _ j _ rfl (by omega), ok_bind,
      pyGet_knot U _ (k + j) (by omega) (by omega), ok_bind,
      pySet_nat right _ j _ rfl (by omega), ok_bind]
    set left' := left.set j (fl (u - V (k + 1 - j))) with hleft'
    set right' := right.set j (fl (V (k + j) - u)) with hright'
    have hl' : left'.length = p + 1 := by simp [hleft', hl]
    have hr' : right'.length = p + 1 := by simp [hright', hr]
    have dl : ∀ q, 1 ≤ q → 0 ≤ u - V (k + 1 - q) := fun q hq =>
      sub_nonneg.2 ((hU (by omega)).trans h1)
    have dr : ∀ q, 1 ≤ q → 0 ≤ V (k + q) - u := fun q hq =>
      sub_nonneg.2 (h2.trans (hU (by omega)))
    have hlr' : ∀ q, 1 ≤ q → q < j + 1 → Near ρ 1 (left'.getD q 0) (u - V (k + 1 - q)) ∧
        Near ρ 1 (right'.getD q 0) (V (k + q) - u) := by
      intro q h1 h2
      rw [hleft', hright', getD_set _ _ _ _ _ (by omega), getD_set _ _ _ _ _ (by omega)]
      by_cases hq : q = j
      · subst hq
        rw [if_pos rfl, if_pos rfl]
        exact ⟨(Near.refl p0 p1 0 (dl q h1)).fl hf, (Near.refl p0 p1 0 (dr q h1)).fl hf⟩
      · simp only [if_neg hq]; exact hlr q h1 (by omega)
    refine Returns.bind (P := fun st => st.1.length = p + 1 ∧
      (∀ r < j, Near ρ (6 * j) (st.1.getD r 0) ((piece V k j (k - j + r)).eval u)) ∧
      Near ρ (6 * j) st.2 ((piece V k j k).eval u)) ?_ ?_
    · have inner := Returns.forN (a := 0) (b := j) (s := (N, (0 : K)))
        (f := fun r (N, saved) => do
          let nr ← pyGet N r
          let rr ← pyGet right' ((r : ℤ) + 1)
          let lf ← pyGet left' ((j : ℤ) - r)
          let temp ← pyDivFl fl nr (fl (rr + lf))
          let N ← pySet N r (fl (saved + fl (rr * temp)))
          .ok (N, fl (lf * temp)))
        (fun r st => st.1.length = p + 1 ∧
          (∀ q < r, Near ρ (6 * j) (st.1.getD q 0) ((piece V k j (k - j + q)).eval u)) ∧
          (∀ q, r ≤ q → q < j →
            Near ρ (6 * (j - 1)) (st.1.getD q 0) ((piece V k (j - 1) (k + 1 - j + q)).eval u)) ∧
          Near ρ (6 * (j - 1) + 5) st.2 (w V (j - 1) (k - j + r) * (u - V (k - j + r))
            * (piece V k (j - 1) (k - j + r)).eval u))
        (by omega) ?_ ?_
      · refine inner.mono ?_
        rintro ⟨N, saved⟩ ⟨h1, h2, -, h4⟩
        refine ⟨h1, h2, ?_⟩
        simp only at h4 ⊢
        obtain ⟨m, rfl⟩ : ∃ m, j = m + 1 := ⟨j - 1, by omega⟩
        have e : k - (m + 1) + (m + 1) = k := by omega
        rw [e] at h4
        rw [piece_succ, piece_eq_zero_of_lt V k m (k + 1) (by omega)]
        have := h4.mono p0 p1 (l := 6 * (m + 1)) (by omega)
        simpa [eval_mul, eval_sub] using this
      · refine ⟨hN, by intro q hq; omega, fun q _ hq => hb q hq, ?_⟩
        rw [piece_eq_zero_of_gt V k (j - 1) (k - j + 0) (by omega)]
        simpa using Near.refl p0 p1 (6 * (j - 1) + 5) (le_refl (0 : K))
      · rintro r ⟨N, saved⟩ - hrj ⟨h1, h2, h3, h4⟩
        simp only at h1 h2 h3 h4 ⊢
        rw [pyGet_nat N _ r 0 rfl (by omega), ok_bind,
          pyGet_nat right' _ (r + 1) 0 (by push_cast; rfl) (by omega), ok_bind,
          pyGet_nat left' _ (j - r) 0 (by omega) (by omega), ok_bind]
        have n1 := h3 r le_rfl hrj
        have n2 := (hlr' (r + 1) (by omega) (by omega)).2
        have n3 := (hlr' (j - r) (by omega) (by omega)).1
        have e1 : k + 1 - j + r = k - j + r + 1 := by omega
        have e2 : k + 1 - (j - r) = k - j + r + 1 := by omega
        have e3 : k + (r + 1) = k - j + r + 1 + (j - 1) + 1 := by omega
        rw [e1] at n1
        rw [e3] at n2
        rw [e2] at n3
        generalize N.getD r 0 = nr at *
        generalize right'.getD (r + 1) 0 = rr at *
        generalize left'.getD (j - r) 0 = lf at *
        have hd : V (k - j + r + 1) < V (k - j + r + 1 + (j - 1) + 1) :=
          lt_of_le_of_lt (hU (by omega : k - j + r + 1 ≤ k))
            (lt_of_lt_of_le hs (hU (by omega)))
        have e5 : V (k - j + r + 1 + (j - 1) + 1) - u + (u - V (k - j + r + 1))
            = V (k - j + r + 1 + (j - 1) + 1) - V (k - j + r + 1) := by ring
        have n4 := (n2.add n3).fl hf
        rw [e5] at n4
        have hd' := n4.pos p0 (sub_pos.2 hd)
        have n5 := (n1.div p0 n4 (sub_pos.2 hd)).fl hf
        unfold pyDivFl
        rw [pyDiv_ok hd'.ne', ok_bind, ok_bind, pySet_nat N _ r _ rfl (by omega), ok_bind]
        set temp := fl (nr / fl (rr + lf)) with htemp
        have n6 := ((n2.mul p0 n5).fl hf)
        have n7 := ((n3.mul p0 n5).fl hf)
        refine Returns.ok ⟨by simp [h1], ?_, ?_, ?_⟩
        · intro q hq
          rw [getD_set _ _ _ _ _ (by omega)]
          by_cases hqr : q = r
          · subst hqr
            rw [if_pos rfl]
            obtain ⟨m, rfl⟩ : ∃ m, j = m + 1 := ⟨j - 1, by omega⟩
            have n8 := ((h4.add (n6.mono p0 p1 (l := 6 * (m + 1 - 1) + 5) (by omega))).fl hf).mono p0 p1
              (l := 6 * (m + 1)) (by omega)
            refine (congrArg (Near ρ (6 * (m + 1)) _) ?_).mp n8
            rw [piece_succ]
            simp only [eval_add, eval_mul, eval_C, eval_sub, eval_X, w, Nat.add_sub_cancel]
            have e4 : k - (m + 1) + q + m + 2 = k - (m + 1) + q + 1 + m + 1 := by omega
            rw [e4]
            congr 1
            ring
          · rw [if_neg hqr]; exact h2 q (by omega)
        · intro q hq1 hq2
          rw [getD_set _ _ _ _ _ (by omega), if_neg (by omega)]
          exact h3 q (by omega) hq2
        · rw [← add_assoc (k - j) r 1]
          have n8 := n7.mono p0 p1 (l := 6 * (j - 1) + 5) (by omega)
          refine (congrArg (Near ρ (6 * (j - 1) + 5) _) ?_).mp n8
          unfold w
          ring
    · rintro ⟨N, saved⟩ ⟨h1, h2, h3⟩
      simp only at h1 h2 h3 ⊢
      rw [pySet_nat N _ j _ rfl (by omega), ok_bind]
      refine Returns.ok ⟨by simp [h1], hl', hr', ?_, hlr'⟩
      intro r hr
      show Near ρ (6 * (j + 1 - 1)) ((N.set j saved).getD r 0) _
      rw [getD_set _ _ _ _ _ (by omega)]
      have e : k + 1 - (j + 1) + r = k - j + r := by omega
      rw [e, Nat.add_sub_cancel]
      by_cases hrj : r = j
      · subst hrj; rw [if_pos rfl, show k - r + r = k by omega]; exact h3
      · rw [if_neg hrj]; exact h2 r (by omega)

/-! ## Sums of products -/

/-- The absolute error of one rounding. -/
theorem fl_abs_sub_le {ρ : K} {fl : K → K} (hr : Rounding fl) (hf : Accurate ρ fl) (x : K) :
    |fl x - x| ≤ (1 / ρ - 1) * |x| := by
  have key : ∀ x : K, 0 ≤ x → |fl x - x| ≤ (1 / ρ - 1) * x := by
    intro x hx
    have := ((Near.refl hf.pos hf.le_one 0 hx).fl hf).abs_sub_le hf.pos hf.le_one
    simpa using this
  rcases le_total 0 x with h | h
  · rw [abs_of_nonneg h]; exact key x h
  · have := key (-x) (by linarith)
    rw [hr.neg] at this
    rw [abs_of_nonpos h, abs_sub_comm]
    rwa [show -fl x - -x = x - fl x by ring] at this

/-- The exact sum of the products. -/
def dotSum (l : List (K × K)) : K := (l.map fun x => x.1 * x.2).sum

/-- The sum of the absolute values of the products. -/
def dotAbs (l : List (K × K)) : K := (l.map fun x => |x.1 * x.2|).sum

theorem abs_dotSum_le (l : List (K × K)) : |dotSum l| ≤ dotAbs l := by
  unfold dotSum dotAbs
  induction l with
  | nil => simp
  | cons x l ih =>
    simp only [List.map_cons, List.sum_cons]
    exact (abs_add_le _ _).trans (by linarith)

theorem dotAbs_nonneg (l : List (K × K)) : 0 ≤ dotAbs l := (abs_nonneg _).trans (abs_dotSum_le l)

theorem dotSum_append (l m : List (K × K)) : dotSum (l ++ m) = dotSum l + dotSum m := by
  simp [dotSum]

theorem dotAbs_append (l m : List (K × K)) : dotAbs (l ++ m) = dotAbs l + dotAbs m := by
  simp [dotAbs]

theorem dotSum_perm {l m : List (K × K)} (h : l.Perm m) : dotSum l = dotSum m := (h.map _).sum_eq

theorem dotAbs_perm {l m : List (K × K)} (h : l.Perm m) : dotAbs l = dotAbs m := (h.map _).sum_eq

theorem DotFl.length_pos {fl : K → K} {l : List (K × K)} {s : K} (h : DotFl fl l s) : 1 ≤ l.length := by
  induction h with
  | mul a b => simp
  | add h1 h2 i1 i2 => simp; omega
  | fma a b h i => simp
  | perm hp h i => rw [← hp.length_eq]; exact i

theorem DotFl.exists (fl : K → K) {l : List (K × K)} (h : l ≠ []) : ∃ s, DotFl fl l s := by
  induction l with
  | nil => exact absurd rfl h
  | cons x l ih =>
    by_cases hl : l = []
    · subst hl; exact ⟨_, .mul x.1 x.2⟩
    · obtain ⟨s, hs⟩ := ih hl
      exact ⟨_, .add (.mul x.1 x.2) hs⟩

/-- The error of a sum of `n` products, in whatever order it is computed. -/
theorem DotFl.error {ρ : K} {fl : K → K} (hr : Rounding fl) (hf : Accurate ρ fl) {l : List (K × K)} {s : K}
    (h : DotFl fl l s) : |s - dotSum l| ≤ ((1 / ρ) ^ l.length - 1) * dotAbs l := by
  have hg : 1 ≤ 1 / ρ := by rw [le_div_iff₀ hf.pos]; linarith [hf.le_one]
  have hpow : ∀ {a b : ℕ}, a ≤ b → (1 / ρ) ^ a ≤ (1 / ρ) ^ b := fun h => pow_le_pow_right₀ hg h
  induction h with
  | mul a b =>
    have := fl_abs_sub_le hr hf (a * b)
    simpa [dotSum, dotAbs] using this
  | @add l m s t h1 h2 i1 i2 =>
    have l1 := h1.length_pos
    have l2 := h2.length_pos
    rw [dotSum_append, dotAbs_append, List.length_append]
    set g := 1 / ρ
    have A := dotAbs_nonneg l
    have B := dotAbs_nonneg m
    have e1 : |s + t| ≤ g ^ l.length * dotAbs l + g ^ m.length * dotAbs m := by
      have a1 : |s| ≤ |s - dotSum l| + |dotSum l| := by
        have := abs_add_le (s - dotSum l) (dotSum l); rwa [sub_add_cancel] at this
      have a2 : |t| ≤ |t - dotSum m| + |dotSum m| := by
        have := abs_add_le (t - dotSum m) (dotSum m); rwa [sub_add_cancel] at this
      have := abs_add_le s t
      have := abs_dotSum_le l
      have := abs_dotSum_le m
      linarith
    have e2 := fl_abs_sub_le hr hf (s + t)
    have e3 : |fl (s + t) - (dotSum l + dotSum m)| ≤
        |fl (s + t) - (s + t)| + (|s - dotSum l| + |t - dotSum m|) := by
      have a1 := abs_add_le (fl (s + t) - (s + t)) ((s - dotSum l) + (t - dotSum m))
      have a2 := abs_add_le (s - dotSum l) (t - dotSum m)
      rw [show fl (s + t) - (s + t) + ((s - dotSum l) + (t - dotSum m))
        = fl (s + t) - (dotSum l + dotSum m) by ring] at a1
      linarith
    have e4 : (g - 1) * |s + t| ≤ (g - 1) * (g ^ l.length * dotAbs l + g ^ m.length * dotAbs m) :=
      mul_le_mul_of_nonneg_left e1 (by linarith)
    have e5 : g ^ (l.length + 1) * dotAbs l ≤ g ^ (l.length + m.length) * dotAbs l :=
      mul_le_mul_of_nonneg_right (hpow (by omega)) A
    have e6 : g ^ (m.length + 1) * dotAbs m ≤ g ^ (l.length + m.length) * dotAbs m :=
      mul_le_mul_of_nonneg_right (hpow (by omega)) B
    rw [pow_succ] at e5 e6
    nlinarith
  | @fma l s a b h i =>
    have l1 := h.length_pos
    rw [dotSum_append, dotAbs_append, List.length_append]
    set g := 1 / ρ
    have A := dotAbs_nonneg l
    have d1 : dotSum [(a, b)] = a * b := by simp [dotSum]
    have d2 : dotAbs [(a, b)] = |a * b| := by simp [dotAbs]
    rw [d1, d2]
    have B := abs_nonneg (a * b)
    have e1 : |s + a * b| ≤ g ^ l.length * dotAbs l + |a * b| := by
      have a1 : |s| ≤ |s - dotSum l| + |dotSum l| := by
        have := abs_add_le (s - dotSum l) (dotSum l); rwa [sub_add_cancel] at this
      have := abs_add_le s (a * b)
      have := abs_dotSum_le l
      linarith
    have e2 := fl_abs_sub_le hr hf (s + a * b)
    have e3 : |fl (s + a * b) - (dotSum l + a * b)| ≤
        |fl (s + a * b) - (s + a * b)| + |s - dotSum l| := by
      have a1 := abs_add_le (fl (s + a * b) - (s + a * b)) (s - dotSum l)
      rwa [show fl (s + a * b) - (s + a * b) + (s - dotSum l)
        = fl (s + a * b) - (dotSum l + a * b) by ring] at a1
    have e4 : (g - 1) * |s + a * b| ≤ (g - 1) * (g ^ l.length * dotAbs l + |a * b|) :=
      mul_le_mul_of_nonneg_left e1 (by linarith)
    have e6 : g ^ 1 * |a * b| ≤ g ^ (l.length + 1) * |a * b| :=
      mul_le_mul_of_nonneg_right (hpow (by omega)) B
    have e7 : [(a, b)].length = 1 := rfl
    rw [pow_one] at e6
    rw [e7]
    rw [pow_succ] at e6 ⊢
    nlinarith
  | perm hp h i => rw [← dotSum_perm hp, ← dotAbs_perm hp, ← hp.length_eq]; exact i

/-- `x` is `y` up to `k` roundings of numbers of size at most `B`. -/
def Approx (g : K) (k : ℕ) (x y B : K) : Prop := |y| ≤ B ∧ |x - y| ≤ (g ^ k - 1) * B

namespace Approx
variable {g : K} {k l : ℕ} {x y x' y' B B' : K}

theorem nonneg (h : Approx g k x y B) : 0 ≤ B := (abs_nonneg _).trans h.1

theorem abs_le (h : Approx g k x y B) : |x| ≤ g ^ k * B := by
  have := abs_add_le (x - y) y
  rw [sub_add_cancel] at this
  linarith [h.1, h.2]

theorem refl (hg : 1 ≤ g) (k : ℕ) (x : K) : Approx g k x x |x| := by
  refine ⟨le_rfl, ?_⟩
  rw [sub_self, abs_zero]
  exact mul_nonneg (sub_nonneg.2 (one_le_pow₀ hg)) (abs_nonneg _)

theorem mul (hg : 1 ≤ g) (h : Approx g k x y B) (h' : Approx g l x' y' B') :
    Approx g (k + l) (x * x') (y * y') (B * B') := by
  refine ⟨by rw [abs_mul]; exact mul_le_mul h.1 h'.1 (abs_nonneg _) h.nonneg, ?_⟩
  have e : x * x' - y * y' = (x - y) * x' + y * (x' - y') := by ring
  have h1 : |(x - y) * x'| ≤ ((g ^ k - 1) * B) * (g ^ l * B') := by
    rw [abs_mul]
    exact mul_le_mul h.2 h'.abs_le (abs_nonneg _)
      (mul_nonneg (sub_nonneg.2 (one_le_pow₀ hg)) h.nonneg)
  have h2 : |y * (x' - y')| ≤ B * ((g ^ l - 1) * B') := by
    rw [abs_mul]
    exact mul_le_mul h.1 h'.2 (abs_nonneg _) h.nonneg
  rw [e]
  refine (abs_add_le _ _).trans ((add_le_add h1 h2).trans (le_of_eq ?_))
  rw [pow_add]
  ring

theorem sum {n : ℕ} {x y B : ℕ → K} (h : ∀ r < n, Approx g k (x r) (y r) (B r)) :
    Approx g k (∑ r ∈ Finset.range n, x r) (∑ r ∈ Finset.range n, y r)
      (∑ r ∈ Finset.range n, B r) := by
  refine ⟨(Finset.abs_sum_le_sum_abs _ _).trans
    (Finset.sum_le_sum fun r hr => (h r (Finset.mem_range.1 hr)).1), ?_⟩
  rw [← Finset.sum_sub_distrib, Finset.mul_sum]
  exact (Finset.abs_sum_le_sum_abs _ _).trans
    (Finset.sum_le_sum fun r hr => (h r (Finset.mem_range.1 hr)).2)

end Approx

theorem Near.approx {ρ : K} (h0 : 0 < ρ) (h1 : ρ ≤ 1) {k : ℕ} {a b : K} (h : Near ρ k a b) :
    Approx (1 / ρ) k a b b :=
  ⟨(abs_of_nonneg h.1).le, h.abs_sub_le h0 h1⟩

theorem Accurate.one_le {ρ : K} {fl : K → K} (hf : Accurate ρ fl) : 1 ≤ 1 / ρ := by
  rw [le_div_iff₀ hf.pos]; linarith [hf.le_one]

theorem zip_eq_map_range {a c : List K} {n : ℕ} (ha : a.length = n) (hc : c.length = n) :
    a.zip c = (List.range n).map fun r => (a.getD r 0, c.getD r 0) := by
  refine List.ext_getElem (by simp [ha, hc]) fun r h1 h2 => ?_
  have h3 : r < a.length := by simp at h1; omega
  have h4 : r < c.length := by simp at h1; omega
  simp [List.getD_eq_getElem?_getD, List.getElem?_eq_getElem h3, List.getElem?_eq_getElem h4]

/-- The error of a sum of products whose factors are themselves computed. -/
theorem DotFl.approx {ρ : K} {fl : K → K} (hr : Rounding fl) (hf : Accurate ρ fl) {n k : ℕ}
    {a c : List K} {y B : ℕ → K} (ha : a.length = n) (hc : c.length = n)
    (h : ∀ r < n, Approx (1 / ρ) k (a.getD r 0 * c.getD r 0) (y r) (B r)) {s : K}
    (hs : DotFl fl (a.zip c) s) :
    Approx (1 / ρ) (k + n) s (∑ r ∈ Finset.range n, y r) (∑ r ∈ Finset.range n, B r) := by
  have hsum := Approx.sum h
  refine ⟨hsum.1, ?_⟩
  have h1 := hs.error hr hf
  rw [zip_eq_map_range ha hc] at h1
  have e1 : dotSum ((List.range n).map fun r => (a.getD r 0, c.getD r 0))
      = ∑ r ∈ Finset.range n, a.getD r 0 * c.getD r 0 := by
    rw [dotSum, List.map_map, ← sum_map_range]; rfl
  have e2 : dotAbs ((List.range n).map fun r => (a.getD r 0, c.getD r 0))
      = ∑ r ∈ Finset.range n, |a.getD r 0 * c.getD r 0| := by
    rw [dotAbs, List.map_map, ← sum_map_range]; rfl
  rw [e1, e2, List.length_map, List.length_range] at h1
  have h3 : ∑ r ∈ Finset.range n, |a.getD r 0 * c.getD r 0| ≤
      (1 / ρ) ^ k * ∑ r ∈ Finset.range n, B r := by
    rw [Finset.mul_sum]
    exact Finset.sum_le_sum fun r hr => (h r (Finset.mem_range.1 hr)).abs_le
  have h4 := mul_le_mul_of_nonneg_left h3 (sub_nonneg.2 (one_le_pow₀ hf.one_le (n := n)))
  have h5 := abs_add_le (s - ∑ r ∈ Finset.range n, a.getD r 0 * c.getD r 0)
    (∑ r ∈ Finset.range n, a.getD r 0 * c.getD r 0 - ∑ r ∈ Finset.range n, y r)
  rw [sub_add_sub_cancel] at h5
  rw [pow_add]
  nlinarith [hsum.2]

/-! ## The span -/

/-- `find_span` with another end test that is reflexive and does not fire left of the last span. -/
theorem findSpanWith_regular {p n : ℕ} {U : List K} {u : K} {close : K → K → Bool} (hU : KnotVector p n U)
    (hrefl : ∀ x, close x x = true) (hlo : knotFn U p ≤ u) (hhi : u ≤ knotFn U n)
    (hsimple : ∀ i, p ≤ i → i < n → u = knotFn U i → knotFn U i < knotFn U (i + 1))
    (hlast : close u (knotFn U n) = true → knotFn U (n - 1) ≤ u) :
    ∃ m : ℕ, findSpanWith close (spanFuel n p) n p u U = .ok (m : ℤ) ∧ p ≤ m ∧ m < n ∧
      knotFn U m ≤ u ∧ u ≤ knotFn U (m + 1) ∧ knotFn U m < knotFn U (m + 1) := by
  have hV := monotone_knotFn hU.mono
  have hlen := hU.len
  have hpn := hU.size
  have hn : n < U.length := by omega
  have hlo' := hlo
  have hhi' := hhi
  rw [knotFn_eq (by omega)] at hlo' hhi'
  obtain ⟨k, hk⟩ := find_span_terminates close hrefl (n + p + 1) n p u U hpn hn hlo' hhi'
    (by have := Nat.lt_two_pow_self (n := n + p + 1); omega)
  obtain ⟨m, rfl, h2, h3, h4⟩ := find_span_brackets _ hrefl _ n p u U hpn hn hhi' k hk
  have h5 : knotFn U m ≤ u ∧ u ≤ knotFn U (m + 1) := by
    rcases h4 with ⟨h, h5, h6⟩ | ⟨h5, rfl⟩
    · rw [knotFn_eq h, knotFn_eq (by omega)]; exact ⟨h5, h6⟩
    · rw [← knotFn_eq hn] at h5
      refine ⟨hlast h5, ?_⟩
      rwa [show n - 1 + 1 = n by omega]
  refine ⟨m, hk, h2, by omega, h5.1, h5.2, ?_⟩
  refine lt_of_le_of_ne (hV (by omega)) fun he => ?_
  exact absurd (hsimple m h2 (by omega) (le_antisymm (h5.2.trans he.symm.le) h5.1))
    (by rw [he]; exact lt_irrefl _)

end

end PySpline
