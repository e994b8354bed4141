import Verif.Lemmas.Refine
import Verif.Lemmas.Marsden
import Mathlib.Algebra.Polynomial.Roots
import Mathlib.Order.Interval.Set.Infinite

/-!
# Zeros of splines and the theorem of Schoenberg and Whitney
-/

set_option linter.unusedSectionVars false

namespace PySpline

open Spec Finset Polynomial

variable {K : Type} [Field K] [LinearOrder K] [IsStrictOrderedRing K]

/-- From a sequence with `r` adjacent sign changes an alternating subsequence of length `r + 1` can be chosen. -/
theorem exists_alternating (v : ℕ → K) (M : ℕ) (hne : ∀ j ≤ M, v j ≠ 0) :
    ∃ i : ℕ → ℕ, (∀ j < ((range M).filter fun j => v j * v (j + 1) < 0).card, i j < i (j + 1) ∧
        v (i j) * v (i (j + 1)) < 0) ∧
      (∀ j ≤ ((range M).filter fun j => v j * v (j + 1) < 0).card, i j ≤ M) ∧
      0 < v (i ((range M).filter fun j => v j * v (j + 1) < 0).card) * v M := by
  induction M with
  | zero => exact ⟨fun _ => 0, by simp, by simp, mul_self_pos.2 (hne 0 le_rfl)⟩
  | succ M ih =>
    obtain ⟨i, h1, h2, h3⟩ := ih fun j hj => hne j (by omega)
    set r := ((range M).filter fun j => v j * v (j + 1) < 0).card with hr
    rw [range_add_one, filter_insert]
    by_cases h : v M * v (M + 1) < 0
    · rw [if_pos h, card_insert_of_notMem (by simp), ← hr]
      refine ⟨fun j => if j ≤ r then i j else M + 1, fun j hj => ?_, fun j hj => ?_, ?_⟩
      · dsimp only
        rw [if_pos (by omega)]
        split
        · exact h1 j (by omega)
        · have : j = r := by omega
          subst this
          refine ⟨by have := h2 r le_rfl; omega, ?_⟩
          rcases mul_pos_iff.1 h3 with ⟨a, b⟩ | ⟨a, b⟩
          · exact mul_neg_of_pos_of_neg a (by
              by_contra hc
              nlinarith [not_lt.1 hc])
          · exact mul_neg_of_neg_of_pos a (by
              by_contra hc
              nlinarith [not_lt.1 hc])
      · dsimp only
        split
        · have := h2 j (by omega); omega
        · exact le_rfl
      · dsimp only
        rw [if_neg (by omega)]
        exact mul_self_pos.2 (hne _ le_rfl)
    · rw [if_neg h, ← hr]
      refine ⟨i, h1, fun j hj => (h2 j hj).trans (Nat.le_succ M), ?_⟩
      have hpos : 0 < v M * v (M + 1) :=
        lt_of_le_of_ne (not_lt.1 h) (mul_ne_zero (hne M (by omega)) (hne (M + 1) le_rfl)).symm
      rcases mul_pos_iff.1 hpos with ⟨a, b⟩ | ⟨a, b⟩
      · exact mul_pos ((pos_iff_pos_of_mul_pos h3).2 a) b
      · exact mul_pos_of_neg_of_neg (by
          by_contra hc
          nlinarith [not_lt.1 hc]) b

/-- Basis functions are positive inside their support. -/
theorem N_pos {V : ℕ → K} (hV : Monotone V) (p : ℕ) : ∀ i u, (V i < u ∨ (V i = u ∧ V (i + p) = u)) →
    u < V (i + p + 1) → 0 < N V p i u := by
  induction p with
  | zero =>
    intro i u h1 h2
    unfold N
    have h3 : V i ≤ u := by
      rcases h1 with h | h
      · exact h.le
      · exact h.1.le
    rw [if_pos ⟨h3, h2⟩]
    exact one_pos
  | succ p ih =>
    intro i u h1 h2
    unfold N
    have n1 := N_nonneg hV p i u
    have n2 := N_nonneg hV p (i + 1) u
    have hle : V i ≤ u := by
      rcases h1 with h | h
      · exact h.le
      · exact h.1.le
    have d1 : 0 ≤ V (i + p + 1) - V i := sub_nonneg.2 (hV (by omega))
    have d2 : 0 ≤ V (i + p + 2) - V (i + 1) := sub_nonneg.2 (hV (by omega))
    have h2' : u < V (i + p + 2) := h2
    have t1 : 0 ≤ (u - V i) / (V (i + p + 1) - V i) * N V p i u :=
      mul_nonneg (div_nonneg (by linarith) d1) n1
    have t2 : 0 ≤ (V (i + p + 2) - u) / (V (i + p + 2) - V (i + 1)) * N V p (i + 1) u :=
      mul_nonneg (div_nonneg (by linarith) d2) n2
    by_cases hu : u < V (i + p + 1)
    · rcases h1 with h | h
      · have := ih i u (.inl h) hu
        have : 0 < (u - V i) / (V (i + p + 1) - V i) * N V p i u :=
          mul_pos (div_pos (by linarith) (by linarith)) this
        linarith
      · rw [show i + (p + 1) = i + p + 1 by omega] at h
        linarith [h.2]
    · have h3 : V (i + 1) ≤ u := (hV (by omega)).trans (not_lt.1 hu)
      have : 0 < N V p (i + 1) u := by
        refine ih (i + 1) u ?_ (by rwa [show i + 1 + p + 1 = i + p + 2 by omega])
        rcases h3.eq_or_lt with h | h
        · refine .inr ⟨h, le_antisymm ?_ ?_⟩
          · rw [show i + 1 + p = i + p + 1 by omega]; exact not_lt.1 hu
          · rw [← h]; exact hV (by omega)
        · exact .inl h
      have : 0 < (V (i + p + 2) - u) / (V (i + p + 2) - V (i + 1)) * N V p (i + 1) u :=
        mul_pos (div_pos (by linarith) (by linarith)) this
      linarith

section
variable {p n : ℕ} {U : List K}

theorem curve_sub (c d : ℕ → K) (e u : K) :
    curve (knotFn U) p n (fun i => c i - e * d i) u = curve (knotFn U) p n c u - e * curve (knotFn U) p n d u := by
  unfold curve
  rw [mul_sum, ← sum_sub_distrib]
  exact sum_congr rfl fun i _ => by ring

theorem curve_neg (c : ℕ → K) (u : K) : curve (knotFn U) p n (fun i => - c i) u = - curve (knotFn U) p n c u := by
  unfold curve
  rw [← sum_neg_distrib]
  exact sum_congr rfl fun i _ => by ring

theorem Nclosed_nonneg' (hU : Clamped p n U) (i : ℕ) (u : K) : 0 ≤ Nclosed (knotFn U) p n i u := by
  unfold Nclosed
  split
  · split
    · exact zero_le_one
    · exact le_rfl
  · exact N_nonneg (monotone_knotFn hU.mono) p i u

theorem curve_indicator (hU : Clamped p n U) (A B : ℕ) {u : K} (h1 : knotFn U p ≤ u) (h2 : u ≤ knotFn U n) :
    0 ≤ curve (knotFn U) p n (fun i => if A ≤ i ∧ i < B then 1 else 0) u ∧
      curve (knotFn U) p n (fun i => if A ≤ i ∧ i < B then 1 else 0) u ≤ 1 := by
  unfold curve
  refine ⟨sum_nonneg fun i _ => ?_, ?_⟩
  · dsimp only
    split
    · rw [one_mul]; exact Nclosed_nonneg' hU i u
    · rw [zero_mul]
  · refine (sum_le_sum fun i _ => ?_).trans (sum_Nclosed hU h1 h2).le
    dsimp only
    split
    · rw [one_mul]
    · rw [zero_mul]; exact Nclosed_nonneg' hU i u

/-- A lower bound for finitely many positive numbers. -/
theorem exists_pos_lt (f : ℕ → K) (m : ℕ) (h : ∀ j ≤ m, 0 < f j) : ∃ e, 0 < e ∧ ∀ j ≤ m, e < f j := by
  induction m with
  | zero =>
    have := h 0 le_rfl
    exact ⟨f 0 / 2, by linarith, fun j hj => by rw [show j = 0 by omega]; linarith⟩
  | succ m ih =>
    obtain ⟨e, h1, h2⟩ := ih fun j hj => h j (by omega)
    have := h (m + 1) le_rfl
    refine ⟨min e (f (m + 1) / 2), lt_min h1 (by linarith), fun j hj => ?_⟩
    rcases hj.eq_or_lt with rfl | hj
    · exact (min_le_right _ _).trans_lt (by linarith)
    · exact (min_le_left _ _).trans_lt (h2 j (by omega))

/-- Half of the bound on the number of zeros: enough positive values beside the zeros. -/
theorem zeros_lt_of_pos (hU : Clamped p n U) (hp : 1 ≤ p) (c : ℕ → K) {A B m : ℕ}
    (hc : ∀ i, i < A ∨ B ≤ i → c i = 0) (z x : ℕ → K) (hxz : ∀ l < m, x l < z l ∧ z l < x (l + 1))
    (h0 : knotFn U 0 ≤ x 0) (h1 : x m ≤ knotFn U (n + p)) (hz : ∀ l < m, curve (knotFn U) p n c (z l) = 0)
    (hx : ∀ l ≤ m, curve (knotFn U) p n c (x l) ≠ 0)
    (hg : ∀ l < m, 0 < curve (knotFn U) p n (fun i => if A ≤ i ∧ i < B then 1 else 0) (z l))
    (hcount : m ≤ ((range m).filter fun l => 0 < curve (knotFn U) p n c (x l)).card
      + ((range m).filter fun l => 0 < curve (knotFn U) p n c (x (l + 1))).card) : m < B - A := by
  have hn := hU.right n le_rfl (by omega)
  have hp0 := hU.left p le_rfl
  obtain ⟨e, e0, he⟩ := exists_pos_lt (fun l => |curve (knotFn U) p n c (x l)|) m fun l hl => abs_pos.2 (hx l hl)
  -- the sample points
  set pts : ℕ → K := fun j => if j % 2 = 0 then x (j / 2) else z (j / 2) with hpts
  set d : ℕ → K := fun i => c i - e * (if A ≤ i ∧ i < B then 1 else 0) with hd
  have pE : ∀ l, pts (2 * l) = x l := fun l => by
    simp [hpts]
  have pO : ∀ l, pts (2 * l + 1) = z l := fun l => by
    simp [hpts, Nat.mul_add_div]
  have hstep : ∀ j < 2 * m, pts j < pts (j + 1) := by
    intro j hj
    rcases Nat.even_or_odd' j with ⟨l, rfl | rfl⟩
    · rw [pE, pO]; exact (hxz l (by omega)).1
    · rw [pO, show 2 * l + 1 + 1 = 2 * (l + 1) by omega, pE]; exact (hxz l (by omega)).2
  have hmono : ∀ j, j ≤ 2 * m → knotFn U 0 ≤ pts j := by
    intro j
    induction j with
    | zero => intro _; rw [show (0 : ℕ) = 2 * 0 by rfl, pE]; exact h0
    | succ j ih => exact fun hj => (ih (by omega)).trans (hstep j (by omega)).le
  have hmono' : ∀ j, j ≤ 2 * m → pts (2 * m - j) ≤ knotFn U (n + p) := by
    intro j
    induction j with
    | zero => intro _; rw [Nat.sub_zero, pE]; exact h1
    | succ j ih =>
      intro hj
      have := hstep (2 * m - (j + 1)) (by omega)
      rw [show 2 * m - (j + 1) + 1 = 2 * m - j by omega] at this
      exact this.le.trans (ih (by omega))
  have hdom : ∀ j ≤ 2 * m, knotFn U p ≤ pts j ∧ pts j ≤ knotFn U n := by
    intro j hj
    refine ⟨hp0 ▸ hmono j hj, hn ▸ ?_⟩
    have := hmono' (2 * m - j) (by omega)
    rwa [show 2 * m - (2 * m - j) = j by omega] at this
  set v : ℕ → K := fun j => curve (knotFn U) p n d (pts j) with hv
  have vO : ∀ l < m, v (2 * l + 1) < 0 := by
    intro l hl
    simp only [hv, hd]
    rw [curve_sub, pO, hz l hl]
    have := mul_pos e0 (hg l hl)
    linarith
  have vpos : ∀ l ≤ m, 0 < curve (knotFn U) p n c (x l) → 0 < v (2 * l) := by
    intro l hl h
    simp only [hv, hd]
    rw [curve_sub, pE]
    have h3 := he l hl
    have h4 := curve_indicator hU A B (hdom (2 * l) (by omega)).1 (hdom (2 * l) (by omega)).2
    rw [pE] at h4
    rw [abs_of_pos h] at h3
    nlinarith [h4.1, h4.2]
  have vneg : ∀ l ≤ m, ¬ 0 < curve (knotFn U) p n c (x l) → v (2 * l) < 0 := by
    intro l hl h
    have h' := lt_of_le_of_ne (not_lt.1 h) (hx l hl)
    simp only [hv, hd]
    rw [curve_sub, pE]
    have h4 := curve_indicator hU A B (hdom (2 * l) (by omega)).1 (hdom (2 * l) (by omega)).2
    rw [pE] at h4
    nlinarith [h4.1, h4.2]
  have vne : ∀ j ≤ 2 * m, v j ≠ 0 := by
    intro j hj
    rcases Nat.even_or_odd' j with ⟨l, rfl | rfl⟩
    · by_cases h : 0 < curve (knotFn U) p n c (x l)
      · exact (vpos l (by omega) h).ne'
      · exact (vneg l (by omega) h).ne
    · exact (vO l (by omega)).ne
  obtain ⟨i, i1, i2, -⟩ := exists_alternating v (2 * m) vne
  set r := ((range (2 * m)).filter fun j => v j * v (j + 1) < 0).card with hr
  have hmr : m ≤ r := by
    refine hcount.trans ?_
    have inj1 : Function.Injective fun l : ℕ => 2 * l := fun a b h => by dsimp only at h; omega
    have inj2 : Function.Injective fun l : ℕ => 2 * l + 1 := fun a b h => by dsimp only at h; omega
    rw [← card_image_of_injective ((range m).filter fun l => 0 < curve (knotFn U) p n c (x l)) inj1,
      ← card_image_of_injective ((range m).filter fun l => 0 < curve (knotFn U) p n c (x (l + 1))) inj2, hr,
      ← card_union_of_disjoint]
    · refine card_le_card fun j hj => ?_
      rw [mem_union, mem_image, mem_image] at hj
      rw [mem_filter, mem_range]
      rcases hj with ⟨l, hl, rfl⟩ | ⟨l, hl, rfl⟩
      · rw [mem_filter, mem_range] at hl
        exact ⟨by omega, mul_neg_of_pos_of_neg (vpos l (by omega) hl.2) (vO l hl.1)⟩
      · rw [mem_filter, mem_range] at hl
        refine ⟨by omega, ?_⟩
        rw [show 2 * l + 1 + 1 = 2 * (l + 1) by omega]
        exact mul_neg_of_neg_of_pos (vO l hl.1) (vpos (l + 1) (by omega) hl.2)
    · rw [Finset.disjoint_left]
      intro j h3 h4
      rw [mem_image] at h3 h4
      obtain ⟨a, -, rfl⟩ := h3
      obtain ⟨b, -, hb⟩ := h4
      omega
  have hmono2 : ∀ j l, j < l → l ≤ 2 * m → pts j < pts l := by
    intro j l hjl hl
    induction l, hjl using Nat.le_induction with
    | base => exact hstep j (by omega)
    | succ l hjl ih => exact (ih (by omega)).trans (hstep l (by omega))
  obtain ⟨q, q1, q2⟩ := curve_signs hU hp d (fun j => pts (i j)) r
    (fun j hj => hmono2 _ _ (i1 j hj).1 (i2 (j + 1) hj)) (hmono _ (i2 0 (by omega)))
    (by rw [← hn]; exact (hdom _ (i2 r le_rfl)).2) (vne _ (i2 0 (by omega))) (fun j hj => (i1 j hj).2)
  have hq : ∀ j ≤ r, A ≤ q j ∧ q j < B := by
    intro j hj
    by_contra hcon
    have h3 := (q2 j hj).2
    have : d (q j) = 0 := by
      simp only [hd]
      rw [hc (q j) (by omega), if_neg hcon]
      ring
    rw [this, zero_mul] at h3
    exact lt_irrefl _ h3
  have hq' : ∀ j ≤ r, A + j ≤ q j := by
    intro j
    induction j with
    | zero => exact fun h => (hq 0 h).1
    | succ j ih =>
      intro hj
      have := ih (by omega)
      have := q1 j (by omega)
      omega
  have := hq' r le_rfl
  have := hq r le_rfl
  omega

/-- A spline with `B - A` coefficients has less than `B - A` zeros, if it does not vanish between them. -/
theorem zeros_lt (hU : Clamped p n U) (hp : 1 ≤ p) (c : ℕ → K) {A B m : ℕ}
    (hc : ∀ i, i < A ∨ B ≤ i → c i = 0) (z x : ℕ → K) (hxz : ∀ l < m, x l < z l ∧ z l < x (l + 1))
    (h0 : knotFn U 0 ≤ x 0) (h1 : x m ≤ knotFn U (n + p)) (hz : ∀ l < m, curve (knotFn U) p n c (z l) = 0)
    (hx : ∀ l ≤ m, curve (knotFn U) p n c (x l) ≠ 0)
    (hg : ∀ l < m, 0 < curve (knotFn U) p n (fun i => if A ≤ i ∧ i < B then 1 else 0) (z l)) : m < B - A := by
  have split1 := card_filter_add_card_filter_not (s := range m) (fun l => 0 < curve (knotFn U) p n c (x l))
  have split2 := card_filter_add_card_filter_not (s := range m) (fun l => 0 < curve (knotFn U) p n c (x (l + 1)))
  rw [card_range] at split1 split2
  by_cases h : m ≤ ((range m).filter fun l => 0 < curve (knotFn U) p n c (x l)).card
      + ((range m).filter fun l => 0 < curve (knotFn U) p n c (x (l + 1))).card
  · exact zeros_lt_of_pos hU hp c hc z x hxz h0 h1 hz hx hg h
  · refine zeros_lt_of_pos hU hp (fun i => - c i) (fun i hi => by rw [hc i hi, neg_zero]) z x hxz h0 h1
      (fun l hl => by rw [curve_neg, hz l hl, neg_zero]) (fun l hl => by rw [curve_neg]; exact neg_ne_zero.2 (hx l hl))
      hg ?_
    have e1 : ((range m).filter fun l => 0 < curve (knotFn U) p n (fun i => - c i) (x l))
        = (range m).filter fun l => ¬ 0 < curve (knotFn U) p n c (x l) := by
      refine filter_congr fun l hl => ?_
      rw [curve_neg, neg_pos, not_lt]
      exact ⟨le_of_lt, fun h => lt_of_le_of_ne h (hx l (by have := mem_range.1 hl; omega))⟩
    have e2 : ((range m).filter fun l => 0 < curve (knotFn U) p n (fun i => - c i) (x (l + 1)))
        = (range m).filter fun l => ¬ 0 < curve (knotFn U) p n c (x (l + 1)) := by
      refine filter_congr fun l hl => ?_
      rw [curve_neg, neg_pos, not_lt]
      exact ⟨le_of_lt, fun h => lt_of_le_of_ne h (hx (l + 1) (by have := mem_range.1 hl; omega))⟩
    rw [e1, e2]
    omega

/-- On a span whose coefficients do not all vanish, the spline does not vanish on any interval. -/
theorem exists_ne_zero (hU : Clamped p n U) (c : ℕ → K) {k : ℕ} (hk : p ≤ k) (hkn : k < n) {a b : K} (hab : a < b)
    (ha : knotFn U k ≤ a) (hb : b ≤ knotFn U (k + 1)) (hc : ∃ i, k ≤ i + p ∧ i ≤ k ∧ c i ≠ 0) :
    ∃ x, a < x ∧ x < b ∧ curve (knotFn U) p n c x ≠ 0 := by
  have hV := monotone_knotFn hU.mono
  have hs : knotFn U k < knotFn U (k + 1) := ha.trans_lt (hab.trans_le hb)
  by_contra hcon
  push Not at hcon
  obtain ⟨i, i1, i2, i3⟩ := hc
  refine i3 (piece_independent hV hs p hk c ?_ i i1 i2)
  refine eq_zero_of_infinite_isRoot _ ((Set.Ioo_infinite hab).mono fun x hx => ?_)
  have h := hcon x hx.1 hx.2
  have hne : x ≠ knotFn U (n + p) := (hx.2.trans_le (hb.trans (hV (by omega)))).ne
  change eval x _ = 0
  rw [eval_finsetSum, ← h]
  unfold curve Nclosed
  simp only [if_neg hne, eval_mul, eval_C]
  rw [sum_congr rfl fun i _ => by rw [← N_eq_piece hV (ha.trans hx.1.le) (hx.2.trans_le hb) p i]]
  refine sum_subset (range_subset_range.2 (by omega)) fun i _ hi => ?_
  rw [N_eq_piece hV (ha.trans hx.1.le) (hx.2.trans_le hb),
    piece_eq_zero_of_lt _ _ _ _ (by simp at hi; omega), eval_zero, mul_zero]

/-- **Schoenberg–Whitney.** A spline with coefficients `c A, ..., c (B-1)` that vanishes at points `t A < ... < t (B-1)`
inside the supports of the basis functions is zero. -/
theorem schoenberg_whitney (hU : Clamped p n U) (hp : 1 ≤ p) (c : ℕ → K) {A B : ℕ} (hB : B ≤ n)
    (hc : ∀ i, i < A ∨ B ≤ i → c i = 0) (t : ℕ → K) (ht : ∀ j, A ≤ j → j + 1 < B → t j < t (j + 1))
    (hsupp : ∀ j, A ≤ j → j < B → knotFn U j < t j ∧ t j < knotFn U (j + p + 1))
    (hz : ∀ j, A ≤ j → j < B → curve (knotFn U) p n c (t j) = 0) : ∀ i, c i = 0 := by
  have hV := monotone_knotFn hU.mono
  have hn := hU.right n le_rfl (by omega)
  by_contra hne
  push Not at hne
  have hin : ∀ i, c i ≠ 0 → A ≤ i ∧ i < B := fun i hi => by
    by_contra h
    exact hi (hc i (by omega))
  -- the first non-zero coefficient
  classical
  set i0 := Nat.find hne with hi0
  have hi0c : c i0 ≠ 0 := Nat.find_spec hne
  have hi0l : ∀ i < i0, c i = 0 := fun i hi => by
    by_contra h
    exact Nat.find_min hne hi h
  -- the end of the first run without `p + 1` zeros in a row
  have hex : ∃ j, i0 ≤ j ∧ c j ≠ 0 ∧ ∀ l, j < l → l ≤ j + p + 1 → c l = 0 := by
    have : ∃ j, c j ≠ 0 ∧ ∀ l, j < l → c l = 0 := by
      by_contra hcon
      push Not at hcon
      have : ∀ s, ∃ j, s ≤ j ∧ c j ≠ 0 := by
        intro s
        induction s with
        | zero => exact ⟨i0, Nat.zero_le _, hi0c⟩
        | succ s ih =>
          obtain ⟨j, h1, h2⟩ := ih
          obtain ⟨l, h3, h4⟩ := hcon j h2
          exact ⟨l, by omega, h4⟩
      obtain ⟨j, h1, h2⟩ := this B
      exact h2 (hc j (.inr h1))
    obtain ⟨j, h1, h2⟩ := this
    refine ⟨j, ?_, h1, fun l hl _ => h2 l hl⟩
    by_contra hcon
    exact h1 (hi0l j (by omega))
  set j0 := Nat.find hex with hj0
  obtain ⟨j1, j2, j3⟩ := Nat.find_spec hex
  have hj0min : ∀ j < j0, ¬ (i0 ≤ j ∧ c j ≠ 0 ∧ ∀ l, j < l → l ≤ j + p + 1 → c l = 0) := fun j hj =>
    Nat.find_min hex hj
  rw [← hj0] at j1 j2 j3
  have hA := hin i0 hi0c
  have hBj := hin j0 j2
  -- the run alone
  set d : ℕ → K := fun l => if l ≤ j0 then c l else 0 with hd
  have hdc : ∀ u, u < knotFn U (j0 + p + 2) → curve (knotFn U) p n d u = curve (knotFn U) p n c u := by
    intro u hu
    unfold curve
    refine sum_congr rfl fun i hi => ?_
    simp only [hd]
    split
    · rfl
    · rename_i hij
      by_cases h : i ≤ j0 + p + 1
      · rw [j3 i (by omega) h]
      · have hui : u < knotFn U i := hu.trans_le (hV (by omega))
        have hne : u ≠ knotFn U (n + p) := (hui.trans_le (hV (by have := mem_range.1 hi; omega))).ne
        unfold Nclosed
        rw [if_neg hne, N_zero_of_not_support hV (.inl hui), mul_zero, mul_zero]
  -- no interval of the run contains only zeros
  have hpoint : ∀ a b, a < b → knotFn U i0 ≤ a → b ≤ knotFn U (j0 + p + 1) →
      ∃ x, a < x ∧ x < b ∧ curve (knotFn U) p n d x ≠ 0 := by
    intro a b hab ha hb
    have han : a < knotFn U n := by
      rw [hn]
      exact hab.trans_le (hb.trans (hV (by omega)))
    obtain ⟨k, k1, k2, k3, k4⟩ := exists_span (V := knotFn U) (u := a)
      (by rw [hU.left p le_rfl]; exact (hV (Nat.zero_le i0)).trans ha) han hU.size.le
    have hk1 : i0 ≤ k := by
      by_contra hcon
      exact absurd k4 (not_lt.2 ((hV (by omega)).trans ha))
    have hk2 : k ≤ j0 + p := by
      by_contra hcon
      exact absurd (k3.trans_lt (hab.trans_le hb)) (not_lt.2 (hV (by omega)))
    have hw : ∃ i, k ≤ i + p ∧ i ≤ k ∧ d i ≠ 0 := by
      by_contra hcon
      push Not at hcon
      have e0 : d i0 ≠ 0 := by simp only [hd]; rw [if_pos j1]; exact hi0c
      have e1 : d j0 ≠ 0 := by simp only [hd]; rw [if_pos le_rfl]; exact j2
      have f0 : i0 + p < k := by
        by_contra h
        exact e0 (hcon i0 (by omega) hk1)
      have f1 : k < j0 := by
        by_contra h
        exact e1 (hcon j0 hk2 (by omega))
      -- the last non-zero coefficient before the window
      obtain ⟨l, l1, l2, l3, l4⟩ : ∃ l, i0 ≤ l ∧ l + p < k ∧ c l ≠ 0 ∧ ∀ q, l < q → q + p < k → c q = 0 := by
        have : ∀ s, i0 + s + p < k → ∃ l, i0 ≤ l ∧ l ≤ i0 + s ∧ c l ≠ 0 ∧ ∀ q, l < q → q ≤ i0 + s → c q = 0 := by
          intro s
          induction s with
          | zero => exact fun _ => ⟨i0, le_rfl, le_rfl, hi0c, fun q h1 h2 => by omega⟩
          | succ s ih =>
            intro hs
            by_cases h : c (i0 + (s + 1)) = 0
            · obtain ⟨l, l1, l2, l3, l4⟩ := ih (by omega)
              refine ⟨l, l1, by omega, l3, fun q h1 h2 => ?_⟩
              rcases h2.eq_or_lt with rfl | h2
              · exact h
              · exact l4 q h1 (by omega)
            · exact ⟨i0 + (s + 1), by omega, le_rfl, h, fun q h1 h2 => by omega⟩
        obtain ⟨l, l1, l2, l3, l4⟩ := this (k - p - 1 - i0) (by omega)
        exact ⟨l, l1, by omega, l3, fun q h1 h2 => l4 q h1 (by omega)⟩
      refine hj0min l (by omega) ⟨l1, l3, fun q h1 h2 => ?_⟩
      by_cases h : q + p < k
      · exact l4 q h1 h
      · have := hcon q (by omega) (by omega)
        simp only [hd] at this
        rwa [if_pos (by omega)] at this
    obtain ⟨x, x1, x2, x3⟩ := exists_ne_zero hU d k1 k2 (lt_min hab k4) k3 (min_le_right _ _) hw
    exact ⟨x, x1, x2.trans_le (min_le_left _ _), x3⟩
  -- separating points
  have htm : ∀ j l, A ≤ j → j < l → l < B → t j < t l := by
    intro j l hj hjl
    induction l, hjl using Nat.le_induction with
    | base => exact fun h => ht j hj h
    | succ l _ ih => exact fun h => (ih (by omega)).trans (ht l (by omega) h)
  have hx : ∀ l, ∃ x, l ≤ j0 + 1 - i0 → (curve (knotFn U) p n d x ≠ 0 ∧
      (0 < l → t (i0 + l - 1) < x) ∧ (l = 0 → knotFn U i0 < x) ∧ (l ≤ j0 - i0 → x < t (i0 + l)) ∧
      x < knotFn U (j0 + p + 1)) := by
    intro l
    by_cases hl : l ≤ j0 + 1 - i0
    swap
    · exact ⟨0, fun h => absurd h hl⟩
    have key : ∃ a b, a < b ∧ knotFn U i0 ≤ a ∧ b ≤ knotFn U (j0 + p + 1) ∧ (0 < l → t (i0 + l - 1) ≤ a) ∧
        (l ≤ j0 - i0 → b ≤ t (i0 + l)) := by
      refine ⟨if l = 0 then knotFn U i0 else t (i0 + l - 1), if l ≤ j0 - i0 then t (i0 + l) else knotFn U (j0 + p + 1),
        ?_, ?_, ?_, ?_, ?_⟩
      · split
        · next h =>
          rw [if_pos (by omega), h]
          exact (hsupp i0 hA.1 hA.2).1
        · split
          · exact htm _ _ (by omega) (by omega) (by omega)
          · have : i0 + l - 1 = j0 := by omega
            rw [this]
            exact (hsupp j0 hBj.1 hBj.2).2
      · split
        · exact le_rfl
        · exact (hV (by omega)).trans (hsupp (i0 + l - 1) (by omega) (by omega)).1.le
      · split
        · exact (hsupp (i0 + l) (by omega) (by omega)).2.le.trans (hV (by omega))
        · exact le_rfl
      · intro h
        rw [if_neg (by omega)]
      · intro h
        rw [if_pos h]
    obtain ⟨a, b, k1, k2, k3, k4, k5⟩ := key
    obtain ⟨x, x1, x2, x3⟩ := hpoint a b k1 k2 k3
    exact ⟨x, fun _ => ⟨x3, fun h => (k4 h).trans_lt x1, fun _ => k2.trans_lt x1, fun h => x2.trans_le (k5 h),
      x2.trans_le k3⟩⟩
  choose x hx using hx
  have hsp : ∀ l < j0 + 1 - i0, knotFn U (i0 + l) < t (i0 + l) ∧ t (i0 + l) < knotFn U (i0 + l + p + 1) :=
    fun l hl => hsupp (i0 + l) (by omega) (by omega)
  have := zeros_lt hU hp d (A := i0) (B := j0 + 1) (m := j0 + 1 - i0)
    (fun i hi => by
      simp only [hd]
      split
      · rcases hi with h | h
        · exact hi0l i h
        · omega
      · rfl)
    (fun l => t (i0 + l)) x
    (fun l hl => ⟨(hx l (by omega)).2.2.2.1 (by omega), by
      have := (hx (l + 1) (by omega)).2.1 (by omega)
      rwa [show i0 + (l + 1) - 1 = i0 + l by omega] at this⟩)
    ((hV (Nat.zero_le i0)).trans ((hx 0 (by omega)).2.2.1 rfl).le)
    ((hx _ le_rfl).2.2.2.2.le.trans (hV (by omega)))
    (fun l hl => by
      rw [hdc _ ((hsp l hl).2.trans_le (hV (by omega)))]
      exact hz _ (by omega) (by omega))
    (fun l hl => (hx l hl).1)
    (fun l hl => by
      have hlt : t (i0 + l) < knotFn U (n + p) := (hsp l hl).2.trans_le (hV (by omega))
      unfold curve
      refine sum_pos' (fun i _ => ?_) ⟨i0 + l, mem_range.2 (by omega), ?_⟩
      · dsimp only
        split
        · rw [one_mul]; exact Nclosed_nonneg' hU i _
        · rw [zero_mul]
      · dsimp only
        rw [if_pos ⟨by omega, by omega⟩, one_mul, Nclosed, if_neg hlt.ne]
        exact N_pos hV p _ _ (.inl (hsp l hl).1) (hsp l hl).2)
  omega

end

end PySpline
