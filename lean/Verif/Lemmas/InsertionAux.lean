import Verif.Lemmas.Insertion
import Verif.Lemmas.InsertionEnd
import Verif.Props.Knots

/-!
# Auxiliary lemmas for `Props/Insertion.lean`
-/

set_option linter.unusedSectionVars false

namespace PySpline

open Spec Finset

variable {K : Type} [Field K] [LinearOrder K] [IsStrictOrderedRing K]

theorem pairwise_of_mono {L : List K} (h : Monotone (knotFn L)) : L.Pairwise (· ≤ ·) := by
  rw [List.pairwise_iff_getElem]
  intro i j hi hj hij
  rw [← knotFn_eq hi, ← knotFn_eq hj]
  exact h hij.le

/-- In a sorted array the copies of `u` are the last ones up to the span of `u`. -/
theorem multiplicity_run {U : List K} (hm : Monotone (knotFn U)) {k s : ℕ} {u : K}
    (hk : k < U.length) (h1 : knotFn U k ≤ u) (h2 : k + 1 < U.length → u < knotFn U (k + 1))
    (hs : U.count u = s) : ∀ j, k < j + s → j ≤ k → knotFn U j = u := by
  intro j hj1 hj2
  by_contra hne
  have hjl : j < U.length := by omega
  have hlt : knotFn U j < u := lt_of_le_of_ne ((hm hj2).trans h1) hne
  have e1 : (U.take (j + 1)).count u = 0 := by
    rw [List.count_eq_zero]
    intro hmem
    obtain ⟨i, hi, e⟩ := List.mem_take_iff_getElem.1 hmem
    rw [← knotFn_eq (by omega)] at e
    have : knotFn U i ≤ knotFn U j := hm (by omega)
    rw [e] at this
    exact absurd (lt_of_le_of_lt this hlt) (lt_irrefl _)
  have e2 : (U.drop (k + 1)).count u = 0 := by
    rw [List.count_eq_zero]
    intro hmem
    obtain ⟨i, hi, e⟩ := List.mem_iff_getElem.1 hmem
    rw [List.length_drop] at hi
    rw [List.getElem_drop, ← knotFn_eq (by omega)] at e
    have : knotFn U (k + 1) ≤ knotFn U (k + 1 + i) := hm (by omega)
    rw [e] at this
    exact absurd (lt_of_lt_of_le (h2 (by omega)) this) (lt_irrefl _)
  have e3 : U.count u = (U.take (j + 1)).count u + ((U.drop (j + 1)).take (k - j)).count u
      + (U.drop (k + 1)).count u := by
    conv_lhs => rw [← List.take_append_drop (j + 1) U, List.count_append,
      ← List.take_append_drop (k - j) (U.drop (j + 1)), List.count_append, List.drop_drop]
    rw [show j + 1 + (k - j) = k + 1 by omega]
    omega
  have e4 : ((U.drop (j + 1)).take (k - j)).count u ≤ k - j :=
    List.count_le_length.trans (by simp)
  omega

/-- Inserted knots with the control points of repeated insertion describe the old curve. -/
theorem inserted_curve {U U' : List K} {P P' : List (List K)} {k r s n p : ℕ} {u : K}
    (hU : KnotVector p n U) (hpk : p ≤ k) (hk : k < n) (h1 : knotFn U k ≤ u) (h2 : u < knotFn U (k + 1))
    (hrun : ∀ j, k < j + s → j ≤ k → knotFn U j = u) (hr : r + s ≤ p) (hl' : U'.length = n + p + 1 + r)
    (hfn : knotFn U' = insKnots (knotFn U) k u r)
    (vP : ∀ m < n + r, ∀ y < 3, at2 P' m y 0 = boehmIter (knotFn U) p k u (coord P y) r m) :
    KnotVector p (n + r) U' ∧
      (∀ y < 3, ∀ x, spline (knotFn U') p (n + r) (coord P' y) x
        = spline (knotFn U) p n (coord P y) x) ∧
      (Clamped p n U → Clamped p (n + r) U' ∧
        ∀ y < 3, ∀ x, curve (knotFn U') p (n + r) (coord P' y) x
          = curve (knotFn U) p n (coord P y) x) := by
  have hsz := hU.size
  have hlen := hU.len
  have hm := monotone_knotFn hU.mono
  have hmono' : Monotone (knotFn U') := by rw [hfn]; exact insKnots_mono hm h1 h2.le r
  have hkv : KnotVector p (n + r) U' := ⟨by omega, pairwise_of_mono hmono', by omega⟩
  have hspl : ∀ y < 3, ∀ x, spline (knotFn U') p (n + r) (coord P' y) x
        = spline (knotFn U) p n (coord P y) x := by
    intro y hy x
    rw [hfn, ← spline_boehmIter (c := coord P y) hm h1 h2 hpk hk r x]
    unfold spline
    refine sum_congr rfl fun i hi => ?_
    rw [← vP i (mem_range.1 hi) y hy]
    rfl
  refine ⟨hkv, hspl, fun hc => ?_⟩
  have hend : knotFn U' (n + r + p) = knotFn U (n + p) := by
    rw [hfn]; unfold insKnots; rw [if_neg (by omega), if_neg (by omega)]; congr 1; omega
  refine ⟨⟨hkv, fun i hi => ?_, fun i hi1 hi2 => ?_⟩, fun y hy x => ?_⟩
  · rw [hfn]; unfold insKnots; rw [if_pos (by omega), if_pos (by omega)]; exact hc.left i hi
  · rw [hend, hfn]; unfold insKnots; rw [if_neg (by omega), if_neg (by omega)]
    exact hc.right (i - r) (by omega) (by omega)
  · have hx := hspl y hy x
    unfold curve Nclosed
    unfold spline at hx
    rw [hend]
    by_cases hxe : x = knotFn U (n + p)
    · simp only [if_pos hxe]
      have single : ∀ (N : ℕ) (c : ℕ → K), 0 < N →
          ∑ i ∈ range N, c i * (if i + 1 = N then (1 : K) else 0) = c (N - 1) := by
        intro N c hN
        rw [sum_eq_single (N - 1)]
        · rw [if_pos (by omega), mul_one]
        · intro i _ hne; rw [if_neg (by omega), mul_zero]
        · intro h; exact absurd (mem_range.2 (by omega)) h
      rw [single _ _ (by omega), single _ _ (by omega)]
      have e := vP (n + r - 1) (by omega) y hy
      have e2 := boehmIter_right (V := knotFn U) (k := k) (p := p) (u := u) (c := coord P y) (t := 0)
        (m := n - 1) hrun hr r (by omega) (by omega)
      rw [show 0 + r = r by omega, show n - 1 + r = n + r - 1 by omega] at e2
      exact e.trans e2
    · simp only [if_neg hxe]; exact hx

theorem boehmA_bounds {V : ℕ → K} (hV : Monotone V) {p k : ℕ} {u : K} (h1 : V k ≤ u)
    (h2 : u < V (k + 1)) (i : ℕ) : 0 ≤ boehmA V p k u i ∧ boehmA V p k u i ≤ 1 := by
  unfold boehmA
  split
  · exact ⟨zero_le_one, le_rfl⟩
  · split
    · exact ⟨le_rfl, zero_le_one⟩
    · have a : V i ≤ V k := hV (by omega)
      have b : V (k + 1) ≤ V (i + p) := hV (by omega)
      have d : 0 < V (i + p) - V i := by linarith
      exact ⟨div_nonneg (by linarith) d.le, (div_le_one d).2 (by linarith)⟩

theorem boehmIter_convex {V : ℕ → K} (hV : Monotone V) {p k : ℕ} {u : K} (h1 : V k ≤ u)
    (h2 : u < V (k + 1)) (M t : ℕ) : ∀ m < M, ∃ w : ℕ → K, (∀ i, 0 ≤ w i) ∧
      (∀ i, w i ≠ 0 → i ≤ m ∧ m ≤ i + t ∧ (i ≤ k ∨ i + t = m)) ∧ ∑ i ∈ range M, w i = 1 ∧
      ∀ c, boehmIter V p k u c t m = ∑ i ∈ range M, w i * c i := by
  induction t with
  | zero =>
    intro m hm
    refine ⟨fun i => if i = m then 1 else 0, fun i => ?_, fun i hi => ?_, ?_, fun c => ?_⟩
    · dsimp only; split <;> simp
    · have : i = m := by by_contra h; simp [h] at hi
      omega
    · rw [sum_ite_eq' (range M) m fun _ => (1 : K), if_pos (mem_range.2 hm)]
    · simp only [ite_mul, one_mul, zero_mul]
      rw [sum_ite_eq' (range M) m fun i => c i, if_pos (mem_range.2 hm)]
      rfl
  | succ t ih =>
    intro m hm
    obtain ⟨w1, p1, s1, o1, c1⟩ := ih m hm
    obtain ⟨w2, p2, s2, o2, c2⟩ := ih (m - 1) (by omega)
    have hins := insKnots_mono hV h1 h2.le t
    have e1 : insKnots V k u t (k + t) ≤ u := by
      unfold insKnots
      by_cases h : k + t ≤ k
      · rw [if_pos h, show k + t = k by omega]; exact h1
      · rw [if_neg h, if_pos le_rfl]
    have e2 : u < insKnots V k u t (k + t + 1) := by
      unfold insKnots
      rw [if_neg (by omega), if_neg (by omega), show k + t + 1 - t = k + 1 by omega]
      exact h2
    obtain ⟨a0, a1⟩ := boehmA_bounds (p := p) hins e1 e2 m
    set a := boehmA (insKnots V k u t) p (k + t) u m with ha
    refine ⟨fun i => a * w1 i + (1 - a) * w2 i, fun i => ?_, fun i hi => ?_, ?_, fun c => ?_⟩
    · exact add_nonneg (mul_nonneg a0 (p1 i)) (mul_nonneg (by linarith) (p2 i))
    · by_cases hA : a * w1 i = 0
      · have hB : (1 - a) * w2 i ≠ 0 := by intro h; simp [hA, h] at hi
        have hw2 := s2 i (right_ne_zero_of_mul hB)
        omega
      · have hw1 := s1 i (right_ne_zero_of_mul hA)
        have : m ≤ k + t := by
          by_contra h
          have : a = 0 := by
            rw [ha]; unfold boehmA; rw [if_neg (by omega), if_pos (by omega)]
          rw [this] at hA; simp at hA
        omega
    · rw [sum_add_distrib, ← mul_sum, ← mul_sum, o1, o2]; ring
    · show boehm _ _ _ _ _ m = _
      unfold boehm
      rw [← ha, c1 c, c2 c, mul_sum, mul_sum, ← sum_add_distrib]
      exact sum_congr rfl fun i _ => by ring

theorem piece_pos {V : ℕ → K} (hV : Monotone V) {k : ℕ} {x : K} (h1 : V k < x)
    (h2 : x < V (k + 1)) (p : ℕ) : ∀ i, i ≤ k → k ≤ i + p → 0 < N V p i x := by
  induction p with
  | zero =>
    intro i a b
    have : i = k := by omega
    subst this
    unfold N
    rw [if_pos ⟨h1.le, h2⟩]; exact zero_lt_one
  | succ p ih =>
    intro i a b
    unfold N
    have n1 := N_nonneg hV p i x
    have n2 := N_nonneg hV p (i + 1) x
    have a1 : V i ≤ V k := hV a
    have a2 : V (k + 1) ≤ V (i + p + 2) := hV (by omega)
    have z1 : 0 ≤ (x - V i) / (V (i + p + 1) - V i) :=
      div_nonneg (by linarith) (sub_nonneg.2 (hV (by omega)))
    have z2 : 0 ≤ (V (i + p + 2) - x) / (V (i + p + 2) - V (i + 1)) :=
      div_nonneg (by linarith) (sub_nonneg.2 (hV (by omega)))
    by_cases c : k ≤ i + p
    · have a3 : V (k + 1) ≤ V (i + p + 1) := hV (by omega)
      have : 0 < (x - V i) / (V (i + p + 1) - V i) := div_pos (by linarith) (by linarith)
      have := mul_pos this (ih i a c)
      have := mul_nonneg z2 n2
      linarith
    · have a3 : V (i + 1) ≤ V k := hV (by omega)
      have : 0 < (V (i + p + 2) - x) / (V (i + p + 2) - V (i + 1)) :=
        div_pos (by linarith) (by linarith)
      have := mul_pos this (ih (i + 1) (by omega) (by omega))
      have := mul_nonneg z1 n1
      linarith

end PySpline
