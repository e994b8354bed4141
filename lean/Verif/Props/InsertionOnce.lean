import Verif.Lemmas.InsertionOnce
import Verif.Props.Insertion

/-!
# C159: what one knot insertion does to the curve

`find_multiplicity` counts every knot within tolerance of the new one, and `find_span` may return
the span left of an existing knot.  Nothing is assumed here about either.
-/

set_option linter.unusedSectionVars false

namespace PySpline

open Spec Finset

variable {K : Type} [Field K] [LinearOrder K] [IsStrictOrderedRing K]

/-- **C159.** One insertion of a knot for which `s < degree` knots are counted: the call returns the
old knots and the new one, and the change of the curve is a sum of `s` basis functions with explicit
coefficients, those of the indices `k-s+1, ..., k`. -/
theorem knot_insertion_once {U : List K} {P : List (List K)} {k n p s : ℕ} {u : K}
    (hU : KnotVector p n U) (hP : Shape P n 3) (hpk : p ≤ k) (hk : k < n)
    (hfs : findSpan n p u U = .ok (k : ℤ)) (h1 : knotFn U k ≤ u) (h2 : u ≤ knotFn U (k + 1))
    (hlt : knotFn U k < knotFn U (k + 1)) (hn : u < knotFn U n)
    (hs : findMultiplicity u U = s) (hsp : s + 1 ≤ p) :
    ∃ U' P', curveKnotInsertion p U P u 1 = .ok (U', P') ∧ U' = insertedKnots U k u 1 ∧
      KnotVector p (n + 1) U' ∧ Shape P' (n + 1) 3 ∧
      ∀ y < 3, ∀ x, spline (knotFn U') p (n + 1) (coord P' y) x
        = spline (knotFn U) p n (coord P y) x
          - ∑ i ∈ Ioc (k - s) k, (u - knotFn U i) / (knotFn U (i + p) - knotFn U i)
              * (coord P y i - coord P y (i - 1)) * N (knotFn U') p i x := by
  have hm := monotone_knotFn hU.mono
  have hlen := hU.len
  have hsz := hU.size
  set V := knotFn U with hV
  obtain ⟨⟨U', P'⟩, hret, hl', hfn, shP, vP⟩ :=
    curveKnotInsertion_returns (r := 1) hU.len hP hpk hk hfs hs hm hlt (by omega)
      (fun t m y => if t = 0 then coord P y m else countedPts V p k s u (coord P y) m)
      (fun m y => rfl)
      (by
        intro t m y ht hmk
        rw [if_neg (by omega)]
        by_cases h : t = 0
        · rw [if_pos h]; unfold countedPts; rw [if_pos (by omega)]
        · rw [if_neg h])
      (by
        intro t m y ht hmk
        rw [if_neg (by omega)]
        by_cases h : t = 0
        · subst h
          rw [if_pos rfl]; unfold countedPts
          rw [if_neg (by omega), if_neg (by omega)]; congr 1
        · rw [if_neg h, show m + (1 - t) = m by omega])
      (by
        intro t i y ht h
        have : t = 0 := by omega
        subst this
        rw [if_neg (by omega), if_pos rfl, if_pos rfl]
        unfold countedPts
        rw [if_neg (by omega), if_pos (by omega)]
        have e1 : k - p + 0 + 1 + i = k - p + 0 + (i + 1) := by omega
        have e2 : k - p + 0 + 1 + i + p = i + k + 1 := by omega
        have e3 : k - p + 0 + 1 + i - 1 = k - p + 0 + i := by omega
        rw [e2, e3, e1])
  dsimp only at hl' hfn shP vP
  have hmono' : Monotone (knotFn U') := by rw [hfn]; exact insKnots_mono hm h1 h2 1
  refine ⟨U', P', hret, eq_insertedKnots hlen hk hl' hfn,
    ⟨by omega, pairwise_of_mono hmono', by omega⟩, shP, fun y hy x => ?_⟩
  obtain ⟨k', a, b, c, d⟩ := exists_last_copy hU hk h2 hn
  have hrunlen : k' - k ≤ s := by
    rw [← hs]
    exact (run_le_count (a := k + 1) (by omega) fun j j1 j2 => c j (by omega) (by omega)).trans
      (count_le_findMultiplicity u U)
  have hk'u : V k' ≤ u := by
    by_cases e : k = k'
    · rw [← e]; exact h1
    · exact (c k' (by omega) le_rfl).le
  have hsp := spline_boehm_run hm a (p := p) (by omega)
    (fun h => by rw [← c (k + 1) (by omega) (by omega)]; exact hlt) c hk'u d hpk b (coord P y) x
  rw [hfn, ← hsp]
  unfold spline
  have key : ∀ i ∈ range (n + 1), coord P' y i * N (insKnots V k u 1) p i x
      = boehm V p k u (coord P y) i * N (insKnots V k u 1) p i x
        - (if i ∈ Ioc (k - s) k then (u - V i) / (V (i + p) - V i)
            * (coord P y i - coord P y (i - 1)) * N (insKnots V k u 1) p i x else 0) := by
    intro i hi
    have e : coord P' y i = countedPts V p k s u (coord P y) i := vP i (mem_range.1 hi) y hy
    rw [e, countedPts_eq (by omega)]
    have h : (k < i + s ∧ i ≤ k) ↔ i ∈ Ioc (k - s) k := by rw [mem_Ioc]; omega
    by_cases c : i ∈ Ioc (k - s) k
    · rw [if_pos (h.2 c), if_pos c]; ring
    · rw [if_neg (mt h.1 c), if_neg c]; ring
  rw [sum_congr rfl key, sum_sub_distrib, sum_ite_mem, inter_eq_right.2 fun i hi => by
    rw [mem_Ioc] at hi; exact mem_range.2 (by omega)]

/-- **C159**, when the curve is kept: exactly if every one of the last `s` knots up to the span is
the new knot itself or belongs to a repeated control point. -/
theorem knot_insertion_once_preserves_iff {U U' : List K} {P P' : List (List K)} {k n p s : ℕ} {u : K}
    (hU : KnotVector p n U) (hP : Shape P n 3) (hpk : p ≤ k) (hk : k < n)
    (hfs : findSpan n p u U = .ok (k : ℤ)) (h1 : knotFn U k ≤ u) (h2 : u ≤ knotFn U (k + 1))
    (hlt : knotFn U k < knotFn U (k + 1)) (hn : u < knotFn U n)
    (hs : findMultiplicity u U = s) (hsp : s + 1 ≤ p)
    (hret : curveKnotInsertion p U P u 1 = .ok (U', P')) {y : ℕ} (hy : y < 3) :
    (∀ x, knotFn U p ≤ x → x < knotFn U n → spline (knotFn U') p (n + 1) (coord P' y) x
        = spline (knotFn U) p n (coord P y) x) ↔
      ∀ i, k - s < i → i ≤ k → knotFn U i = u ∨ coord P y i = coord P y (i - 1) := by
  obtain ⟨U1, P1, hret1, e, hkv, shP, hspl⟩ := knot_insertion_once hU hP hpk hk hfs h1 h2 hlt hn hs hsp
  rw [hret1, Except.ok.injEq, Prod.mk.injEq] at hret
  obtain ⟨rfl, rfl⟩ := hret
  have hm := monotone_knotFn hU.mono
  have hlen := hU.len
  have hm' := monotone_knotFn hkv.mono
  constructor
  · intro h
    have hW : knotFn U1 = insKnots (knotFn U) k u 1 := by
      obtain ⟨kv, hkv, lkv, vkv⟩ := insertion_knots (r := 1) u hlen hk
      have hf := knotFn_of_getD hlen hk lkv vkv
      rw [e, ← eq_insertedKnots hlen hk lkv hf, hf]
    obtain ⟨q, hq1, hq2, hq3, hq4, hq5⟩ : ∃ q, q < n + 1 ∧ (k ≤ q ∧ q ≤ k + 1) ∧
        knotFn U1 q < knotFn U1 (q + 1) ∧ knotFn U k ≤ knotFn U1 q ∧
        knotFn U1 (q + 1) ≤ knotFn U (k + 1) := by
      rw [hW]
      unfold insKnots
      rcases h1.lt_or_eq with h | h
      · refine ⟨k, by omega, ⟨by omega, by omega⟩, ?_, ?_, ?_⟩
        · rw [if_pos (by omega), if_neg (by omega), if_pos (by omega)]; exact h
        · rw [if_pos (by omega)]
        · rw [if_neg (by omega), if_pos (by omega)]; exact h2
      · refine ⟨k + 1, by omega, ⟨by omega, by omega⟩, ?_, ?_, ?_⟩
        · rw [if_neg (by omega), if_pos (by omega), if_neg (by omega), if_neg (by omega), ← h]
          exact hlt
        · rw [if_neg (by omega), if_pos (by omega)]; exact h1
        · rw [if_neg (by omega), if_neg (by omega)]; exact le_rfl
    have hz := coeff_zero_of_sum_zero hm' (k := q) (p := p) (m := n + 1) (by omega) hq1 hq3
      (fun i => if i ∈ Ioc (k - s) k then (u - knotFn U i) / (knotFn U (i + p) - knotFn U i)
              * (coord P y i - coord P y (i - 1)) else 0)
      (by
        intro x x1 x2
        have hd := h x ((hm hpk).trans (hq4.trans x1))
          (x2.trans_le (hq5.trans (hm (by omega))))
        rw [hspl y hy] at hd
        have hd : ∑ i ∈ Ioc (k - s) k, (u - knotFn U i) / (knotFn U (i + p) - knotFn U i)
              * (coord P y i - coord P y (i - 1)) * N (knotFn U1) p i x = 0 := by linarith
        refine Eq.trans ?_ hd
        simp only [ite_mul, zero_mul]
        rw [sum_ite_mem, inter_eq_right.2 fun i hi => by
          rw [mem_Ioc] at hi; exact mem_range.2 (by omega)])
    intro i i1 i2
    have := hz i (by omega) (by omega)
    rw [if_pos (mem_Ioc.2 ⟨i1, i2⟩)] at this
    have hd : 0 < knotFn U (i + p) - knotFn U i := by
      have : knotFn U i ≤ knotFn U k := hm i2
      have : knotFn U (k + 1) ≤ knotFn U (i + p) := hm (by omega)
      linarith
    rcases mul_eq_zero.1 this with h | h
    · rcases div_eq_zero_iff.1 h with h | h
      · exact .inl (by linarith)
      · exact absurd h hd.ne'
    · exact .inr (sub_eq_zero.1 h)
  · intro h x _ _
    rw [hspl y hy, sum_eq_zero, sub_zero]
    intro i hi
    rw [mem_Ioc] at hi
    rcases h i hi.1 hi.2 with h | h
    · rw [h, sub_self, zero_div, zero_mul, zero_mul]
    · rw [h, sub_self, mul_zero, zero_mul]

/-- **C159**, bound: the curve moves by at most the largest coefficient. -/
theorem knot_insertion_once_bound {U U' : List K} {P P' : List (List K)} {k n p s : ℕ} {u B : K}
    (hU : KnotVector p n U) (hP : Shape P n 3) (hpk : p ≤ k) (hk : k < n)
    (hfs : findSpan n p u U = .ok (k : ℤ)) (h1 : knotFn U k ≤ u) (h2 : u ≤ knotFn U (k + 1))
    (hlt : knotFn U k < knotFn U (k + 1)) (hn : u < knotFn U n)
    (hs : findMultiplicity u U = s) (hsp : s + 1 ≤ p)
    (hret : curveKnotInsertion p U P u 1 = .ok (U', P')) {y : ℕ} (hy : y < 3) (hB : 0 ≤ B)
    (hb : ∀ i, k - s < i → i ≤ k →
      (u - knotFn U i) * |coord P y i - coord P y (i - 1)| ≤ B * (knotFn U (i + p) - knotFn U i))
    {x : K} (hx1 : knotFn U p ≤ x) (hx2 : x < knotFn U n) :
    |spline (knotFn U') p (n + 1) (coord P' y) x - spline (knotFn U) p n (coord P y) x| ≤ B := by
  obtain ⟨U1, P1, hret1, e, hkv, shP, hspl⟩ := knot_insertion_once hU hP hpk hk hfs h1 h2 hlt hn hs hsp
  rw [hret1, Except.ok.injEq, Prod.mk.injEq] at hret
  obtain ⟨rfl, rfl⟩ := hret
  have hm := monotone_knotFn hU.mono
  have hm' := monotone_knotFn hkv.mono
  have hlen := hU.len
  rw [hspl y hy, abs_sub_comm, sub_sub_cancel]
  refine (abs_sum_le_sum_abs _ _).trans ?_
  have hle : ∀ i ∈ Ioc (k - s) k, |(u - knotFn U i) / (knotFn U (i + p) - knotFn U i)
      * (coord P y i - coord P y (i - 1)) * N (knotFn U1) p i x| ≤ B * N (knotFn U1) p i x := by
    intro i hi
    rw [mem_Ioc] at hi
    have hd1 : knotFn U i ≤ knotFn U k := hm hi.2
    have hd2 : knotFn U (k + 1) ≤ knotFn U (i + p) := hm (by omega)
    rw [abs_mul, abs_of_nonneg (N_nonneg hm' p i x)]
    refine mul_le_mul_of_nonneg_right ?_ (N_nonneg hm' p i x)
    rw [abs_mul, abs_of_nonneg (div_nonneg (by linarith) (by linarith)), div_mul_eq_mul_div,
      div_le_iff₀ (by linarith)]
    exact hb i hi.1 hi.2
  refine (sum_le_sum hle).trans ?_
  rw [← mul_sum]
  have hW : knotFn U1 = insKnots (knotFn U) k u 1 := by
    obtain ⟨kv, hkv, lkv, vkv⟩ := insertion_knots (r := 1) u hlen hk
    have hf := knotFn_of_getD hlen hk lkv vkv
    rw [e, ← eq_insertedKnots hlen hk lkv hf, hf]
  have hsum : ∑ i ∈ range (n + 1), N (knotFn U1) p i x = 1 := by
    refine sum_N hm' ?_ ?_ (by omega)
    · rw [hW]; unfold insKnots; rw [if_pos hpk]; exact hx1
    · rw [hW]; unfold insKnots
      rw [if_neg (by omega)]
      by_cases h : n + 1 ≤ k + 1
      · omega
      · rw [if_neg h]; exact hx2
  calc B * ∑ i ∈ Ioc (k - s) k, N (knotFn U1) p i x
      ≤ B * ∑ i ∈ range (n + 1), N (knotFn U1) p i x := by
        refine mul_le_mul_of_nonneg_left (sum_le_sum_of_subset_of_nonneg (fun i hi => ?_)
          fun i _ _ => N_nonneg hm' p i x) hB
        rw [mem_Ioc] at hi; exact mem_range.2 (by omega)
    _ = B := by rw [hsum, mul_one]

/-- **C159**, harmless near copies: if no knot within the tolerance lies right of the new one, the
curve moves by at most a multiple of the tolerance. -/
theorem knot_insertion_once_near_left {U U' : List K} {P P' : List (List K)} {k n p s : ℕ} {u M D : K}
    (hU : KnotVector p n U) (hP : Shape P n 3) (hpk : p ≤ k) (hk : k < n)
    (hfs : findSpan n p u U = .ok (k : ℤ)) (h1 : knotFn U k ≤ u) (h2 : u < knotFn U (k + 1))
    (hs : findMultiplicity u U = s) (hsp : s + 1 ≤ p)
    (hleft : ∀ x ∈ U, |u - x| ≤ 1 / 10 ^ 8 + 1 / 10 ^ 5 * |x| → x ≤ u)
    (hM : ∀ x ∈ U, |x| ≤ M)
    (hret : curveKnotInsertion p U P u 1 = .ok (U', P')) {y : ℕ} (hy : y < 3)
    (hD : ∀ i, k - s < i → i ≤ k → |coord P y i - coord P y (i - 1)| ≤ D) (hD0 : 0 ≤ D)
    {x : K} (hx1 : knotFn U p ≤ x) (hx2 : x < knotFn U n) :
    |spline (knotFn U') p (n + 1) (coord P' y) x - spline (knotFn U) p n (coord P y) x|
      ≤ (1 / 10 ^ 8 + 1 / 10 ^ 5 * M) * D / (knotFn U (k + 1) - knotFn U k) := by
  have hm := monotone_knotFn hU.mono
  have hlen := hU.len
  have hgap : 0 < knotFn U (k + 1) - knotFn U k := by linarith
  have hM0 : 0 ≤ M := by
    have := hM (knotFn U k) (by rw [knotFn_eq (by omega)]; exact List.getElem_mem _)
    exact (abs_nonneg _).trans this
  have hT : 0 ≤ (1 / 10 ^ 8 + 1 / 10 ^ 5 * M : K) := by positivity
  refine knot_insertion_once_bound hU hP hpk hk hfs h1 h2.le (by linarith)
    (h2.trans_le (hm (by omega))) hs hsp hret hy (div_nonneg (mul_nonneg hT hD0) hgap.le) ?_ hx1 hx2
  intro i i1 i2
  have hd1 : knotFn U i ≤ knotFn U k := hm i2
  have hd2 : knotFn U (k + 1) ≤ knotFn U (i + p) := hm (by omega)
  have hclose := near_of_counted hU.mono (by omega) h1 h2 hs hleft i1 i2
  have hMi := hM (knotFn U i) (by rw [knotFn_eq (by omega)]; exact List.getElem_mem _)
  rw [div_mul_eq_mul_div, le_div_iff₀ hgap]
  have a1 : u - knotFn U i ≤ 1 / 10 ^ 8 + 1 / 10 ^ 5 * M := by
    rw [abs_of_nonneg (by linarith)] at hclose
    have : (1 / 10 ^ 5 : K) * |knotFn U i| ≤ 1 / 10 ^ 5 * M := mul_le_mul_of_nonneg_left hMi (by positivity)
    linarith
  have a2 := hD i i1 i2
  refine mul_le_mul (mul_le_mul a1 a2 (abs_nonneg _) hT) ?_ hgap.le (mul_nonneg hT hD0)
  linarith

/-! ## Concrete cases -/

/-- A new knot a millionth left of the knot `1/4`, which is counted as a copy of it. -/
example : findSpan 6 2 (1/4 - 1/10^6) exU = .ok 2 ∧ findMultiplicity (1/4 - 1/10^6) exU = 1 := by
  decide +kernel

example : curveKnotInsertion 2 exU exP (1/4 - 1/10^6) 1
    = .ok ([0, 0, 0, 249999/1000000, 1/4, 1/2, 3/4, 1, 1, 1],
      [[0, 0, 0], [249999/250000, 249999/125000, 0], [1, 2, 0], [2, 0, 1], [3, 1, 0], [4, 4, 0],
        [5, 0, 2]]) := by decide +kernel

/-- The second coordinate at `1/4` was `1` and is now nearly `2`. -/
example : spline (knotFn exU) 2 6 (coord exP 1) (1/4) = 1 ∧
    spline (knotFn ([0, 0, 0, 249999/1000000, 1/4, 1/2, 3/4, 1, 1, 1] : List ℚ)) 2 7
      (coord [[0, 0, 0], [249999/250000, 249999/125000, 0], [1, 2, 0], [2, 0, 1], [3, 1, 0], [4, 4, 0],
        [5, 0, 2]] 1) (1/4) = (500000/250001 : ℚ) := by decide +kernel

/-- The theorem on this knot. -/
example : ∃ U' P', curveKnotInsertion 2 exU exP (1/4 - 1/10^6) 1 = .ok (U', P') ∧
    U' = insertedKnots exU 2 (1/4 - 1/10^6) 1 ∧ KnotVector 2 (6 + 1) U' ∧ Shape P' (6 + 1) 3 ∧
    ∀ y < 3, ∀ x, spline (knotFn U') 2 (6 + 1) (coord P' y) x
      = spline (knotFn exU) 2 6 (coord exP y) x
        - ∑ i ∈ Ioc (2 - 1) 2, (1/4 - 1/10^6 - knotFn exU i) / (knotFn exU (i + 2) - knotFn exU i)
            * (coord exP y i - coord exP y (i - 1)) * N (knotFn U') 2 i x :=
  knot_insertion_once exU_knotVector exP_shape (by decide) (by decide) (by decide +kernel)
    (by decide +kernel) (by decide +kernel) (by decide +kernel) (by decide +kernel)
    (by decide +kernel) (by decide)

/-- A millionth right of `1/4` the curve moves by less than a ten-thousandth. -/
example {U' P'} (hret : curveKnotInsertion 2 exU exP (1/4 + 1/10^6) 1 = .ok (U', P')) {x : ℚ}
    (hx1 : knotFn exU 2 ≤ x) (hx2 : x < knotFn exU 6) :
    |spline (knotFn U') 2 (6 + 1) (coord P' 1) x - spline (knotFn exU) 2 6 (coord exP 1) x|
      ≤ (1 / 10 ^ 8 + 1 / 10 ^ 5 * 1) * 2 / (knotFn exU (3 + 1) - knotFn exU 3) :=
  knot_insertion_once_near_left (k := 3) (s := 1) exU_knotVector exP_shape (by decide) (by decide)
    (by decide +kernel) (by decide +kernel) (by decide +kernel) (by decide +kernel) (by decide)
    (by decide +kernel) (by decide +kernel) hret (by decide)
    (fun i i1 i2 => by
      have : i = 3 := by omega
      subst this
      decide +kernel)
    (by decide) hx1 hx2

/-- Left of `1/4` it is not kept. -/
example {U' P'} (hret : curveKnotInsertion 2 exU exP (1/4 - 1/10^6) 1 = .ok (U', P')) :
    ¬ ∀ x, knotFn exU 2 ≤ x → x < knotFn exU 6 → spline (knotFn U') 2 (6 + 1) (coord P' 1) x
        = spline (knotFn exU) 2 6 (coord exP 1) x := by
  rw [knot_insertion_once_preserves_iff (k := 2) (s := 1) exU_knotVector exP_shape (by decide)
    (by decide) (by decide +kernel) (by decide +kernel) (by decide +kernel) (by decide +kernel)
    (by decide +kernel) (by decide +kernel) (by decide) hret (by decide)]
  intro h
  exact absurd (h 2 (by decide) (by decide)) (by decide +kernel)

end PySpline
