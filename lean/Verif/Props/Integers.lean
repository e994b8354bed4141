import Verif.Lemmas.Integers
import Verif.Props.Knots
import Verif.Props.FindSpan

/-!
# Integer arguments of the knot functions (C154)
-/

set_option linter.unusedSectionVars false

namespace PySpline

open Spec

variable {K : Type} [Field K] [LinearOrder K] [IsStrictOrderedRing K]

/-- **C154.** For natural numbers `find_span` with the keyword `rtol` is the search of C01 with that
tolerance in the end test; without the keyword it is `findSpan`. -/
theorem find_span_int (f : ℕ) (rtol : K) (n p : ℕ) (u : K) (U : List K) :
    findSpanZ f rtol n p u U
      = findSpanWith (fun a b => isclose a b rtol atolDefault) f n p u U ∧
    findSpanZ (spanFuel n p) (1 / 10 ^ 6) n p u U = findSpan n p u U := by
  have key : ∀ (f : ℕ) (rtol : K), findSpanZ f rtol n p u U
      = findSpanWith (fun a b => isclose a b rtol atolDefault) f n p u U := by
    intro f rtol
    unfold findSpanZ findSpanWith
    congr 1
    funext e
    have hm : (if ((p : ℤ) + n) % 2 = 0 then ((p : ℤ) + n).tdiv 2 else ((p : ℤ) + n + 1).tdiv 2)
        = (findSpanMid0 n p : ℤ) := by
      unfold findSpanMid0
      rw [Int.tdiv_eq_ediv_of_nonneg (by omega), Int.tdiv_eq_ediv_of_nonneg (by omega)]
      split <;> split <;> omega
    dsimp only
    rw [hm, findSpanLoopZ_nat]
  exact ⟨key f rtol, key _ _⟩

/-- **C154.** Whatever integers, tolerance and array `find_span` is given, sorted or not: a value
`m` that it returns is either `num_ctrlpts - 1`, and the knot passes the end test, or the knot lies
between the entries at `m` and `m + 1` (Python indices). -/
theorem find_span_sound (f : ℕ) (rtol : K) (n p m : ℤ) (u : K) (U : List K)
    (h : findSpanZ f rtol n p u U = .ok m) :
    (m = n - 1 ∧ ∃ e, pyGet U n = .ok e ∧ |u - e| ≤ 1 / 10 ^ 8 + rtol * |e|) ∨
    ∃ a b, pyGet U m = .ok a ∧ pyGet U (m + 1) = .ok b ∧ a ≤ u ∧ u ≤ b := by
  unfold findSpanZ at h
  cases he : pyGet U n with
  | error e => rw [he] at h; cases h
  | ok e =>
    rw [he, ok_bind] at h
    split at h
    · next hc =>
      cases h
      exact .inl ⟨rfl, e, rfl, by simpa [isclose, atolDefault] using hc⟩
    · exact .inr (findSpanLoopZ_sound u U f _ _ _ _ h)

/-- **C154.** The tolerance only decides about the end: for a knot that fails the end test with the
larger tolerance the result does not depend on it.  With a tolerance of at least 1 every knot of a
knot vector from `0` on passes the end test: the last span is returned for all of them. -/
theorem find_span_rtol (f : ℕ) (r r' : K) (n p : ℤ) (u e : K) (U : List K)
    (he : pyGet U n = .ok e) :
    (r ≤ r' → 1 / 10 ^ 8 + r' * |e| < |u - e| → findSpanZ f r n p u U = findSpanZ f r' n p u U) ∧
    (1 ≤ r → 0 ≤ u → u ≤ e → findSpanZ f r n p u U = .ok (n - 1)) := by
  constructor
  · intro hr h
    have h1 : isclose u e r' atolDefault = false := by
      unfold isclose atolDefault; exact decide_eq_false (not_le.2 h)
    have h2 : isclose u e r atolDefault = false := by
      have := mul_le_mul_of_nonneg_right hr (abs_nonneg e)
      unfold isclose atolDefault; exact decide_eq_false (by linarith)
    unfold findSpanZ
    rw [he, ok_bind, ok_bind, h1, h2]
  · intro hr h0 h1
    have h2 : isclose u e r atolDefault = true := by
      unfold isclose atolDefault
      refine decide_eq_true ?_
      rw [abs_of_nonpos (by linarith), abs_of_nonneg (by linarith)]
      have : 1 * e ≤ r * e := mul_le_mul_of_nonneg_right hr (by linarith)
      have : (0 : K) < 1 / 10 ^ 8 := by positivity
      linarith
    unfold findSpanZ
    rw [he, ok_bind, h2]
    rfl

/-- A wide tolerance gives the last span for a knot in the first one. -/
example : findSpanZ 20 (1 / 10 ^ 6) 4 2 (1 / 4 : ℚ) [0, 0, 0, 1 / 2, 1, 1, 1] = .ok 2 ∧
    findSpanZ 20 1 4 2 (1 / 4 : ℚ) [0, 0, 0, 1 / 2, 1, 1, 1] = .ok 3 := by decide +kernel

/-- With a negative degree the search can leave the array. -/
example : findSpanZ 20 (1 / 10 ^ 6) 3 (-1) (1 / 4 : ℚ) [0, 1 / 2, 1] = .error .indexError := by
  decide +kernel

/-- **C154.** `check_knot_vector` on a non-empty array, for natural numbers, for the degree `-1`
(whether the knots are as many as the control points and non-decreasing), for smaller degrees and
for a negative number of control points. -/
theorem check_knot_vector_int {U : List K} (hne : U ≠ []) :
    (∀ p n : ℕ, checkKnotVectorZ p U n = checkKnotVector p U n) ∧
    (∀ n : ℤ, ∃ b, checkKnotVectorZ (-1) U n = .ok b ∧
      (b = true ↔ (U.length : ℤ) = n ∧ U.Pairwise (· ≤ ·))) ∧
    (∀ p n : ℤ, (U.length : ℤ) ≠ n + p + 1 → checkKnotVectorZ p U n = .ok false) ∧
    (∀ p n : ℤ, p < -1 → (U.length : ℤ) = n + p + 1 →
      checkKnotVectorZ p U n = .error .valueError) ∧
    (∀ p n : ℤ, 0 ≤ p → n < 0 → (U.length : ℤ) = n + p + 1 → 2 ≤ U.length →
      checkKnotVectorZ p U n = .error .valueError) ∧
    ∀ p n : ℤ, 0 ≤ p → n < 0 → (U.length : ℤ) = n + p + 1 → U.length = 1 →
      checkKnotVectorZ p U n = .ok false := by
  by_cases hc : ∀ x ∈ U, ∀ y ∈ U, x = y
  · have hn := normalize_const hne hc
    have hs : U.Pairwise (· ≤ ·) := by
      rw [List.pairwise_iff_getElem]
      intro i j hi hj _
      exact (hc _ (List.getElem_mem hi) _ (List.getElem_mem hj)).le
    have hpos := List.length_pos_iff.2 hne
    unfold checkKnotVectorZ checkKnotVector
    rw [hn]
    dsimp only
    refine ⟨fun p n => ?_, fun n => ?_, fun p n h => if_pos h, fun p n hp h => ?_,
      fun p n hp hn h h2 => ?_, fun p n hp hn h h2 => ?_⟩
    · split
      · rfl
      · next h =>
        rw [zerosZ_nat (p + 1) (by push_cast; ring), ok_bind, if_neg]
        · simp [zeros, List.replicate_succ]
        · rw [← Nat.cast_add_one, pySlice_zero _ _ (by omega)]
          simp [zeros]; omega
    · split
      · next h => exact ⟨false, rfl, by simp; intro h'; omega⟩
      · next h =>
        rw [zerosZ_nat 0 (by simp), ok_bind, if_neg]
        · refine ⟨_, rfl, ?_⟩
          simp [zeros, hs]; omega
        · simp [pySlice, clipBound, zeros]
    · rw [if_neg (not_not.2 h), zerosZ, if_pos (by omega)]; rfl
    · lift p to ℕ using hp
      rw [if_neg (not_not.2 h), zerosZ_nat (p + 1) (by push_cast; ring), ok_bind, if_pos]
      rw [← Nat.cast_add_one, pySlice_all _ _ (by omega)]
      simp only [zeros, List.length_replicate]
      omega
    · lift p to ℕ using hp
      rw [if_neg (not_not.2 h), zerosZ_nat (p + 1) (by push_cast; ring), ok_bind, if_neg]
      · simp [zeros, List.replicate_succ]
      · rw [← Nat.cast_add_one, pySlice_all _ _ (by omega)]
        omega
  · push Not at hc
    obtain ⟨x, hx, y, hy, hxy⟩ := hc
    obtain ⟨lo, hi, -, -, -, -, W, hW, -, hWl, h01, m0, m1, -, hord⟩ := normalize_affine hx hy hxy
    have h2 : 2 ≤ U.length := by
      obtain ⟨i, hi, rfl⟩ := List.getElem_of_mem hx
      obtain ⟨j, hj, rfl⟩ := List.getElem_of_mem hy
      have : i ≠ j := fun e => hxy (by subst e; rfl)
      omega
    have hWne : W ≠ [] := List.ne_nil_of_mem m0
    unfold checkKnotVectorZ checkKnotVector
    rw [hW]
    dsimp only
    rw [hWl]
    refine ⟨fun p n => ?_, fun n => ?_, fun p n h => if_pos h, fun p n hp h => ?_,
      fun p n hp hn h h2 => ?_, fun p n hp hn h h2 => ?_⟩
    · unfold checkNormalized
      rw [hWl]
      by_cases h : (U.length : ℤ) ≠ (n : ℤ) + p + 1
      · rw [if_pos h, if_pos (by omega)]
      · rw [if_neg h, if_neg (by omega), zerosZ_nat (p + 1) (by push_cast; ring), ok_bind, if_neg]
        · have hz : (zeros (p + 1) : List K) ≠ [] := by simp [zeros]
          simp only [hz, or_false]
        · rw [← Nat.cast_add_one, pySlice_zero _ _ (by omega)]
          simp [zeros]; omega
    · by_cases h : (U.length : ℤ) ≠ n + (-1) + 1
      · rw [if_pos h]; exact ⟨false, rfl, by simp; intro h'; omega⟩
      rw [if_neg h, zerosZ_nat 0 (by simp), ok_bind, if_neg (by simp [pySlice, clipBound, zeros]),
        if_neg (by simp [pySlice, clipBound])]
      obtain ⟨a, l, rfl⟩ : ∃ a l, W = a :: l := by
        cases W with
        | nil => exact absurd rfl hWne
        | cons a l => exact ⟨a, l, rfl⟩
      have e : (-1 * (-1 + 1) : ℤ) = 0 := by norm_num
      rw [e, pyGet_nat (a :: l) 0 0 0 rfl (by simp), ok_bind, if_neg (by simp [zeros]), ok_bind]
      refine ⟨_, rfl, ?_⟩
      have e0 : (a :: l).getD 0 0 = a := rfl
      rw [e0, increasingFrom_head, List.pairwise_iff_getElem, List.pairwise_iff_getElem]
      constructor
      · intro hp
        refine ⟨by omega, fun i j hi hj hij => ?_⟩
        have := hp i j (by omega) (by omega) hij
        rw [← knotFn_eq (by omega), ← knotFn_eq (by omega), (hord i j hi hj).1, knotFn_eq hi,
          knotFn_eq hj] at this
        exact this
      · rintro ⟨-, hp⟩ i j hi hj hij
        have := hp i j (by omega) (by omega) hij
        rw [← knotFn_eq (by omega), ← knotFn_eq (by omega), (hord i j (by omega) (by omega)).1,
          knotFn_eq (by omega), knotFn_eq (by omega)]
        exact this
    · rw [if_neg (not_not.2 h), zerosZ, if_pos (by omega)]; rfl
    · lift p to ℕ using hp
      rw [if_neg (not_not.2 h), zerosZ_nat (p + 1) (by push_cast; ring), ok_bind, if_pos]
      rw [← Nat.cast_add_one, pySlice_all _ _ (by omega)]
      simp only [zeros, List.length_replicate]
      omega
    · omega

/-- **C154.** `generate_uniform` returns exactly for `0 ≤ degree ≤ num_ctrlpts + 1`, and then it is
the function of C08; for all other integers it raises `ValueError`. -/
theorem generate_uniform_int (p n : ℤ) :
    (0 ≤ p → p ≤ n + 1 → 0 ≤ n → generateUniformZ (K := K) p n = generateUniform p.toNat n.toNat ∧
      ∃ U : List K, generateUniformZ p n = .ok U ∧ (U.length : ℤ) = n + p + 1) ∧
    (generateUniformZ (K := K) 0 (-1) = .ok []) ∧
    (¬ (0 ≤ p ∧ p ≤ n + 1) → generateUniformZ (K := K) p n = .error .valueError) := by
  refine ⟨fun h0 h1 h2 => ?_, ?_, fun h => ?_⟩
  · lift p to ℕ using h0
    lift n to ℕ using h2
    have e : generateUniformZ (K := K) p n = generateUniform p n := by
      unfold generateUniformZ generateUniform
      dsimp only
      rw [zerosZ_nat p rfl, onesZ_nat p rfl]
      rfl
    refine ⟨e, ?_⟩
    rw [e]
    unfold generateUniform linspace
    dsimp only
    rw [if_neg (by omega)]
    split
    · refine ⟨_, rfl, ?_⟩
      simp [zeros, ones]; omega
    · refine ⟨_, rfl, ?_⟩
      simp [zeros, ones]; omega
  · simp [generateUniformZ, linspace, zerosZ, onesZ, zeros, ones]
  · unfold generateUniformZ linspace
    dsimp only
    split
    · rfl
    · have hp : p < 0 := by omega
      have ez : (zerosZ p : Py (List K)) = .error .valueError := if_pos hp
      split <;> rw [ok_bind, ez] <;> rfl

/-- **C154.** `curve_knot_insertion` for integer `num_inserts`: for natural numbers it is the
function of C10; below minus the number of control points it raises `ValueError`; with `-1` it
deletes, without an exception, knot `k` and control point `k - degree`, where `k` is the span of the
given knot, as long as the multiplicity of that knot is below the degree. -/
theorem curve_knot_insertion_int {p n : ℕ} {U : List K} {P : List (List K)} (u : K) :
    (∀ r : ℕ, curveKnotInsertionZ p U P u r = curveKnotInsertion p U P u r) ∧
    (∀ (r k : ℤ), findSpan P.length p u U = .ok k → r < -(P.length : ℤ) →
      curveKnotInsertionZ p U P u r = .error .valueError) ∧
    ∀ k : ℕ, U.length = n + p + 1 → Shape P n 3 → p ≤ k → k < n →
      findSpan n p u U = .ok (k : ℤ) → findMultiplicity u U < p →
      curveKnotInsertionZ p U P u (-1) = .ok (U.eraseIdx k, P.eraseIdx (k - p)) := by
  refine ⟨fun r => ?_, fun r k hk hr => ?_, fun k hl hP hpk hk hfs hs => ?_⟩
  · unfold curveKnotInsertionZ curveKnotInsertion
    rw [zerosZ_nat (U.length + r) (by push_cast; ring),
      zeros2Z_nat (b := 3) (P.length + r) 3 (by push_cast; ring) rfl]
    rfl
  · have e2 : (zeros2Z ((P.length : ℤ) + r) 3 : Py (List (List K))) = .error .valueError :=
      if_pos (.inl (by omega))
    unfold curveKnotInsertionZ
    rw [hk, ok_bind]
    dsimp only
    rw [e2]
    unfold zerosZ
    split <;> rfl
  · have hPl := hP.1
    unfold curveKnotInsertionZ
    rw [hPl, hfs, ok_bind]
    dsimp only
    rw [zerosZ_nat (n + p) (by omega), ok_bind, zeros2Z_nat (b := 3) (n - 1) 3 (by omega) rfl, ok_bind]
    have hkv := removal_knots hl hk (by omega)
    have hrow := removal_rows hP hpk hk hs
    have e1 : ∀ {σ : Type} (st : σ) (f : ℤ → σ → Py σ), forZ 1 (-1 + 1) st f = .ok st :=
      fun st f => forZ_empty (by norm_num) st f
    have inv : ∀ {α β : Type} {x : Py α} {f : α → Py β} {y : β}, (x >>= f) = .ok y →
        ∃ a, x = .ok a ∧ f a = .ok y := by
      intro α β x f y h
      cases x with
      | error e => cases h
      | ok a => exact ⟨a, rfl, h⟩
    obtain ⟨kv, a1, a2⟩ := inv hkv
    obtain ⟨m1, b1, hrow⟩ := inv hrow
    obtain ⟨m2, b2, hrow⟩ := inv hrow
    obtain ⟨R, b3, b4⟩ := inv hrow
    rw [a1, ok_bind, e1, ok_bind, a2, ok_bind, b1, ok_bind, b2, ok_bind, b3, ok_bind, e1, ok_bind]
    dsimp only
    rw [b4, ok_bind]

/-- Asked for `-1` insertions of `3/4`, the function drops the knot `1/2` and the second of four
control points: the curve it returns is another one (its point at `1/2` has changed). -/
example :
    curveKnotInsertionZ 2 [0, 0, 0, 1 / 2, 1, 1, 1] [[0, 0, 0], [1, 2, 0], [3, 2, 0], [4, 0, 0]]
      (3 / 4 : ℚ) (-1) = .ok ([0, 0, 0, 1, 1, 1], [[0, 0, 0], [3, 2, 0], [4, 0, 0]]) ∧
    curve (knotFn [0, 0, 0, 1 / 2, 1, 1, 1]) 2 4
      (coord [[0, 0, 0], [1, 2, 0], [3, 2, 0], [4, 0, 0]] 0) (1 / 2 : ℚ) = 2 ∧
    curve (knotFn [0, 0, 0, 1, 1, 1]) 2 3 (coord [[0, 0, 0], [3, 2, 0], [4, 0, 0]] 0)
      (1 / 2 : ℚ) = 5 / 2 ∧
    curveKnotInsertionZ 2 [0, 0, 0, 1 / 2, 1, 1, 1] [[0, 0, 0], [1, 2, 0], [3, 2, 0], [4, 0, 0]]
      (3 / 4 : ℚ) (-2) = .error .indexError ∧
    curveKnotInsertionZ 2 [0, 0, 0, 1 / 2, 1, 1, 1] [[0, 0, 0], [1, 2, 0], [3, 2, 0], [4, 0, 0]]
      (3 / 4 : ℚ) (-5) = .error .valueError := by decide +kernel

end PySpline
