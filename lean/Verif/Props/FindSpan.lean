import Verif.Lemmas.FindSpan
import Verif.Lemmas.BasisFunctions
import Mathlib.Tactic.IntervalCases

/-!
# C01–C04: `find_span`
-/

set_option linter.unusedSectionVars false

namespace PySpline

open Spec

section order
variable {α : Type} [LinearOrder α]

/-- **C01.** For any linear order and any reflexive end test: a returned span lies in
`[degree, num_ctrlpts - 1]` and brackets the parameter, or the end test fired.  (The knots need
not even be sorted.) -/
theorem find_span_brackets (close : α → α → Bool) (hrefl : ∀ x, close x x = true)
    (fuel n p : ℕ) (u : α) (U : List α) (hpn : p < n)
    (hn : n < U.length) (hu : u ≤ U[n]) (k : ℤ)
    (h : findSpanWith close fuel n p u U = .ok k) :
    ∃ m : ℕ, k = m ∧ p ≤ m ∧ m ≤ n - 1 ∧
      ((∃ h : m + 1 < U.length, U[m] ≤ u ∧ u ≤ U[m + 1]) ∨ (close u U[n] = true ∧ m = n - 1)) := by
  unfold findSpanWith at h
  rw [pyGet_getElem U _ n rfl hn, ok_bind] at h
  by_cases hc : close u U[n] = true
  · rw [if_pos hc] at h
    refine ⟨n - 1, ?_, by omega, le_rfl, Or.inr ⟨hc, rfl⟩⟩
    have := Except.ok.inj h
    omega
  · rw [if_neg hc] at h
    obtain ⟨b1, b2, -, -⟩ := findSpanMid0_bounds hpn
    obtain ⟨m, a, b, c, d, e, f⟩ := findSpanLoop_bracket u U fuel p n _ k b1.le b2 hn h
    refine ⟨m, a, b, ?_, Or.inl ⟨d, e, f⟩⟩
    have hlt : u < U[n] := lt_of_le_of_ne hu fun e => hc (by rw [e]; exact hrefl _)
    by_contra hcon
    have : m = n := by omega
    subst this
    exact absurd (e.trans_lt hlt) (lt_irrefl _)

/-- **C02.** On the domain the search ends, within `f + 2` evaluations of the loop condition
when `num_ctrlpts - degree ≤ 2 ^ f`. -/
theorem find_span_terminates (close : α → α → Bool) (hrefl : ∀ x, close x x = true)
    (f n p : ℕ) (u : α) (U : List α) (hpn : p < n)
    (hn : n < U.length) (hlo : U[p] ≤ u) (hhi : u ≤ U[n]) (hf : n - p ≤ 2 ^ f) :
    ∃ k, findSpanWith close (f + 2) n p u U = .ok k := by
  unfold findSpanWith
  rw [pyGet_getElem U _ n rfl hn, ok_bind]
  by_cases hc : close u U[n] = true
  · rw [if_pos hc]; exact ⟨_, rfl⟩
  · rw [if_neg hc]
    have hlt : u < U[n] := lt_of_le_of_ne hhi fun e => hc (by rw [e]; exact hrefl _)
    obtain ⟨b1, b2, b3, b4⟩ := findSpanMid0_bounds hpn
    set mid := findSpanMid0 n p
    unfold findSpanLoop
    rw [pyGet_getElem U _ mid rfl (by omega), ok_bind]
    by_cases h1 : u < U[mid]
    · rw [if_pos h1]
      exact findSpanLoop_terminates u U f p mid b1 (by omega) (by omega) hlo h1
    · rw [if_neg h1]
      have hmn : mid < n := by
        refine lt_of_le_of_ne b2 fun e => h1 ?_
        have : U[mid] = U[n] := by congr 1
        rw [this]; exact hlt
      rw [pyGet_getElem U _ (mid + 1) (by push_cast; rfl) (by omega), ok_bind]
      by_cases h2 : u > U[mid + 1]
      · rw [if_pos h2]
        exact findSpanLoop_terminates u U f mid n hmn hn (by omega) (not_lt.1 h1) hlt
      · rw [if_neg h2]; exact ⟨_, rfl⟩

/-- Fuel adequacy: a run that does not run out of fuel gives the same result with any larger
fuel, so `diverged` for every fuel means that the Python loop never ends. -/
theorem find_span_fuel_mono (close : α → α → Bool) (f g n p : ℕ) (u : α) (U : List α)
    (hfg : f ≤ g) (h : findSpanWith close f n p u U ≠ .error .diverged) :
    findSpanWith close g n p u U = findSpanWith close f n p u U := by
  unfold findSpanWith at h ⊢
  rcases hn : pyGet U (n : ℤ) with e | a
  · rfl
  · rw [hn] at h
    simp only [ok_bind] at h ⊢
    by_cases hc : close u a = true
    · rw [if_pos hc, if_pos hc]
    · rw [if_neg hc] at h
      rw [if_neg hc, if_neg hc]
      exact findSpanLoop_mono u U f g _ _ _ hfg h

/-- **C03**, below the domain. -/
theorem find_span_hangs_below (close : α → α → Bool) (n p : ℕ) (u : α) (U : List α)
    (hU : U.Pairwise (· ≤ ·)) (hpn : p < n) (hn : n < U.length) (hlo : u < U[p])
    (hc : close u U[n] = false) (fuel : ℕ) :
    findSpanWith close fuel n p u U = .error .diverged := by
  unfold findSpanWith
  obtain ⟨b1, b2, -, -⟩ := findSpanMid0_bounds hpn
  rw [pyGet_getElem U _ n rfl hn, ok_bind, if_neg (by simp [hc])]
  exact findSpanLoop_below u U hU fuel p n _ (by omega) b1.le hlo

/-- **C03**, above the domain.  With `num_ctrlpts = degree + 1` the first probe already looks at
`knot_vector[num_ctrlpts + 1]`, so there the parameter has to be above that knot too. -/
theorem find_span_hangs_above (close : α → α → Bool) (n p : ℕ) (u : α) (U : List α)
    (hU : U.Pairwise (· ≤ ·)) (hpn : p < n) (hn : n + 1 < U.length) (hhi : U[n] < u)
    (hfirst : n = p + 1 → U[n + 1] < u) (hc : close u U[n] = false) (fuel : ℕ) :
    findSpanWith close fuel n p u U = .error .diverged := by
  unfold findSpanWith
  obtain ⟨b1, b2, b3, b4⟩ := findSpanMid0_bounds hpn
  rw [pyGet_getElem U _ n rfl (by omega), ok_bind, if_neg (by simp [hc])]
  by_cases hp : n = p + 1
  · cases fuel with
    | zero => rfl
    | succ fuel =>
      have e : findSpanMid0 n p = n := by omega
      rw [e]
      unfold findSpanLoop
      rw [pyGet_getElem U _ n rfl (by omega), ok_bind, if_neg hhi.le.not_gt,
        pyGet_getElem U _ (n + 1) (by push_cast; rfl) hn, ok_bind, if_pos (hfirst hp)]
      have e2 : (n + n) / 2 = n := by omega
      rw [e2]
      clear e2 e b4 b3 b2 b1
      induction fuel with
      | zero => rfl
      | succ fuel ih =>
        unfold findSpanLoop
        rw [pyGet_getElem U _ n rfl (by omega), ok_bind, if_neg hhi.le.not_gt,
          pyGet_getElem U _ (n + 1) (by push_cast; rfl) hn, ok_bind, if_pos (hfirst hp),
          show (n + n) / 2 = n by omega]
        exact ih
  · exact findSpanLoop_above u U hU fuel p n _ (by omega) hpn (by omega) hhi

end order

section field
variable {K : Type} [Field K] [LinearOrder K] [IsStrictOrderedRing K]

theorem isclose_refl (a rtol atol : K) (h1 : 0 ≤ rtol) (h2 : 0 ≤ atol) :
    isclose a a rtol atol = true := by
  unfold isclose
  simp only [sub_self, abs_zero, decide_eq_true_eq]
  exact add_nonneg h2 (mul_nonneg h1 (abs_nonneg a))

/-- The end test of `find_span` with its default tolerances. -/
def nearEnd (n : ℕ) (u : K) (U : List K) : Bool :=
  isclose u (knotFn U n) (1 / 10 ^ 6) atolDefault

/-- C01 and C02 together for the function as called everywhere in the package. -/
theorem find_span_on_domain {n p : ℕ} {u : K} {U : List K} (hU : KnotVector p n U)
    (hlo : knotFn U p ≤ u) (hhi : u ≤ knotFn U n) :
    ∃ m : ℕ, findSpan n p u U = .ok (m : ℤ) ∧ p ≤ m ∧ m < n ∧
      ((knotFn U m ≤ u ∧ u ≤ knotFn U (m + 1)) ∨ (nearEnd n u U = true ∧ m = n - 1)) := by
  have hlen := hU.len
  have hpn := hU.size
  have hn : n < U.length := by omega
  have hrefl : ∀ x : K, (fun a b => isclose a b (1 / 10 ^ 6) atolDefault) x x = true := fun x =>
    isclose_refl x _ _ (by positivity) (by unfold atolDefault; positivity)
  rw [knotFn_eq (by omega)] at hlo hhi
  obtain ⟨k, hk⟩ := find_span_terminates (fun a b => isclose a b (1 / 10 ^ 6) atolDefault) hrefl
    (n + p + 1) n p u U hpn hn hlo hhi
    (by have := Nat.lt_two_pow_self (n := n + p + 1); omega)
  have hk' : findSpan n p u U = .ok k := hk
  obtain ⟨m, rfl, h2, h3, h4⟩ := find_span_brackets _ hrefl _ n p u U hpn hn hhi k hk
  refine ⟨m, hk', h2, by omega, ?_⟩
  rcases h4 with ⟨h, h5, h6⟩ | ⟨h5, h6⟩
  · left; rw [knotFn_eq h, knotFn_eq (by omega)]; exact ⟨h5, h6⟩
  · right; refine ⟨?_, h6⟩; unfold nearEnd; rw [knotFn_eq hn]; exact h5

/-- **C04.** The returned span is empty only if the parameter is exactly a knot repeated inside the
domain, or if the end test fired and the last span is itself empty. -/
theorem find_span_positive_span {n p : ℕ} {u : K} {U : List K} (hU : KnotVector p n U)
    (hlo : knotFn U p ≤ u) (hhi : u ≤ knotFn U n) :
    ∃ m : ℕ, findSpan n p u U = .ok (m : ℤ) ∧ p ≤ m ∧ m < n ∧
      (knotFn U m < knotFn U (m + 1) ∨ (knotFn U m = u ∧ knotFn U (m + 1) = u) ∨
        (nearEnd n u U = true ∧ m = n - 1 ∧ knotFn U (n - 1) = knotFn U n)) := by
  obtain ⟨m, h1, h2, h3, h4⟩ := find_span_on_domain hU hlo hhi
  refine ⟨m, h1, h2, h3, ?_⟩
  have hlen := hU.len
  have hle : knotFn U m ≤ knotFn U (m + 1) := by
    rw [knotFn_eq (by omega), knotFn_eq (by omega)]
    exact List.pairwise_iff_getElem.1 hU.mono m (m + 1) _ _ (by omega)
  rcases hle.lt_or_eq with h | h
  · exact Or.inl h
  · rcases h4 with ⟨h5, h6⟩ | ⟨h5, h6⟩
    · refine Or.inr (Or.inl ⟨le_antisymm h5 (h ▸ h6), le_antisymm (h ▸ h5) h6⟩)
    · refine Or.inr (Or.inr ⟨h5, h6, ?_⟩)
      subst h6
      rwa [Nat.sub_add_cancel (by omega)] at h

/-- **C04** when all spans inside the domain have positive length. -/
theorem find_span_positive_span_distinct {n p : ℕ} {u : K} {U : List K} (hU : KnotVector p n U)
    (hd : DistinctInterior p n U) (hlo : knotFn U p ≤ u) (hhi : u ≤ knotFn U n) :
    ∃ m : ℕ, findSpan n p u U = .ok (m : ℤ) ∧ p ≤ m ∧ m < n ∧
      knotFn U m < knotFn U (m + 1) := by
  obtain ⟨m, h1, h2, h3, -⟩ := find_span_on_domain hU hlo hhi
  exact ⟨m, h1, h2, h3, hd m h2 h3⟩

end field

/-! ## Concrete cases -/

/-- A clamped degree 2 knot vector used in the examples. -/
def exU : List ℚ := [0, 0, 0, 1/4, 1/2, 3/4, 1, 1, 1]

theorem exU_knotVector : KnotVector 2 6 exU :=
  ⟨by decide +kernel, by decide +kernel, by decide⟩

theorem exU_distinct : DistinctInterior 2 6 exU := by
  intro i h1 h2
  interval_cases i <;> decide +kernel

/-- The same with a double interior knot. -/
def exDouble : List ℚ := [0, 0, 0, 1/4, 1/2, 1/2, 1, 1, 1]

theorem exDouble_clamped : Clamped 2 6 exDouble where
  len := by decide +kernel
  mono := by decide +kernel
  size := by decide
  left := by intro i hi; interval_cases i <;> decide +kernel
  right := by intro i h1 h2; interval_cases i <;> decide +kernel

/-- **C04**, the exceptions occur: on a valid clamped knot vector with a double knot `find_span`
returns an empty span at that knot, and `basis_functions` then divides by zero. -/
theorem find_span_empty_span_witness :
    findSpan 6 2 (1/2) exDouble = .ok 4 ∧ knotFn exDouble 4 = knotFn exDouble 5 ∧
    checkKnotVector 2 exDouble 6 = .ok true ∧
    basisFunctions 4 (1/2) 2 exDouble = .error .nonfinite := by
  decide +kernel

example : findSpan 6 2 (3/10) exU = .ok 3 ∧ findSpan 6 2 (3/4) exU = .ok 4 ∧
    findSpan 6 2 1 exU = .ok 5 ∧ findSpan 6 2 0 exU = .ok 2 := by decide +kernel

/-- C02 with `f = 2`: four control point spans, at most four probes. -/
example : ∃ k, findSpanWith (fun a b : ℚ => decide (a = b)) (2 + 2) 6 2 (3/10) exU = .ok k :=
  find_span_terminates _ (by simp) 2 6 2 _ exU (by decide) (by decide)
    (by decide +kernel) (by decide +kernel) (by decide)

example (fuel : ℕ) : findSpanWith (fun a b : ℚ => decide (a = b)) fuel 6 2 (-1) exU
    = .error .diverged :=
  find_span_hangs_below _ 6 2 _ exU exU_knotVector.mono (by decide) (by decide)
    (by decide +kernel) (by decide +kernel) fuel

example (fuel : ℕ) : findSpanWith (fun a b : ℚ => decide (a = b)) fuel 6 2 2 exU
    = .error .diverged :=
  find_span_hangs_above _ 6 2 _ exU exU_knotVector.mono (by decide) (by decide)
    (by decide +kernel) (by decide) (by decide +kernel) fuel

end PySpline
