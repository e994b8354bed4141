import Verif.Lemmas.Interlace

/-!
# When a curve fit is determined by the data

C109, the converse: for knot vectors whose interior knots have multiplicity at most the degree, the
Schoenberg–Whitney condition on the data parameters is also necessary.
-/

set_option linter.unusedSectionVars false

namespace PySpline

open Spec Finset

variable {K : Type} [Field K] [LinearOrder K] [IsStrictOrderedRing K]
variable {c : Curve K} {data : List (List K)} {m n : ℕ} {ls : ℕ → List (List K) → List K → List K}

/-- **C109.** The curve that `single_fit_curve` returns is the only minimizer of the sum of the squared distances
exactly if the parameters of the data interlace with the knots. -/
theorem single_fit_curve_unique_iff (hls : IsLstsq ls) (hU : Clamped c.degree n c.kv) (hp : 1 ≤ c.degree)
    (hmult : ∀ j, 1 ≤ j → j + 1 < n → knotFn c.kv j < knotFn c.kv (j + c.degree))
    (hfirst : knotFn c.kv c.degree < knotFn c.kv (c.degree + 1)) (hP : Shape c.ctrlpts n 3) (hd : Shape data m 4)
    (hdom : ∀ r < m, knotFn c.kv c.degree ≤ at2 data r 3 0 ∧ at2 data r 3 0 ≤ knotFn c.kv n) :
    ∃ c', singleFitCurve ls c data = .ok c' ∧ ∀ k < 3,
      ((∀ z : ℕ → K, z 0 = coord c.ctrlpts k 0 → z (n - 1) = coord c.ctrlpts k (n - 1) →
        ∑ r ∈ range m, (curve (knotFn c.kv) c.degree n z (at2 data r 3 0) - at2 data r k 0) ^ 2
          ≤ ∑ r ∈ range m, (curve (knotFn c.kv) c.degree n (coord c'.ctrlpts k) (at2 data r 3 0)
              - at2 data r k 0) ^ 2 →
        ∀ i < n, z i = coord c'.ctrlpts k i)
      ↔ Determined c.degree n (knotFn c.kv) m fun r => at2 data r 3 0) := by
  obtain ⟨c', h, -, -, -, hends, -⟩ := single_fit_curve_optimal hls hU hfirst hP hd hdom
  refine ⟨c', h, fun k hk => ⟨fun huniq => ?_, fun hdet => ?_⟩⟩
  · refine determined_of_injective hU hmult fun e e0 e1 hz i hi => ?_
    have := huniq (fun i => coord c'.ctrlpts k i + 1 * e i) (by rw [e0, (hends k hk).1]; ring)
      (by rw [e1, (hends k hk).2]; ring) (le_of_eq (sum_congr rfl fun r hr => by
        rw [curve_add_mul, hz r (mem_range.1 hr), mul_zero, add_zero])) i hi
    simpa using this
  · obtain ⟨c'', h', hu⟩ := single_fit_curve_unique hls hU hp hfirst hP hd hdom hdet
    cases Except.ok.inj (h.symm.trans h')
    exact hu k hk

/-- Data that determine the inner control points are at least as many. -/
theorem Determined.card_le {p : ℕ} {U t : ℕ → K} (h : Determined p n U m t) : n - 2 ≤ m := by
  obtain ⟨r, hr, hinc⟩ := h
  have hlt : ∀ d j, 1 ≤ j → j + d + 2 < n → t (r j) < t (r (j + d + 1)) := by
    intro d
    induction d with
    | zero => exact fun j h1 h2 => hinc j h1 h2
    | succ d ih => exact fun j h1 h2 => (ih j h1 (by omega)).trans (hinc (j + d + 1) (by omega) (by omega))
  have := Finset.card_le_card_of_injOn (s := Finset.Ico 1 (n - 1)) (t := range m) r
    (fun j hj => by
      have := mem_Ico.1 (mem_coe.1 hj)
      exact mem_coe.2 (mem_range.2 (hr j this.1 (by omega)).1))
    (fun i hi j hj hij => by
      have h1 := mem_Ico.1 (mem_coe.1 hi)
      have h2 := mem_Ico.1 (mem_coe.1 hj)
      rcases lt_trichotomy i j with hl | hl | hl
      · have := hlt (j - i - 1) i h1.1 (by omega)
        rw [show i + (j - i - 1) + 1 = j by omega, hij] at this
        exact absurd this (lt_irrefl _)
      · exact hl
      · have := hlt (i - j - 1) j h2.1 (by omega)
        rw [show j + (i - j - 1) + 1 = i by omega, hij] at this
        exact absurd this (lt_irrefl _))
  rw [Nat.card_Ico, card_range] at this
  omega

/-- **C109.** With fewer data points than inner control points there is, in every coordinate, another curve with the
same ends and the same sum of squared distances as the one that `single_fit_curve` returns. -/
theorem single_fit_curve_few (hls : IsLstsq ls) (hU : Clamped c.degree n c.kv) (hp : 1 ≤ c.degree)
    (hmult : ∀ j, 1 ≤ j → j + 1 < n → knotFn c.kv j < knotFn c.kv (j + c.degree))
    (hfirst : knotFn c.kv c.degree < knotFn c.kv (c.degree + 1)) (hP : Shape c.ctrlpts n 3) (hd : Shape data m 4)
    (hdom : ∀ r < m, knotFn c.kv c.degree ≤ at2 data r 3 0 ∧ at2 data r 3 0 ≤ knotFn c.kv n) (hfew : m + 2 < n) :
    ∃ c', singleFitCurve ls c data = .ok c' ∧ ∀ k < 3, ∃ z : ℕ → K, z 0 = coord c.ctrlpts k 0 ∧
      z (n - 1) = coord c.ctrlpts k (n - 1) ∧
      ∑ r ∈ range m, (curve (knotFn c.kv) c.degree n z (at2 data r 3 0) - at2 data r k 0) ^ 2
        ≤ ∑ r ∈ range m, (curve (knotFn c.kv) c.degree n (coord c'.ctrlpts k) (at2 data r 3 0)
            - at2 data r k 0) ^ 2 ∧
      ∃ i < n, z i ≠ coord c'.ctrlpts k i := by
  obtain ⟨c', h, hiff⟩ := single_fit_curve_unique_iff hls hU hp hmult hfirst hP hd hdom
  refine ⟨c', h, fun k hk => ?_⟩
  by_contra hc
  push Not at hc
  have := ((hiff k hk).1 hc).card_le
  omega

theorem exWhitney_mult : ∀ j, 1 ≤ j → j + 1 < 5 → knotFn exWhitney.kv j < knotFn exWhitney.kv (j + exWhitney.degree) := by
  intro j h1 h2
  have : j < 4 := by omega
  interval_cases j <;> decide +kernel

/-- C109: three data points with only two parameters do not determine the three inner control points. -/
example (ls : ℕ → List (List ℚ) → List ℚ → List ℚ) (hls : IsLstsq ls) :
    ∃ c', singleFitCurve ls exWhitney [[1, 2, 3, 1/4], [2, 0, 1, 1/4], [3, 3, 3, 3/4]] = .ok c' ∧
      ¬ ∀ z : ℕ → ℚ, z 0 = coord exWhitney.ctrlpts 0 0 → z 4 = coord exWhitney.ctrlpts 0 4 →
        ∑ r ∈ range 3, (curve (knotFn exWhitney.kv) 3 5 z
            (at2 [[1, 2, 3, 1/4], [2, 0, 1, 1/4], [3, 3, 3, 3/4]] r 3 0)
            - at2 [[1, 2, 3, 1/4], [2, 0, 1, 1/4], [3, 3, 3, 3/4]] r 0 0) ^ 2
          ≤ ∑ r ∈ range 3, (curve (knotFn exWhitney.kv) 3 5 (coord c'.ctrlpts 0)
              (at2 [[1, 2, 3, 1/4], [2, 0, 1, 1/4], [3, 3, 3, 3/4]] r 3 0)
              - at2 [[1, 2, 3, 1/4], [2, 0, 1, 1/4], [3, 3, 3, 3/4]] r 0 0) ^ 2 →
        ∀ i < 5, z i = coord c'.ctrlpts 0 i := by
  obtain ⟨c', h, hiff⟩ := single_fit_curve_unique_iff (c := exWhitney) (n := 5) (m := 3)
    (data := [[1, 2, 3, 1/4], [2, 0, 1, 1/4], [3, 3, 3, 3/4]]) hls
    exWhitney_clamped (by decide) exWhitney_mult (by decide +kernel) ⟨rfl, by decide +kernel⟩ ⟨rfl, by decide +kernel⟩
    (by intro r hr; interval_cases r <;> decide +kernel)
  refine ⟨c', h, fun hu => ?_⟩
  obtain ⟨r, hr, hinc⟩ := (hiff 0 (by decide)).1 hu
  have a1 := (hr 1 (by omega) (by omega)).1
  have a2 := (hr 2 (by omega) (by omega)).1
  have a3 := (hr 3 (by omega) (by omega)).1
  have b1 := hinc 1 (by omega) (by omega)
  have b2 := hinc 2 (by omega) (by omega)
  norm_num at b1 b2
  generalize r 1 = x at *
  generalize r 2 = y at *
  generalize r 3 = w at *
  revert b1 b2
  interval_cases x <;> interval_cases y <;> interval_cases w <;> decide +kernel

/-- C109: two data points leave the three inner control points undetermined. -/
example (ls : ℕ → List (List ℚ) → List ℚ → List ℚ) (hls : IsLstsq ls) :=
  single_fit_curve_few (c := exWhitney) (n := 5) (m := 2) (data := [[1, 2, 3, 1/4], [2, 0, 1, 1/2]]) hls
    exWhitney_clamped (by decide) exWhitney_mult (by decide +kernel) ⟨rfl, by decide +kernel⟩ ⟨rfl, by decide +kernel⟩
    (by intro r hr; interval_cases r <;> decide +kernel) (by decide)

end PySpline
