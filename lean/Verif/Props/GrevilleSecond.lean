import Verif.Lemmas.GrevilleSecond
import Verif.Props.Greville

/-!
# C163: the distance of the control points from the curve is of second order
-/

set_option linter.unusedSectionVars false

namespace PySpline

open Spec

variable {K : Type} [Field K] [LinearOrder K] [IsStrictOrderedRing K]

/-- **C163.** If the slopes `m i` of the control polygon change by at most `M` times the distance of their knot
averages, then the control points are within `2 M h²` of the points of the curve at their knot averages, `h` the
width of the widest window of `p + 1` spans. -/
theorem control_point_near_curve_second {p n : ℕ} {U : List K} {P : List (List K)} (hU : Clamped p n U) (hp : 2 ≤ p)
    (hP : Shape P n 3) (hgap : ∀ i, i + 1 < n → knotFn U (i + 1) < knotFn U (i + p + 1)) {k : ℕ} (hk : k < 3)
    {M h : K} (hM : 0 ≤ M) {m : ℕ → K}
    (hm : ∀ i, m i = p * (coord P k (i + 1) - coord P k i) / (knotFn U (i + p + 1) - knotFn U (i + 1)))
    (hc : ∀ i, i + 2 < n → |m (i + 1) - m i| * (p - 1 : ℕ) ≤ M * (knotFn U (i + p + 1) - knotFn U (i + 2)))
    (hh : ∀ i < n, knotFn U (i + p + 1) - knotFn U i ≤ h) {i : ℕ} (hi : i < n) {u : K}
    (hu : u = (∑ j ∈ Finset.range p, knotFn U (i + 1 + j)) / p) (h0 : 0 ≤ u) (h1 : u ≤ 1) (hr : Regular p n U u) :
    ∃ x, Curve.singlePoint ⟨p, P, U⟩ u = .ok x ∧ |coord P k i - x.getD k 0| ≤ 2 * M * h ^ 2 := by
  refine ⟨_, single_point_bspline_sum hU (by omega) hP le_rfl h0 h1 hr, ?_⟩
  obtain rfl : m = slope (knotFn U) p (coord P k) := funext hm
  have key := coeff_near_curve_second hU hp hgap hM hc hh hi
  rw [show greville (knotFn U) p i = u from hu.symm] at key
  interval_cases k <;> simpa using key

/-- One call of `curve_knot_insertion` with a new knot keeps the bound. -/
theorem knot_insertion_second {U U' : List K} {P P' : List (List K)} {n p : ℕ} {u : K}
    (hU : Clamped p n U) (hp : 2 ≤ p) (hP : Shape P n 3) (hlo : knotFn U p ≤ u) (hhi : u ≤ knotFn U n)
    (hnew : ∀ x ∈ U, ¬ |u - x| ≤ 1 / 10 ^ 8 + 1 / 10 ^ 5 * |x|)
    (hret : curveKnotInsertion p U P u 1 = .ok (U', P'))
    (hgap : ∀ i, i + 1 < n → knotFn U (i + 1) < knotFn U (i + p + 1)) {k : ℕ} (hk : k < 3) {M : K}
    (hc : ∀ i, i + 2 < n → |slope (knotFn U) p (coord P k) (i + 1) - slope (knotFn U) p (coord P k) i| * (p - 1 : ℕ)
      ≤ M * (knotFn U (i + p + 1) - knotFn U (i + 2))) :
    (∀ i, i + 1 < n + 1 → knotFn U' (i + 1) < knotFn U' (i + p + 1)) ∧
    ∀ i, i + 2 < n + 1 → |slope (knotFn U') p (coord P' k) (i + 1) - slope (knotFn U') p (coord P' k) i| * (p - 1 : ℕ)
      ≤ M * (knotFn U' (i + p + 1) - knotFn U' (i + 2)) := by
  have hlen := hU.len
  have hV := monotone_knotFn hU.mono
  have hend : nearEnd n u U = false := by
    have hm : knotFn U n ∈ U := by rw [knotFn_eq (by omega)]; exact List.getElem_mem _
    have := hnew _ hm
    unfold nearEnd isclose atolDefault
    rw [decide_eq_false_iff_not]
    intro hcl
    refine this (hcl.trans ?_)
    generalize knotFn U n = z
    have : 0 ≤ |z| := abs_nonneg z
    nlinarith
  obtain ⟨l, hfs, hpl, hl, hb⟩ := find_span_on_domain hU.toKnotVector hlo hhi
  rcases hb with ⟨h1, h2⟩ | ⟨h, -⟩
  swap
  · rw [hend] at h; cases h
  have hnot : u ∉ U := fun h => hnew u h (by rw [sub_self, abs_zero]; positivity)
  have hne : ∀ i < n + p + 1, u ≠ knotFn U i := fun i hi e => hnot (by
    rw [e, knotFn_eq (by omega)]
    exact List.getElem_mem _)
  have h1 : knotFn U l < u := lt_of_le_of_ne h1 (hne l (by omega)).symm
  have h2 : u < knotFn U (l + 1) := lt_of_le_of_ne h2 (hne _ (by omega))
  have h0 : U.count u = 0 := List.count_eq_zero.2 hnot
  obtain ⟨-, ⟨U'', P''⟩, hret', -, hfn, -, vP⟩ := insertion_setup (r := 1) hU.toKnotVector hP hpl hl hfs h1.le h2
    (fun x hx h => absurd h (hnew x hx)) (by omega)
  rw [hret] at hret'
  obtain ⟨rfl, rfl⟩ := Prod.mk.inj (Except.ok.inj hret')
  dsimp only at hfn vP
  have hgap' := insKnots_gap (p := p) hV (by omega) hl h1 h2 hgap
  have key := boehm_second hV hp hpl hl h1 h2 hgap hc
  have e : ∀ i < n + 1, coord P' k i = boehm (knotFn U) p l u (coord P k) i := by
    intro i hi
    have := vP i hi k hk
    unfold boehmIter boehmIter at this
    rw [insKnots_zero] at this
    exact this
  rw [hfn]
  refine ⟨hgap', fun i hi => ?_⟩
  have key := key i hi
  unfold slope at key ⊢
  rw [e i (by omega), e (i + 1) (by omega), e (i + 1 + 1) (by omega)]
  exact key

/-- **C163.** Inserting any list of new knots, one call of `curve_knot_insertion` after the other: the new control
points are within `2 M h²` of the points of the original curve at the new knot averages, where `M` bounds the
changes of slope of the control polygon at the start and `h` is the width of the widest window of `p + 1` spans
of the new knots. -/
theorem knot_refinement_second {p n : ℕ} {U : List K} {P : List (List K)} (hU : Clamped p n U) (hp : 2 ≤ p)
    (hP : Shape P n 3) {xs : List K} (hin : ∀ x ∈ xs, knotFn U p ≤ x ∧ x ≤ knotFn U n)
    (hnew : ∀ x ∈ xs, ∀ v ∈ U, ¬ |x - v| ≤ 1 / 10 ^ 8 + 1 / 10 ^ 5 * |v|)
    (hsep : xs.Pairwise fun x y => ¬ |y - x| ≤ 1 / 10 ^ 8 + 1 / 10 ^ 5 * |x|)
    (hgap : ∀ i, i + 1 < n → knotFn U (i + 1) < knotFn U (i + p + 1)) {k : ℕ} (hk : k < 3) {M : K} (hM : 0 ≤ M)
    {m : ℕ → K}
    (hm : ∀ i, m i = p * (coord P k (i + 1) - coord P k i) / (knotFn U (i + p + 1) - knotFn U (i + 1)))
    (hc : ∀ i, i + 2 < n → |m (i + 1) - m i| * (p - 1 : ℕ) ≤ M * (knotFn U (i + p + 1) - knotFn U (i + 2))) :
    ∃ U' P', xs.foldlM (fun s x => curveKnotInsertion p s.1 s.2 x 1) (U, P) = .ok (U', P') ∧
      U'.Perm (U ++ xs) ∧ Clamped p (n + xs.length) U' ∧ Shape P' (n + xs.length) 3 ∧
      ∀ h, (∀ i < n + xs.length, knotFn U' (i + p + 1) - knotFn U' i ≤ h) →
        ∀ i < n + xs.length, ∀ u, u = (∑ j ∈ Finset.range p, knotFn U' (i + 1 + j)) / p → 0 ≤ u → u ≤ 1 →
          Regular p n U u → ∃ x, Curve.singlePoint ⟨p, P, U⟩ u = .ok x ∧
            |coord P' k i - x.getD k 0| ≤ 2 * M * h ^ 2 := by
  obtain rfl : m = slope (knotFn U) p (coord P k) := funext hm
  obtain ⟨U', P', hret, hperm, hU', hP', hl, hr, hcv, hs⟩ := knot_refinement
    (Q := fun n U P => (∀ i, i + 1 < n → knotFn U (i + 1) < knotFn U (i + p + 1)) ∧
      ∀ i, i + 2 < n → |slope (knotFn U) p (coord P k) (i + 1) - slope (knotFn U) p (coord P k) i| * (p - 1 : ℕ)
        ≤ M * (knotFn U (i + p + 1) - knotFn U (i + 2)))
    (fun hU hP h1 h2 hnew hret hq => knot_insertion_second hU hp hP h1 h2 hnew hret hq.1 hk hq.2)
    hU (by omega) hP hin hnew hsep ⟨hgap, hc⟩
  refine ⟨U', P', hret, hperm, hU', hP', fun h hh i hi u hu h0 h1 hreg => ?_⟩
  refine ⟨_, single_point_bspline_sum hU (by omega) hP le_rfl h0 h1 hreg, ?_⟩
  have key := coeff_near_curve_second hU' hp hs.1 hM hs.2 hh hi
  rw [hcv k hk, show greville (knotFn U') p i = u from hu.symm] at key
  interval_cases k <;> simpa using key

private def exKnots : List ℚ := [0, 0, 0, 1/2, 1, 1, 1]

private def exPts : List (List ℚ) := [[0, 1, 0], [1, 0, 0], [3, 0, 0], [4, 1, 1]]

private theorem ex_clamped : Clamped 2 4 exKnots :=
  ⟨⟨by decide +kernel, by decide +kernel, by decide⟩, by intro i hi; interval_cases i <;> decide +kernel,
    by intro i h1 h2; interval_cases i <;> decide +kernel⟩

/-- The refined control points of a quadratic curve; its second coordinate has slopes `-4, 0, 4`. -/
example : ∃ U' P', [1/4, 3/4, 5/8].foldlM (fun s x => curveKnotInsertion 2 s.1 s.2 x 1) (exKnots, exPts) = .ok (U', P') ∧
    U'.Perm (exKnots ++ [1/4, 3/4, 5/8]) ∧ Clamped 2 7 U' ∧ Shape P' 7 3 ∧
    ∀ h, (∀ i < 7, knotFn U' (i + 2 + 1) - knotFn U' i ≤ h) →
      ∀ i < 7, ∀ u, u = (∑ j ∈ Finset.range 2, knotFn U' (i + 1 + j)) / (2 : ℕ) → 0 ≤ u → u ≤ 1 → Regular 2 4 exKnots u →
        ∃ x, Curve.singlePoint ⟨2, exPts, exKnots⟩ u = .ok x ∧ |coord P' 1 i - x.getD 1 0| ≤ 2 * 8 * h ^ 2 :=
  knot_refinement_second (n := 4) ex_clamped (by decide) ⟨by decide, by decide +kernel⟩ (xs := [1/4, 3/4, 5/8])
    (by decide +kernel) (by decide +kernel) (by decide +kernel)
    (by intro i hi; have : i < 3 := by omega
        interval_cases i <;> decide +kernel)
    (by decide) (by norm_num) (fun _ => rfl)
    (by intro i hi; have : i < 2 := by omega
        interval_cases i <;> decide +kernel)

end PySpline
