import Verif.Lemmas.InsertionOverfull
import Verif.Lemmas.Refine
import Verif.Props.Insertion

/-!
# C130: knot insertion up to multiplicity `degree + 1`
-/

set_option linter.unusedSectionVars false

namespace PySpline

open Spec Finset

variable {K : Type} [Field K] [LinearOrder K] [IsStrictOrderedRing K]

/-- **C130.** `curve_knot_insertion` of a parameter `u` in the half-open span `k` up to multiplicity
`degree + 1` (`num_inserts + multiplicity = degree + 1`).  The call is not rejected and the returned knots
are right, but the control point `k - s` is a wrong one: the old control point `k` if `u` was not a knot, the
origin if it was.  The returned curve is the old one except on the span that ends at `u`, where
`(wrong point - C(u)) * ((x - a) / (u - a)) ^ degree` has been added, `a` being the knot before `u`. -/
theorem knot_insertion_full_multiplicity {U : List K} {P : List (List K)} {k r n p : ℕ} {u : K}
    (hU : KnotVector p n U) (hP : Shape P n 3) (hpk : p ≤ k) (hk : k < n)
    (hfs : findSpan n p u U = .ok (k : ℤ)) (h1 : knotFn U k ≤ u) (h2 : u < knotFn U (k + 1))
    (hnm : NoNearMiss u U) (hr : r + U.count u = p + 1) (hs : U.count u ≤ p) :
    ∃ U' P', curveKnotInsertion p U P u r = .ok (U', P') ∧
      KnotVector p (n + r) U' ∧ U'.Perm (U ++ List.replicate r u) ∧ U'.count u = p + 1 ∧
      Shape P' (n + r) 3 ∧ knotFn U (k - U.count u) < u ∧
      ∀ y < 3, coord P' y (k - U.count u) = (if U.count u = 0 then coord P y k else 0) ∧
        coord P' y (k - U.count u + 1) = spline (knotFn U) p n (coord P y) u ∧
        (∀ x, x < knotFn U (k - U.count u) ∨ u ≤ x →
          spline (knotFn U') p (n + r) (coord P' y) x = spline (knotFn U) p n (coord P y) x) ∧
        ∀ x, knotFn U (k - U.count u) ≤ x → x < u →
          spline (knotFn U') p (n + r) (coord P' y) x = spline (knotFn U) p n (coord P y) x
            + ((if U.count u = 0 then coord P y k else 0) - spline (knotFn U) p n (coord P y) u)
              * ((x - knotFn U (k - U.count u)) / (u - knotFn U (k - U.count u))) ^ p := by
  have hm := monotone_knotFn hU.mono
  have hlen := hU.len
  have hsz := hU.size
  have hf : findMultiplicity u U = U.count u := (find_multiplicity_counts u U).2.2 hnm
  have hrun := multiplicity_run hm (k := k) (by omega) h1 (fun _ => h2) rfl
  obtain ⟨⟨U', P'⟩, hret, hl', hfn, shP, vP⟩ :=
    curveKnotInsertion_overfull hlen hP hpk hk hfs hf hm (lt_of_le_of_lt h1 h2) hr hs hrun
  dsimp only at hl' hfn shP vP
  have hmono' : Monotone (knotFn U') := by rw [hfn]; exact insKnots_mono hm h1 h2.le r
  have hperm : U'.Perm (U ++ List.replicate r u) := by
    rw [eq_insertedKnots hlen hk hl' hfn]; exact insertedKnots_perm U k u r
  set s := U.count u with hsdef
  have hlow : knotFn U (k - s) < u := by
    refine lt_of_le_of_ne ((hm (by omega)).trans h1) fun e => ?_
    have hsub : ∀ i ≤ s, U[k - s + i]? = some u := by
      intro i hi
      rw [List.getElem?_eq_getElem (by omega), ← knotFn_eq]
      by_cases h : i = 0
      · subst h; exact congrArg some e
      · exact congrArg some (hrun _ (by omega) (by omega))
    have : (List.replicate (s + 1) u).Sublist U := by
      have e : List.replicate (s + 1) u = (U.drop (k - s)).take (s + 1) := by
        refine List.ext_getElem? fun i => ?_
        rw [List.getElem?_replicate, List.getElem?_take]
        split
        · next h => rw [List.getElem?_drop, hsub i (by omega)]
        · rfl
      rw [e]
      exact (List.take_sublist _ _).trans (List.drop_sublist _ _)
    have := List.replicate_sublist_iff.1 this
    omega
  have hW : ∀ j ≤ p, knotFn U' (k - s + 1 + j) = u := by
    intro j hj
    rw [hfn]
    unfold insKnots
    by_cases a : k - s + 1 + j ≤ k
    · rw [if_pos a]; exact hrun _ (by omega) a
    · rw [if_neg a, if_pos (by omega)]
  have hW0 : knotFn U' (k - s) = knotFn U (k - s) := by
    rw [hfn]; unfold insKnots; rw [if_pos (by omega)]
  have hspl : ∀ y x, spline (knotFn U') p (n + r) (boehmIter (knotFn U) p k u (coord P y) r) x
      = spline (knotFn U) p n (coord P y) x := fun y x => by
    rw [hfn]; exact spline_boehmIter hm h1 h2 hpk hk r x
  have hnext : u < knotFn U' (k + r + 1) := by
    rw [hfn]; unfold insKnots
    rw [if_neg (by omega), if_neg (by omega), show k + r + 1 - r = k + 1 by omega]; exact h2
  have hval : ∀ y, boehmIter (knotFn U) p k u (coord P y) r (k - s + 1) = spline (knotFn U) p n (coord P y) u := by
    intro y
    rw [← hspl y u, spline_full hmono' (k := k + r) (by omega) (by omega) (fun j hj => ?_) ?_ hnext]
    · congr 1; omega
    · rw [show k + r = k - s + 1 + p by omega]; exact (hW p le_rfl).le
    · rw [show k + r - j = k - s + 1 + (p - j) by omega]; exact hW _ (by omega)
  have hval' : ∀ y, boehmIter (knotFn U) p k u (coord P y) r (k - s) = spline (knotFn U) p n (coord P y) u := by
    intro y
    obtain ⟨t, rfl⟩ : ∃ t, r = t + 1 := ⟨r - 1, by omega⟩
    rw [← hval y]
    have a : boehmA (insKnots (knotFn U) k u t) p (k + t) u (k - s) = 1 := by
      unfold boehmA; rw [if_pos (by omega)]
    have b : boehmA (insKnots (knotFn U) k u t) p (k + t) u (k - s + 1) = 0 := by
      unfold boehmA
      rw [if_neg (by omega)]
      split
      · rfl
      · have : insKnots (knotFn U) k u t (k - s + 1) = u := by
          unfold insKnots
          by_cases a : k - s + 1 ≤ k
          · rw [if_pos a]; exact hrun _ (by omega) a
          · rw [if_neg a, if_pos (by omega)]
        rw [this, sub_self, zero_div]
    show boehm _ _ _ _ _ _ = boehm _ _ _ _ _ _
    unfold boehm
    rw [a, b, Nat.add_sub_cancel]
    ring
  have key : ∀ y < 3, ∀ x, spline (knotFn U') p (n + r) (coord P' y) x
      = spline (knotFn U) p n (coord P y) x
        + ((if s = 0 then coord P y k else 0) - spline (knotFn U) p n (coord P y) u)
          * N (knotFn U') p (k - s) x := by
    intro y hy x
    rw [← hspl y x]
    unfold spline
    have : ∀ i ∈ range (n + r), coord P' y i * N (knotFn U') p i x
        = boehmIter (knotFn U) p k u (coord P y) r i * N (knotFn U') p i x
          + if i = k - s then ((if s = 0 then coord P y k else 0) - spline (knotFn U) p n (coord P y) u)
            * N (knotFn U') p (k - s) x else 0 := by
      intro i hi
      have e : coord P' y i = _ := vP i (mem_range.1 hi) y hy
      rw [e]
      by_cases c : i = k - s
      · subst c
        rw [if_pos rfl, if_pos rfl, hval' y]
        have : overfullRow P k s y = if s = 0 then coord P y k else 0 := rfl
        rw [this]; ring
      · rw [if_neg c, if_neg c, add_zero]
    rw [sum_congr rfl this, sum_add_distrib, sum_ite_eq' (range (n + r)) (k - s),
      if_pos (mem_range.2 (by omega))]
    rfl
  refine ⟨U', P', hret, ⟨by omega, pairwise_of_mono hmono', by omega⟩, hperm, ?_, shP, hlow,
    fun y hy => ⟨?_, ?_, fun x hx => ?_, fun x hx1 hx2 => ?_⟩⟩
  · rw [hperm.count_eq, List.count_append, List.count_replicate_self]; omega
  · have e : coord P' y (k - s) = _ := vP (k - s) (by omega) y hy
    rw [e, if_pos rfl]; rfl
  · have e : coord P' y (k - s + 1) = _ := vP (k - s + 1) (by omega) y hy
    rw [e, if_neg (by omega), hval y]
  · rw [key y hy x, N_zero_of_not_support hmono' ?_, mul_zero, add_zero]
    rcases hx with hx | hx
    · left; rw [hW0]; exact hx
    · right
      rw [show k - s + p + 1 = k - s + 1 + p by omega, hW p le_rfl]; exact hx
  · rw [key y hy x, N_before_full hW (by rw [hW0]; exact hx1) hx2 p le_rfl, hW0]

/-- **C130**, consequence: the curve is torn at `u`.  Unless the wrong point happens to be `C(u)`, the returned
curve differs from the old one at every parameter of the span that ends at `u`. -/
theorem knot_insertion_full_multiplicity_changes_curve {U : List K} {P : List (List K)} {k r n p y : ℕ} {u : K}
    (hU : KnotVector p n U) (hP : Shape P n 3) (hpk : p ≤ k) (hk : k < n)
    (hfs : findSpan n p u U = .ok (k : ℤ)) (h1 : knotFn U k ≤ u) (h2 : u < knotFn U (k + 1))
    (hnm : NoNearMiss u U) (hr : r + U.count u = p + 1) (hs : U.count u ≤ p) (hy : y < 3)
    (hne : spline (knotFn U) p n (coord P y) u ≠ if U.count u = 0 then coord P y k else 0) :
    ∃ U' P', curveKnotInsertion p U P u r = .ok (U', P') ∧ knotFn U (k - U.count u) < u ∧
      ∀ x, knotFn U (k - U.count u) < x → x < u →
        spline (knotFn U') p (n + r) (coord P' y) x ≠ spline (knotFn U) p n (coord P y) x := by
  obtain ⟨U', P', hret, -, -, -, -, hlow, h⟩ :=
    knot_insertion_full_multiplicity hU hP hpk hk hfs h1 h2 hnm hr hs
  refine ⟨U', P', hret, hlow, fun x hx1 hx2 e => ?_⟩
  rw [(h y hy).2.2.2 x hx1.le hx2] at e
  have hz : ((if U.count u = 0 then coord P y k else 0) - spline (knotFn U) p n (coord P y) u)
      * ((x - knotFn U (k - U.count u)) / (u - knotFn U (k - U.count u))) ^ p = 0 := by linarith
  rcases mul_eq_zero.1 hz with h | h
  · exact hne (sub_eq_zero.1 h).symm
  · exact absurd h (pow_ne_zero _ (div_pos (by linarith) (by linarith)).ne')

/-! ## Concrete cases -/

/-- A new knot inserted three times in a curve of degree 2: the fourth control point should be
`(17/10, 33/50, 33/50)`, as the one after it. -/
example : curveKnotInsertion 2 exU exP (3/10) 3
    = .ok ([0, 0, 0, 1/4, 3/10, 3/10, 3/10, 1/2, 3/4, 1, 1, 1],
      [[0, 0, 0], [1, 2, 0], [8/5, 4/5, 3/5], [3, 1, 0], [17/10, 33/50, 33/50], [21/10, 1/10, 9/10],
        [3, 1, 0], [4, 4, 0], [5, 0, 2]]) := by
  decide +kernel

/-- An old knot inserted twice: one control point is the origin. -/
example : curveKnotInsertion 2 exU exP (1/4) 2
    = .ok ([0, 0, 0, 1/4, 1/4, 1/4, 1/2, 3/4, 1, 1, 1],
      [[0, 0, 0], [1, 2, 0], [0, 0, 0], [3/2, 1, 1/2], [2, 0, 1], [3, 1, 0], [4, 4, 0], [5, 0, 2]]) := by
  decide +kernel

example : ∃ U' P', curveKnotInsertion 2 exU exP (1/4) 2 = .ok (U', P') ∧
    knotFn exU (3 - exU.count (1/4)) < 1/4 ∧ ∀ x, knotFn exU (3 - exU.count (1/4)) < x → x < 1/4 →
      spline (knotFn U') 2 (6 + 2) (coord P' 0) x ≠ spline (knotFn exU) 2 6 (coord exP 0) x :=
  knot_insertion_full_multiplicity_changes_curve exU_knotVector exP_shape (by decide) (by decide)
    (by decide +kernel) (by decide +kernel) (by decide +kernel) (by unfold NoNearMiss; decide +kernel)
    (by decide +kernel) (by decide +kernel) (by decide) (by decide +kernel)

example : ∃ U' P', curveKnotInsertion 2 exU exP (3/10) 3 = .ok (U', P') ∧
    knotFn exU (3 - exU.count (3/10)) < 3/10 ∧ ∀ x, knotFn exU (3 - exU.count (3/10)) < x → x < 3/10 →
      spline (knotFn U') 2 (6 + 3) (coord P' 0) x ≠ spline (knotFn exU) 2 6 (coord exP 0) x :=
  knot_insertion_full_multiplicity_changes_curve exU_knotVector exP_shape (by decide) (by decide)
    (by decide +kernel) (by decide +kernel) (by decide +kernel) (by unfold NoNearMiss; decide +kernel)
    (by decide +kernel) (by decide +kernel) (by decide) (by decide +kernel)

end PySpline
