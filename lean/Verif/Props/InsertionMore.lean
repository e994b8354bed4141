import Verif.Lemmas.InsertionMore
import Verif.Props.Insertion
import Verif.Props.Curve
import Verif.Props.FitUnique

/-!
# C145: inserting one knot several times
-/

set_option linter.unusedSectionVars false

namespace PySpline

open Spec

variable {K : Type} [Field K] [LinearOrder K] [IsStrictOrderedRing K]

/-- **C145.** When a knot is inserted until its multiplicity is the degree, the point of the curve at this parameter
becomes a control point: number `k - s`, where `k` is the span and `s` the old multiplicity. -/
theorem knot_insertion_reaches_curve {U : List K} {P : List (List K)} {k r n p : ℕ} {u : K} (hU : Clamped p n U)
    (hP : Shape P n 3) (hpk : p ≤ k) (hk : k < n) (hfs : findSpan n p u U = .ok (k : ℤ)) (h1 : knotFn U k ≤ u)
    (h2 : u < knotFn U (k + 1)) (hnm : NoNearMiss u U) (hr : r + U.count u = p) :
    ∃ U' P', curveKnotInsertion p U P u r = .ok (U', P') ∧
      P'.getD (k - U.count u) [] = [curve (knotFn U) p n (coord P 0) u, curve (knotFn U) p n (coord P 1) u,
        curve (knotFn U) p n (coord P 2) u] := by
  obtain ⟨hrun, ⟨U', P'⟩, hret, hl', hfn, shP, vP⟩ := insertion_setup hU.toKnotVector hP hpk hk hfs h1 h2 hnm hr.le
  dsimp only at hl' hfn shP vP
  obtain ⟨-, -, hc⟩ := inserted_curve hU.toKnotVector hpk hk h1 h2 hrun hr.le hl' hfn vP
  obtain ⟨hU', hcv⟩ := hc hU
  refine ⟨U', P', hret, ?_⟩
  have e1 : knotFn U' (k + r + 1) = knotFn U (k + 1) := by
    rw [hfn]; unfold insKnots
    rw [if_neg (by omega), if_neg (by omega), show k + r + 1 - r = k + 1 by omega]
  have e2 : knotFn U' (k + r) ≤ u := by
    rw [hfn]; unfold insKnots
    by_cases h : r = 0
    · subst h; rw [if_pos (by omega)]; exact h1
    · rw [if_neg (by omega), if_pos (by omega)]
  have run' : ∀ j, k + r < j + p → j ≤ k + r → knotFn U' j = u := by
    intro j ha hb
    rw [hfn]; unfold insKnots
    by_cases h : j ≤ k
    · rw [if_pos h]; exact hrun j (by omega) h
    · rw [if_neg h, if_pos hb]
  have val : ∀ y < 3, coord P' y (k - U.count u) = curve (knotFn U) p n (coord P y) u := by
    intro y hy
    rw [← hcv y hy u, curve_at_run hU' (k := k + r) (by omega) (by omega) e2 (by rw [e1]; exact h2) run']
    congr 1
    omega
  have hi : k - U.count u < P'.length := by rw [shP.1]; omega
  have hrow : (P'.getD (k - U.count u) []).length = 3 := by
    rw [List.getD_eq_getElem?_getD, List.getElem?_eq_getElem hi]
    exact shP.2 _ (List.getElem_mem _)
  rw [← val 0 (by omega), ← val 1 (by omega), ← val 2 (by omega)]
  unfold coord
  obtain ⟨x, y, z, e⟩ := List.length_eq_three.1 hrow
  rw [e]
  rfl

/-- **C145.** The same for a new knot, in terms of `single_point`: inserting it `degree` times is an evaluation. -/
theorem knot_insertion_evaluates {U : List K} {P : List (List K)} {n p : ℕ} {u : K} (hU : Clamped p n U) (hp : 1 ≤ p)
    (hP : Shape P n 3) (h0 : 0 ≤ u) (h1 : u ≤ 1) (hlo : knotFn U p ≤ u) (hhi : u ≤ knotFn U n)
    (hend : nearEnd n u U = false) (hnew : ∀ x ∈ U, ¬ |u - x| ≤ 1 / 10 ^ 8 + 1 / 10 ^ 5 * |x|) :
    ∃ k : ℕ, ∃ U' P', findSpan n p u U = .ok (k : ℤ) ∧ curveKnotInsertion p U P u p = .ok (U', P') ∧
      Curve.singlePoint ⟨p, P, U⟩ u = .ok (P'.getD k []) := by
  have hlen := hU.len
  obtain ⟨k, hfs, hpk, hk, hb⟩ := find_span_on_domain hU.toKnotVector hlo hhi
  rcases hb with ⟨b1, b2⟩ | ⟨h, -⟩
  swap
  · rw [hend] at h; cases h
  have hnot : u ∉ U := fun h => hnew u h (by rw [sub_self, abs_zero]; positivity)
  have hmem : ∀ i, i < U.length → u ≠ knotFn U i := fun i hi e => hnot (by
    rw [e, knotFn_eq hi]; exact List.getElem_mem _)
  have hc : U.count u = 0 := List.count_eq_zero.2 hnot
  obtain ⟨U', P', hret, hpt⟩ := knot_insertion_reaches_curve (r := p) hU hP hpk hk hfs b1
    (lt_of_le_of_ne b2 (hmem _ (by omega))) (fun x hx h => absurd h (hnew x hx)) (by omega)
  refine ⟨k, U', P', hfs, hret, ?_⟩
  have hr : Regular p n U u := by
    refine ⟨hlo, hhi, fun i _ hi e => absurd e (hmem i (by omega)), fun h => ?_⟩
    unfold nearEnd isclose atolDefault at hend
    exact absurd h (of_decide_eq_false hend)
  rw [hc, Nat.sub_zero] at hpt
  rw [single_point_bspline_sum hU hp hP le_rfl h0 h1 hr, hpt]

/-- **C145.** Inserting a knot `r` times and then `s` times is inserting it `r + s` times, if `find_span` places the
knot, which is in the array now, in the span on its right. -/
theorem knot_insertion_add {U : List K} {P : List (List K)} {k r s n p : ℕ} {u : K} (hU : KnotVector p n U)
    (hP : Shape P n 3) (hpk : p ≤ k) (hk : k < n) (hfs : findSpan n p u U = .ok (k : ℤ)) (h1 : knotFn U k ≤ u)
    (h2 : u < knotFn U (k + 1)) (hnm : NoNearMiss u U) (hr : r + s + U.count u ≤ p)
    (hfs' : findSpan (n + r) p u (insertedKnots U k u r) = .ok ((k + r : ℕ) : ℤ)) :
    (do let (V, Q) ← curveKnotInsertion p U P u r
        curveKnotInsertion p V Q u s) = curveKnotInsertion p U P u (r + s) := by
  have hlen := hU.len
  obtain ⟨hrun, ⟨V, Q⟩, hret, hlV, hfV, shQ, vQ⟩ := insertion_setup (r := r) hU hP hpk hk hfs h1 h2 hnm (by omega)
  obtain ⟨-, ⟨W, R⟩, hret2, hlW, hfW, shR, vR⟩ := insertion_setup (r := r + s) hU hP hpk hk hfs h1 h2 hnm hr
  dsimp only at hlV hfV shQ vQ hlW hfW shR vR
  have eV : V = insertedKnots U k u r := eq_insertedKnots hlen hk hlV hfV
  have hkV := (inserted_curve hU hpk hk h1 h2 hrun (by omega) hlV hfV vQ).1
  have e1 : knotFn V (k + r + 1) = knotFn U (k + 1) := by
    rw [hfV]; unfold insKnots
    rw [if_neg (by omega), if_neg (by omega), show k + r + 1 - r = k + 1 by omega]
  have e2 : knotFn V (k + r) ≤ u := by
    rw [hfV]; unfold insKnots
    by_cases h : r = 0
    · subst h; rw [if_pos (by omega)]; exact h1
    · rw [if_neg (by omega), if_pos (by omega)]
  have hperm : V.Perm (U ++ List.replicate r u) := by rw [eV]; exact insertedKnots_perm U k u r
  have hcount : V.count u = U.count u + r := by
    rw [hperm.count_eq, List.count_append, List.count_replicate_self]
  have hnmV : NoNearMiss u V := by
    intro x hx h
    rcases List.mem_append.1 (hperm.mem_iff.1 hx) with hx | hx
    · exact hnm x hx h
    · exact List.eq_of_mem_replicate hx
  obtain ⟨-, ⟨W', R'⟩, hret3, hlW', hfW', shR', vR'⟩ := insertion_setup (r := s) hkV shQ (k := k + r) (by omega)
    (by omega) (by rw [eV]; exact hfs') e2 (by rw [e1]; exact h2) hnmV (by omega)
  dsimp only at hlW' hfW' shR' vR'
  rw [hret, hret2]
  refine hret3.trans ?_
  have eW : W' = W := by
    rw [eq_insertedKnots hlen hk hlW hfW]
    refine eq_insertedKnots hlen hk (by omega) ?_
    rw [hfW', hfV, insKnots_add]
  have eR : R' = R := by
    refine rows_ext (n := n + (r + s)) (by rw [← Nat.add_assoc]; exact shR') shR fun y hy m hm => ?_
    have a := vR m hm y hy
    have b := vR' m (by omega) y hy
    have c : boehmIter (knotFn V) p (k + r) u (coord Q y) s m = boehmIter (knotFn U) p k u (coord P y) (r + s) m := by
      rw [← boehmIter_add, hfV]
      exact boehmIter_congr (M := n + r) (by omega) (fun i hi => vQ i hi y hy) s m (by omega)
    exact (b.trans c).trans a.symm
  rw [eW, eR]

/-- **C145.** If `find_span` places the knot in the span on its left, two single insertions are not one double
insertion: the curve is damaged by the second one (C13). -/
theorem knot_insertion_add_fails {U V : List K} {P Q : List (List K)} {k n p y : ℕ} {u : K} (hU : KnotVector p n U)
    (hP : Shape P n 3) (hp2 : 2 ≤ p) (hpk : p ≤ k) (hk : k < n) (hfs : findSpan n p u U = .ok (k : ℤ))
    (h1 : knotFn U k < u) (h2 : u < knotFn U (k + 1)) (hnm : NoNearMiss u U) (hV : curveKnotInsertion p U P u 1 = .ok (V, Q))
    (hfs' : findSpan (n + 1) p u V = .ok (k : ℤ)) (hy : y < 3) (hne : coord Q y k ≠ coord Q y (k - 1)) :
    (do let (V, Q) ← curveKnotInsertion p U P u 1
        curveKnotInsertion p V Q u 1) ≠ curveKnotInsertion p U P u 2 := by
  have hlen := hU.len
  have hc : U.count u = 0 := by
    rw [List.count_eq_zero]
    intro hmem
    obtain ⟨i, hi, e⟩ := List.mem_iff_getElem.1 hmem
    rw [← knotFn_eq hi] at e
    have hm := monotone_knotFn hU.mono
    rcases Nat.lt_or_ge k i with h | h
    · exact absurd (h2.trans_le (hm (show k + 1 ≤ i from h))) (by rw [e]; exact lt_irrefl _)
    · exact absurd ((hm h).trans_lt h1) (by rw [e]; exact lt_irrefl _)
  obtain ⟨hrun, ⟨V', Q'⟩, hret, hlV, hfV, shQ, vQ⟩ := insertion_setup (r := 1) hU hP hpk hk hfs h1.le h2 hnm (by omega)
  rw [hV] at hret
  obtain ⟨rfl, rfl⟩ := Prod.mk.inj (Except.ok.inj hret)
  dsimp only at hlV hfV shQ vQ
  obtain ⟨hkV, hspl, -⟩ := inserted_curve hU hpk hk h1.le h2 hrun (by omega) hlV hfV vQ
  obtain ⟨U₂, P₂, hret2, -, -, hspl2, -⟩ := knot_insertion_preserves_curve (r := 2) hU hP hpk hk hfs h1.le h2 hnm (by omega)
  have a0 : knotFn V k = knotFn U k := by
    rw [hfV]; unfold insKnots; rw [if_pos le_rfl]
  have a1 : knotFn V (k + 1) = u := by
    rw [hfV]; unfold insKnots; rw [if_neg (by omega), if_pos le_rfl]
  have a2 : knotFn V (k + 2) = knotFn U (k + 1) := by
    rw [hfV]; unfold insKnots; rw [if_neg (by omega), if_neg (by omega)]; rfl
  have eV : V = insertedKnots U k u 1 := eq_insertedKnots hlen hk hlV hfV
  have hnmV : NoNearMiss u V := by
    intro x hx h
    rw [eV] at hx
    rcases List.mem_append.1 ((insertedKnots_perm U k u 1).mem_iff.1 hx) with hx | hx
    · exact hnm x hx h
    · exact List.eq_of_mem_replicate hx
  obtain ⟨W, R, x, hret3, -, -, hx⟩ := knot_insertion_left_span_changes_curve hkV shQ hp2 hpk (by omega) hfs'
    (by rw [a0]; exact h1) a1 (by rw [a2]; exact h2) hnmV hy hne
  intro h
  rw [hV, hret2] at h
  replace h : curveKnotInsertion p V Q u 1 = .ok (U₂, P₂) := h
  rw [hret3] at h
  obtain ⟨rfl, rfl⟩ := Prod.mk.inj (Except.ok.inj h)
  exact hx ((hspl2 y hy x).trans (hspl y hy x).symm)

/-! ## Examples -/

/-- Evaluation at `3/10` and insertion of `3/10` twice. -/
example : findSpan 6 2 (3/10) exU = .ok 3 ∧ Curve.singlePoint ⟨2, exP, exU⟩ (3/10) = .ok [17/10, 33/50, 33/50] ∧
    (curveKnotInsertion 2 exU exP (3/10) 2).map (fun x => x.2.getD 3 []) = .ok [17/10, 33/50, 33/50] := by
  decide +kernel

example : ∃ k : ℕ, ∃ U' P', findSpan 6 2 (3/10) exU = .ok (k : ℤ) ∧ curveKnotInsertion 2 exU exP (3/10) 2 = .ok (U', P') ∧
    Curve.singlePoint ⟨2, exP, exU⟩ (3/10) = .ok (P'.getD k []) :=
  knot_insertion_evaluates exU_clamped (by decide) exP_shape (by decide +kernel) (by decide +kernel) (by decide +kernel)
    (by decide +kernel) (by decide +kernel) (by decide +kernel)

/-- At `6/10` two insertions of one knot are one insertion of two, -/
example : (do let (V, Q) ← curveKnotInsertion 2 exU exP (6/10) 1
              curveKnotInsertion 2 V Q (6/10) 1) = curveKnotInsertion 2 exU exP (6/10) 2 :=
  knot_insertion_add (k := 4) (n := 6) exU_knotVector exP_shape (by decide) (by decide) (by decide +kernel)
    (by decide +kernel) (by decide +kernel) (by unfold NoNearMiss; decide +kernel) (by decide +kernel) (by decide +kernel)

/-- at `3/10` they are not. -/
example : (do let (V, Q) ← curveKnotInsertion 2 exU exP (3/10) 1
              curveKnotInsertion 2 V Q (3/10) 1) ≠ curveKnotInsertion 2 exU exP (3/10) 2 :=
  knot_insertion_add_fails (k := 3) (n := 6) (y := 0) (V := [0, 0, 0, 1/4, 3/10, 1/2, 3/4, 1, 1, 1])
    (Q := [[0, 0, 0], [1, 2, 0], [8/5, 4/5, 3/5], [21/10, 1/10, 9/10], [3, 1, 0], [4, 4, 0], [5, 0, 2]])
    exU_knotVector exP_shape (by decide) (by decide) (by decide) (by decide +kernel)
    (by decide +kernel) (by decide +kernel) (by unfold NoNearMiss; decide +kernel) (by decide +kernel) (by decide +kernel)
    (by decide) (by decide +kernel)

end PySpline
