import Verif.Lemmas.CurveAux
import Verif.Lemmas.Curve
import Verif.Props.Knots
import Verif.Props.Insertion

/-!
# C25–C33: curve evaluation
-/

set_option linter.unusedSectionVars false

namespace PySpline

open Spec Polynomial

variable {K : Type} [Field K] [LinearOrder K] [IsStrictOrderedRing K]

/-- **C25.** At every regular parameter of `[0, 1]`, `single_point` returns the B-spline sum
`∑ P_i N_i(u)` in each coordinate, with the value at the last knot taken from the left. -/
theorem single_point_bspline_sum {p n d : ℕ} {U : List K} {P : List (List K)} {u : K}
    (hU : Clamped p n U) (hp : 1 ≤ p) (hP : Shape P n d) (hd : 3 ≤ d) (h0 : 0 ≤ u) (h1 : u ≤ 1)
    (hr : Regular p n U u) :
    Curve.singlePoint ⟨p, P, U⟩ u = .ok [curve (knotFn U) p n (coord P 0) u,
      curve (knotFn U) p n (coord P 1) u, curve (knotFn U) p n (coord P 2) u] := by
  obtain ⟨m, hm, hpm, hmn, hb1, hb2, hs⟩ := findSpan_regular hU.toKnotVector hr
  rw [singlePoint_of_span hU.toKnotVector hP hd h0 h1 hm hpm hmn hs]
  have : ∀ c, ∑ r ∈ Finset.range (p + 1),
        (piece (knotFn U) m p (m - p + r)).eval u * coord P c (m - p + r)
      = curve (knotFn U) p n (coord P c) u := by
    intro c
    rw [sum_active (n := n) (f := fun i => (piece (knotFn U) m p i).eval u) hpm hmn]
    · unfold curve
      refine Finset.sum_congr rfl fun i hi => ?_
      rw [piece_eq_Nclosed hU hp hr hmn hpm hb1 hb2 hs i (Finset.mem_range.1 hi)]
    · rintro i (h | h)
      · rw [piece_eq_zero_of_gt _ _ _ _ h, eval_zero]
      · rw [piece_eq_zero_of_lt _ _ _ _ h, eval_zero]
  simp only [List.range_succ_eq_map, List.range_zero, List.map_cons, List.map_nil, this]

/-- A clamped knot vector on `[0, 1]` with distinct interior knots: every parameter of `[0, 1]`
is regular except those in the tolerance sliver left of the last span. -/
theorem regular_of_distinct {p n : ℕ} {U : List K} {u : K} (hU : Clamped p n U)
    (hd : DistinctInterior p n U) (h0 : knotFn U 0 = 0) (h1 : knotFn U (n + p) = 1)
    (hu0 : 0 ≤ u) (hu1 : u ≤ 1)
    (hl : |u - 1| ≤ 1 / 10 ^ 8 + 1 / 10 ^ 6 → knotFn U (n - 1) ≤ u) : Regular p n U u where
  lo := by rw [hU.left p le_rfl, h0]; exact hu0
  hi := by rw [hU.right n le_rfl (by omega), h1]; exact hu1
  simple := fun i h2 h3 _ => hd i h2 h3
  last := by rw [hU.right n le_rfl (by omega), h1]; simpa using hl

/-- **C26**, first end: for a clamped knot vector starting at `0` with a non-empty first span,
`single_point(0)` is the first control point.  (`hl` excludes knot vectors whose last knot is
within the absolute tolerance `1e-8` of `0`.) -/
theorem single_point_first {p n : ℕ} {U : List K} {P : List (List K)}
    (hU : Clamped p n U) (hp : 1 ≤ p) (hP : Shape P n 3) (h0 : knotFn U 0 = 0)
    (hfirst : knotFn U p < knotFn U (p + 1)) (hl : 1 ≤ knotFn U (n + p)) :
    Curve.singlePoint ⟨p, P, U⟩ 0 = .ok (P.getD 0 []) := by
  have hV := monotone_knotFn hU.mono
  have hsz := hU.size
  have hn : knotFn U n = knotFn U (n + p) := hU.right n le_rfl (by omega)
  have hp0 : knotFn U p = 0 := by rw [hU.left p le_rfl, h0]
  have hreg : Regular p n U 0 := by
    refine ⟨hp0.le, by rw [hn]; linarith, ?_, ?_⟩
    · intro i h1 h2 h3
      have : i = p := by
        by_contra hne
        have h4 : knotFn U (p + 1) ≤ knotFn U i := hV (by omega)
        rw [← h3, ← hp0] at h4
        exact absurd (hfirst.trans_le h4) (lt_irrefl _)
      rw [this]; exact hfirst
    · intro h
      exfalso
      rw [hn, zero_sub, abs_neg, abs_of_nonneg (by linarith)] at h
      have : (1 / 10 ^ 6 : K) ≤ 1 / 2 := by norm_num
      have h5 : (1 / 10 ^ 8 : K) ≤ 1 / 4 := by norm_num
      nlinarith
  rw [single_point_bspline_sum hU hp hP le_rfl le_rfl zero_le_one hreg]
  have hc : ∀ c : ℕ → K, curve (knotFn U) p n c 0 = c 0 := fun c => by
    have := curve_first hU hfirst c
    rwa [h0] at this
  rw [hc, hc, hc]
  have hrow : (P.getD 0 []).length = 3 := hP.row (by omega)
  unfold coord
  match hq : P.getD 0 [], hrow with
  | [a, b, c], _ => simp

/-- **C26**, last end: if the last span is not empty and the knots end at `1`, `single_point(1)`
is the last control point. -/
theorem single_point_last {p n : ℕ} {U : List K} {P : List (List K)}
    (hU : Clamped p n U) (hp : 1 ≤ p) (hP : Shape P n 3) (h1 : knotFn U (n + p) = 1)
    (hlast : knotFn U (n - 1) < knotFn U n) :
    Curve.singlePoint ⟨p, P, U⟩ 1 = .ok (P.getD (n - 1) []) := by
  have hV := monotone_knotFn hU.mono
  have hsz := hU.size
  have hn : knotFn U n = 1 := by rw [hU.right n le_rfl (by omega), h1]
  have hreg : Regular p n U 1 := by
    refine ⟨by rw [← hn]; exact hV (by omega), hn.symm.le, ?_, ?_⟩
    · intro i h2 h3 h4
      exfalso
      have : knotFn U i ≤ knotFn U (n - 1) := hV (by omega)
      rw [← h4, ← hn] at this
      exact absurd (hlast.trans_le this) (lt_irrefl _)
    · intro _
      rw [← hn]; exact hlast.le
  rw [single_point_bspline_sum hU hp hP le_rfl zero_le_one le_rfl hreg]
  have hc : ∀ c : ℕ → K, curve (knotFn U) p n c 1 = c (n - 1) := fun c => by
    have := curve_last hU c
    rwa [h1] at this
  rw [hc, hc, hc]
  have hrow : (P.getD (n - 1) []).length = 3 := hP.row (by omega)
  unfold coord
  match hq : P.getD (n - 1) [], hrow with
  | [a, b, c], _ => simp

/-- **C27.** The point is in every half-space `α x + β y + γ z ≤ b` that contains the control
points whose basis function has the parameter in its support. -/
theorem single_point_half_space {p n d : ℕ} {U : List K} {P : List (List K)} {u : K}
    (hU : Clamped p n U) (hp : 1 ≤ p) (hP : Shape P n d) (hd : 3 ≤ d) (h0 : 0 ≤ u) (h1 : u ≤ 1)
    (hr : Regular p n U u) (α β γ b : K)
    (hb : ∀ i < n, knotFn U i ≤ u → u ≤ knotFn U (i + p + 1) →
      α * coord P 0 i + β * coord P 1 i + γ * coord P 2 i ≤ b) :
    ∃ x y z, Curve.singlePoint ⟨p, P, U⟩ u = .ok [x, y, z] ∧ α * x + β * y + γ * z ≤ b := by
  refine ⟨_, _, _, single_point_bspline_sum hU hp hP hd h0 h1 hr, ?_⟩
  have hn : knotFn U n = knotFn U (n + p) := hU.right n le_rfl (by omega)
  have := curve_le hU hr.lo (hn ▸ hr.hi) (c := fun i => 1 * (α * coord P 0 i + β * coord P 1 i)
    + γ * coord P 2 i) (b := b) fun i a b c => by rw [one_mul]; exact hb i a b c
  rwa [curve_lin, curve_lin, one_mul] at this

/-- **C27**, box form: each coordinate lies between any lower and upper bound of that coordinate
over the active control points. -/
theorem single_point_box {p n d : ℕ} {U : List K} {P : List (List K)} {u : K}
    (hU : Clamped p n U) (hp : 1 ≤ p) (hP : Shape P n d) (hd : 3 ≤ d) (h0 : 0 ≤ u) (h1 : u ≤ 1)
    (hr : Regular p n U u) {c : ℕ} (hc : c < 3) (lo hi : K)
    (hb : ∀ i < n, knotFn U i ≤ u → u ≤ knotFn U (i + p + 1) →
      lo ≤ coord P c i ∧ coord P c i ≤ hi) :
    ∃ pt, Curve.singlePoint ⟨p, P, U⟩ u = .ok pt ∧ lo ≤ pt.getD c 0 ∧ pt.getD c 0 ≤ hi := by
  refine ⟨_, single_point_bspline_sum hU hp hP hd h0 h1 hr, ?_⟩
  have hn : knotFn U n = knotFn U (n + p) := hU.right n le_rfl (by omega)
  have h2 : u ≤ knotFn U (n + p) := hn ▸ hr.hi
  have hup := curve_le hU hr.lo h2 (c := coord P c) (b := hi) fun i a b c => (hb i a b c).2
  have hdn := curve_le hU hr.lo h2 (c := fun i => (-1) * coord P c i + 0 * coord P c i) (b := -lo)
    fun i a b c => by have := (hb i a b c).1; linarith
  rw [curve_lin] at hdn
  have e : ([curve (knotFn U) p n (coord P 0) u, curve (knotFn U) p n (coord P 1) u,
      curve (knotFn U) p n (coord P 2) u] : List K).getD c 0 = curve (knotFn U) p n (coord P c) u := by
    match c, hc with
    | 0, _ => rfl
    | 1, _ => rfl
    | 2, _ => rfl
  rw [e]
  exact ⟨by linarith, hup⟩

/-- The affine map of 3-space with the rows `(a00, a01, a02, b0)`, …, on a row of an array. -/
def affineRow (A : ℕ → ℕ → K) (b : ℕ → K) (row : List K) : List K :=
  (List.range 3).map fun c =>
    A c 0 * row.getD 0 0 + A c 1 * row.getD 1 0 + A c 2 * row.getD 2 0 + b c

/-- **C28.** Whenever a parameter not beyond the domain evaluates (also at parameters where the
wrong span is used), evaluation commutes with affine maps. -/
theorem single_point_affine {p n : ℕ} {U : List K} {P : List (List K)} {u : K} {pt : List K}
    (hU : KnotVector p n U) (hp : 1 ≤ p) (hP : Shape P n 3) (hlo : knotFn U p ≤ u)
    (hhi : u ≤ knotFn U n) (A : ℕ → ℕ → K) (b : ℕ → K)
    (h : Curve.singlePoint ⟨p, P, U⟩ u = .ok pt) :
    Curve.singlePoint ⟨p, P.map (affineRow A b), U⟩ u = .ok (affineRow A b pt) := by
  have hlen := hU.len
  have h01 : 0 ≤ u ∧ u ≤ 1 := by
    rw [← validateKnot_iff]
    by_contra hc
    unfold Curve.singlePoint at h
    rw [if_pos (by simpa using hc)] at h
    cases h
  obtain ⟨m, hm, hpm, hmn, -⟩ := find_span_on_domain hU hlo hhi
  have hs : knotFn U m < knotFn U (m + 1) := by
    have hq := (basis_functions_finite_iff hU.mono u hp hpm (by omega : m + p < U.length))
    by_contra hc
    have hbad := hq.2 hc
    unfold Curve.singlePoint at h
    rw [if_neg (by rw [(validateKnot_iff u).2 h01]; simp)] at h
    dsimp only at h
    rw [hP.1, hm, ok_bind, hbad, error_bind] at h
    cases h
  have hP' : Shape (P.map (affineRow A b)) n 3 := by
    refine ⟨by simp [hP.1], fun row hrow => ?_⟩
    obtain ⟨r, -, rfl⟩ := List.mem_map.1 hrow
    simp [affineRow]
  rw [singlePoint_of_span hU hP le_rfl h01.1 h01.2 hm hpm hmn hs] at h
  rw [singlePoint_of_span hU hP' le_rfl h01.1 h01.2 hm hpm hmn hs]
  have := Except.ok.inj h
  subst this
  congr 1
  unfold affineRow
  refine List.map_congr_left fun c hc => ?_
  have hc3 : c < 3 := List.mem_range.1 hc
  have hsum : ∑ r ∈ Finset.range (p + 1), (piece (knotFn U) m p (m - p + r)).eval u = 1 := by
    have := congrArg (eval u) (sum_pieces_range (monotone_knotFn hU.mono) hpm hs)
    rw [eval_finsetSum] at this
    simpa using this
  have e : ∀ r ∈ Finset.range (p + 1), (piece (knotFn U) m p (m - p + r)).eval u *
        coord (P.map (affineRow A b)) c (m - p + r)
      = A c 0 * ((piece (knotFn U) m p (m - p + r)).eval u * coord P 0 (m - p + r))
        + A c 1 * ((piece (knotFn U) m p (m - p + r)).eval u * coord P 1 (m - p + r))
        + A c 2 * ((piece (knotFn U) m p (m - p + r)).eval u * coord P 2 (m - p + r))
        + b c * (piece (knotFn U) m p (m - p + r)).eval u := by
    intro r hr
    have hr' := Finset.mem_range.1 hr
    have hi : m - p + r < P.length := by rw [hP.1]; omega
    have : coord (P.map (affineRow A b)) c (m - p + r)
        = A c 0 * coord P 0 (m - p + r) + A c 1 * coord P 1 (m - p + r)
          + A c 2 * coord P 2 (m - p + r) + b c := by
      unfold coord affineRow
      simp [List.getD_eq_getElem?_getD, List.getElem?_eq_getElem hi, hc3]
    rw [this]; ring
  change ∑ r ∈ Finset.range (p + 1), (piece (knotFn U) m p (m - p + r)).eval u *
        coord (P.map (affineRow A b)) c (m - p + r) = _
  rw [Finset.sum_congr rfl e, Finset.sum_add_distrib, Finset.sum_add_distrib,
    Finset.sum_add_distrib, ← Finset.mul_sum, ← Finset.mul_sum, ← Finset.mul_sum, ← Finset.mul_sum,
    hsum, mul_one]
  simp [List.range_succ_eq_map]

/-- **C29.** Replacing control point `i` by any row does not change the result (value or error)
at parameters outside `[U_i, U_{i+p+1}]`. -/
theorem single_point_local {p n : ℕ} {U : List K} {P : List (List K)} {u : K} {i : ℕ}
    (hU : KnotVector p n U) (hP : P.length = n) (hlo : knotFn U p ≤ u) (hhi : u ≤ knotFn U n)
    (hlast : |u - knotFn U n| ≤ 1 / 10 ^ 8 + 1 / 10 ^ 6 * |knotFn U n| → knotFn U (n - 1) ≤ u)
    (hout : u < knotFn U i ∨ knotFn U (i + p + 1) < u) (row : List K) :
    Curve.singlePoint ⟨p, P.set i row, U⟩ u = Curve.singlePoint ⟨p, P, U⟩ u := by
  have hV := monotone_knotFn hU.mono
  obtain ⟨m, hm, hpm, hmn, h4⟩ := find_span_on_domain hU hlo hhi
  have h5 : knotFn U m ≤ u ∧ u ≤ knotFn U (m + 1) := by
    rcases h4 with h4 | ⟨h4, rfl⟩
    · exact h4
    · unfold nearEnd isclose atolDefault at h4
      refine ⟨hlast (by simpa using h4), ?_⟩
      rw [show n - 1 + 1 = n by omega]
      exact hhi
  have hi : i < m - p ∨ m < i := by
    by_contra hc
    push Not at hc
    have a : knotFn U i ≤ u := (hV (by omega)).trans h5.1
    have b : u ≤ knotFn U (i + p + 1) := h5.2.trans (hV (by omega))
    rcases hout with h | h
    · exact absurd a (not_le.2 h)
    · exact absurd b (not_le.2 h)
  have hslice : pySlice (P.set i row) ((m : ℤ) - p) ((m : ℤ) + 1)
      = pySlice P ((m : ℤ) - p) ((m : ℤ) + 1) := by
    rw [pySlice_nat P _ _ (m - p) (p + 1) [] (by omega) (by omega) (by omega),
      pySlice_nat (P.set i row) _ _ (m - p) (p + 1) [] (by omega) (by omega)
        (by rw [List.length_set]; omega)]
    refine List.map_congr_left fun r hr => ?_
    have := List.mem_range.1 hr
    rw [List.getD_eq_getElem?_getD, List.getD_eq_getElem?_getD,
      List.getElem?_set_ne (by omega)]
  unfold Curve.singlePoint
  dsimp only
  rw [List.length_set, hP, hm, ok_bind, ok_bind, hslice]

/-- **C30.** For every curve, however malformed, a parameter outside `[0, 1]` is rejected with
`ValueError`. -/
theorem single_point_rejects (c : Curve K) {u : K} (h : ¬ (0 ≤ u ∧ u ≤ 1)) :
    c.singlePoint u = .error .valueError := by
  unfold Curve.singlePoint
  rw [if_pos]
  by_contra hc
  exact h ((validateKnot_iff u).1 (by simpa using hc))

/-- **C30**, converse on well-formed curves: on a clamped `[0,1]` knot vector with distinct
interior knots `single_point` raises exactly outside `[0, 1]`. -/
theorem single_point_raises_iff {p n d : ℕ} {U : List K} {P : List (List K)}
    (hU : Clamped p n U) (hdist : DistinctInterior p n U) (hP : Shape P n d) (hd : 3 ≤ d)
    (hk0 : knotFn U 0 = 0) (hk1 : knotFn U (n + p) = 1) (u : K) :
    (∃ pt, Curve.singlePoint ⟨p, P, U⟩ u = .ok pt) ↔ 0 ≤ u ∧ u ≤ 1 := by
  refine ⟨?_, ?_⟩
  · rintro ⟨pt, h⟩
    by_contra hc
    rw [single_point_rejects _ hc] at h
    cases h
  · rintro ⟨h0, h1⟩
    obtain ⟨m, hm, hpm, hmn, hs⟩ := find_span_positive_span_distinct hU.toKnotVector hdist
      (u := u) (by rw [hU.left p le_rfl, hk0]; exact h0)
      (by rw [hU.right n le_rfl (by omega), hk1]; exact h1)
    exact ⟨_, singlePoint_of_span hU.toKnotVector hP hd h0 h1 hm hpm hmn hs⟩

/-- **C31.** `points` returns `ys` iff `ys` has one row per parameter, in order, each the
`single_point` of its parameter. -/
theorem points_elementwise (c : Curve K) (us : List K) (ys : List (List K)) :
    c.points us = .ok ys ↔
      ys.length = us.length ∧ ∀ i (h : i < us.length) (h' : i < ys.length),
        c.singlePoint us[i] = .ok ys[i] := by
  unfold Curve.points
  rw [mapPy_ok_iff, List.forall₂_iff_get]
  constructor
  · rintro ⟨h1, h2⟩; exact ⟨h1.symm, fun i a b => h2 i a b⟩
  · rintro ⟨h1, h2⟩; exact ⟨h1.symm, fun i a b => h2 i a b⟩

/-- **C30** for arrays: `points` fails iff some entry fails. -/
theorem points_fails_iff (c : Curve K) (us : List K) :
    (∃ e, c.points us = .error e) ↔ ∃ u ∈ us, ∃ e, c.singlePoint u = .error e :=
  mapPy_fails_iff _ _

/-- **C32.** At a knot of multiplicity `m ≤ p` the spans on its two sides give the same
combination of control points: the result does not depend on which of the two is used. -/
theorem spans_meet {U : List K} (hU : U.Pairwise (· ≤ ·)) {k m p : ℕ} {u : K} (hpk : p ≤ k)
    (hlen : k + m + p < U.length) (h1 : knotFn U k < u) (h2 : ∀ j < m, knotFn U (k + 1 + j) = u)
    (h3 : u < knotFn U (k + m + 1)) (hm1 : 1 ≤ m) (hmp : m ≤ p) (c : ℕ → K) :
    ∃ A B, basisFunctions (k : ℤ) u p U = .ok A ∧ basisFunctions ((k + m : ℕ) : ℤ) u p U = .ok B ∧
      ∑ r ∈ Finset.range (p + 1), A.getD r 0 * c (k - p + r)
        = ∑ r ∈ Finset.range (p + 1), B.getD r 0 * c (k + m - p + r) := by
  have hk1 : knotFn U (k + 1) = u := h2 0 (by omega)
  have hkm : knotFn U (k + m) = u := by
    have := h2 (m - 1) (by omega)
    rwa [show k + 1 + (m - 1) = k + m by omega] at this
  refine ⟨_, _, basis_functions_pieces hU u hpk (by omega) (by rw [hk1]; exact h1),
    basis_functions_pieces hU u (by omega) hlen (by rw [hkm]; exact h3), ?_⟩
  have e : ∀ (k : ℕ), ∑ r ∈ Finset.range (p + 1), (((List.range (p + 1)).map fun r =>
      (piece (knotFn U) k p (k - p + r)).eval u).getD r 0) * c (k - p + r)
      = ∑ r ∈ Finset.range (p + 1), (fun i => (piece (knotFn U) k p i).eval u) (k - p + r)
          * c (k - p + r) := by
    intro k
    refine Finset.sum_congr rfl fun r hr => ?_
    have := Finset.mem_range.1 hr
    simp [List.getD_eq_getElem?_getD, this]
  have z : ∀ (k : ℕ) (i : ℕ), i + p < k ∨ k < i → (piece (knotFn U) k p i).eval u = 0 := by
    rintro k i (h | h)
    · rw [piece_eq_zero_of_gt _ _ _ _ h, eval_zero]
    · rw [piece_eq_zero_of_lt _ _ _ _ h, eval_zero]
  rw [e, e, sum_active (n := k + m + 1) hpk (by omega) _ _ (z k),
    sum_active (n := k + m + 1) (by omega) (by omega) _ _ (z (k + m))]
  refine Finset.sum_congr rfl fun i _ => ?_
  rw [piece_continuous h1 h2 h3 hmp]

/-- **C33.** If the domain of the knot vector does not contain the parameter, although the
parameter is in `[0, 1]`, `single_point` does not return: the span search never ends. -/
theorem single_point_hangs {p n : ℕ} {U : List K} {P : List (List K)} {u : K}
    (hU : KnotVector p n U) (hP : P.length = n) (h0 : 0 ≤ u) (h1 : u ≤ 1)
    (hlo : u < knotFn U p)
    (hend : ¬ |u - knotFn U n| ≤ 1 / 10 ^ 8 + 1 / 10 ^ 6 * |knotFn U n|) :
    Curve.singlePoint ⟨p, P, U⟩ u = .error .diverged := by
  have hlen := hU.len
  have hsz := hU.size
  unfold Curve.singlePoint
  rw [if_neg (by rw [(validateKnot_iff u).2 ⟨h0, h1⟩]; simp)]
  dsimp only
  unfold findSpan
  rw [knotFn_eq (by omega)] at hlo hend
  rw [hP, find_span_hangs_below _ n p u U hU.mono hsz (by omega) hlo ?_ _, error_bind]
  unfold isclose atolDefault
  simpa using hend

/-- **C33.** The check of the knot vector accepts such knot vectors: adding a constant to the
knots is not noticed, so a curve accepted on `[0, 1]` becomes one on which every evaluation
hangs. -/
theorem check_accepts_hanging {p n : ℕ} {U : List K} {P : List (List K)} (hU : KnotVector p n U)
    (hP : P.length = n) (hacc : checkKnotVector p U n = .ok true) (h0 : knotFn U 0 = 0) :
    ∃ W : List K, checkKnotVector p W n = .ok true ∧
      ∀ u, 0 ≤ u → u ≤ 1 → Curve.singlePoint ⟨p, P, W⟩ u = .error .diverged := by
  have hlen := hU.len
  have hsz := hU.size
  have hV := monotone_knotFn hU.mono
  have hne : U ≠ [] := by intro h; rw [h] at hlen; simp at hlen
  have hW : KnotVector p n (U.map fun x => 1 * x + 5) := by
    refine ⟨by simp [hlen], ?_, hsz⟩
    rw [List.pairwise_map]
    exact hU.mono.imp fun h => by linarith
  have hk : ∀ i, i < U.length → knotFn (U.map fun x => 1 * x + 5) i = knotFn U i + 5 := by
    intro i hi
    rw [knotFn_eq (by simpa using hi), knotFn_eq hi]
    simp
  refine ⟨U.map fun x => 1 * x + 5, ?_, fun u hu0 hu1 => ?_⟩
  · rw [check_knot_vector_affine p n U one_pos]; exact hacc
  · have hlo : 0 ≤ knotFn U p := h0 ▸ hV (by omega)
    have hn : 0 ≤ knotFn U n := h0 ▸ hV (by omega)
    refine single_point_hangs hW hP hu0 hu1 ?_ ?_
    · rw [hk p (by omega)]; linarith
    · rw [hk n (by omega), abs_of_nonpos (by linarith), abs_of_nonneg (by linarith)]
      have e1 : (1 / 10 ^ 6 : K) ≤ 1 / 2 := by norm_num
      have e2 : (1 / 10 ^ 8 : K) ≤ 1 / 4 := by norm_num
      intro h
      nlinarith

/-- A knot vector whose last span is shorter than the end tolerance of `find_span`. -/
def exSliver : List ℚ := [0, 0, 0, 1 - 1/10^7, 1, 1, 1]

/-- **C33.** Inside the tolerance sliver left of the last span the polynomial of the last span is
used although the parameter is not in it: the knot vector is accepted, the parameter is in the
domain, all control points have `y ≤ 1`, and the computed point has `y > 1`. -/
theorem sliver_leaves_hull :
    checkKnotVector 2 exSliver 4 = .ok true ∧
    (Curve.singlePoint ⟨2, [[0, 0, 0], [1, 0, 0], [2, 1, 0], [3, 0, 0]], exSliver⟩
      (1 - 2/10^7)).map (fun pt => decide (pt.getD 1 0 < 0 ∨ 1 < pt.getD 1 0)) = .ok true ∧
    knotFn exSliver 2 ≤ 1 - 2/10^7 ∧ 1 - 2/10^7 < knotFn exSliver 3 := by
  decide +kernel

/-- Control points with two columns (the dimension that fitting of planar data uses) cannot be
evaluated: `single_point` raises `IndexError` at every parameter of `[0, 1]` whose span is found
and not empty. -/
theorem single_point_planar_raises {p n : ℕ} {U : List K} {P : List (List K)} {u : K}
    (hU : KnotVector p n U) (hP : Shape P n 2) (h0 : 0 ≤ u) (h1 : u ≤ 1) (hr : Regular p n U u) :
    Curve.singlePoint ⟨p, P, U⟩ u = .error .indexError := by
  have hlen := hU.len
  have hPl := hP.1
  obtain ⟨m, hm, hpm, hmn, -, -, hs⟩ := findSpan_regular hU hr
  unfold Curve.singlePoint
  rw [if_neg (by rw [(validateKnot_iff u).2 ⟨h0, h1⟩]; simp)]
  dsimp only
  rw [hPl, hm, ok_bind, basis_functions_pieces hU.mono u hpm (by omega) hs, ok_bind,
    pySlice_nat P _ _ (m - p) (p + 1) [] (by omega) (by omega) (by omega)]
  have hc : ∀ c < 2, ∀ r < p + 1, c < (P.getD (m - p + r) []).length := fun c hc r hr => by
    rw [hP.row (by omega)]; omega
  rw [column_rows P _ _ 0 0 rfl (hc 0 (by omega)), ok_bind, dot_map_range, ok_bind,
    column_rows P _ _ 1 1 rfl (hc 1 (by omega)), ok_bind, dot_map_range, ok_bind]
  have : column ((List.range (p + 1)).map fun r => P.getD (m - p + r) []) 2
      = .error .indexError := by
    unfold column
    rw [List.range_succ_eq_map, List.map_cons]
    unfold mapPy
    have : pyGet (P.getD (m - p + 0) []) 2 = .error .indexError := by
      unfold pyGet pyIdx
      rw [hP.row (by omega)]
      simp
    rw [this, error_bind]
  rw [this, error_bind]

/-! ## Concrete cases -/

theorem exU_regular {u : ℚ} (h0 : 0 ≤ u) (h1 : u ≤ 1) : Regular 2 6 exU u := by
  refine regular_of_distinct exU_clamped exU_distinct (by decide +kernel) (by decide +kernel) h0 h1
    fun h => ?_
  have e : knotFn exU (6 - 1) = 3/4 := by decide +kernel
  rw [abs_of_nonpos (by linarith)] at h
  rw [e]
  norm_num at h
  linarith

/-- C25 at an inner knot, with all hypotheses met; the point is not trivial. -/
example : Curve.singlePoint ⟨2, exP, exU⟩ (1/2) = .ok [curve (knotFn exU) 2 6 (coord exP 0) (1/2),
      curve (knotFn exU) 2 6 (coord exP 1) (1/2), curve (knotFn exU) 2 6 (coord exP 2) (1/2)] :=
  single_point_bspline_sum exU_clamped (by decide) exP_shape le_rfl (by norm_num) (by norm_num)
    (exU_regular (by norm_num) (by norm_num))

example : Curve.singlePoint ⟨2, exP, exU⟩ (3/10) = .ok [17/10, 33/50, 33/50] := by
  decide +kernel

/-- C25 also covers knot vectors with repeated knots, away from them. -/
example : Regular 2 6 exDouble (3/10) := by
  refine ⟨by decide +kernel, by decide +kernel, ?_, by decide +kernel⟩
  intro i h1 h2 h3
  interval_cases i <;> revert h3 <;> decide +kernel

example : Curve.singlePoint ⟨2, exP, exU⟩ 0 = .ok [0, 0, 0] :=
  single_point_first exU_clamped (by decide) exP_shape (by decide +kernel) (by decide +kernel)
    (by decide +kernel)

example : Curve.singlePoint ⟨2, exP, exU⟩ 1 = .ok [5, 0, 2] :=
  single_point_last exU_clamped (by decide) exP_shape (by decide +kernel) (by decide +kernel)

example : ∃ pt, Curve.singlePoint ⟨2, exP, exU⟩ (3/10) = .ok pt ∧ 0 ≤ pt.getD 1 0 ∧
    pt.getD 1 0 ≤ 2 :=
  single_point_box exU_clamped (by decide) exP_shape le_rfl (by norm_num) (by norm_num)
    (exU_regular (by norm_num) (by norm_num)) (by decide) 0 2 (by
      intro i h1
      interval_cases i <;> decide +kernel)

example : Curve.singlePoint ⟨2, exP.map (affineRow (fun i j => (i + j : ℚ)) fun i => (i : ℚ)), exU⟩
    (3/10) = .ok (affineRow (fun i j => (i + j : ℚ)) (fun i => (i : ℚ)) [17/10, 33/50, 33/50]) :=
  single_point_affine exU_knotVector (by decide) exP_shape (by decide +kernel) (by decide +kernel)
    _ _ (by decide +kernel)

example (row : List ℚ) : Curve.singlePoint ⟨2, exP.set 5 row, exU⟩ (3/10)
    = Curve.singlePoint ⟨2, exP, exU⟩ (3/10) :=
  single_point_local exU_knotVector (by decide) (by decide +kernel) (by decide +kernel)
    (exU_regular (by norm_num) (by norm_num)).last (Or.inl (by decide +kernel)) row

/-- C32 at the double knot of `exDouble`: the spans 3 and 5 meet there. -/
example (c : ℕ → ℚ) : ∃ A B, basisFunctions (3 : ℕ) (1/2) 2 exDouble = .ok A ∧
    basisFunctions ((3 + 2 : ℕ) : ℤ) (1/2) 2 exDouble = .ok B ∧
      ∑ r ∈ Finset.range 3, A.getD r 0 * c (3 - 2 + r)
        = ∑ r ∈ Finset.range 3, B.getD r 0 * c (3 + 2 - 2 + r) :=
  spans_meet exDouble_clamped.mono (by decide) (by decide) (by decide +kernel)
    (by intro j hj; interval_cases j <;> decide +kernel) (by decide +kernel) (by decide) le_rfl c

/-- C33, a concrete curve that hangs everywhere on `[0, 1]`. -/
example : checkKnotVector 2 [5, 5, 5, 6, 7, 7, (7 : ℚ)] 4 = .ok true ∧
    Curve.singlePoint ⟨2, [[0, 0, 0], [1, 0, 0], [2, 1, 0], [3, 0, (0 : ℚ)]],
      [5, 5, 5, 6, 7, 7, 7]⟩ (1/2) = .error .diverged := by decide +kernel

example : ∃ W : List ℚ, checkKnotVector 2 W 6 = .ok true ∧
      ∀ u, 0 ≤ u → u ≤ 1 → Curve.singlePoint ⟨2, exP, W⟩ u = .error .diverged :=
  check_accepts_hanging exU_knotVector (by decide) (by decide +kernel) (by decide +kernel)

end PySpline
