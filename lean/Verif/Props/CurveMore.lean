import Verif.Lemmas.CurveMore
import Verif.Lemmas.Reversal
import Verif.Props.FitUnique
import Verif.Props.Insertion
import Verif.Props.SurfaceMore

/-!
# C118–C121: uniqueness of control points, stability, reversal and transposition
-/

set_option linter.unusedSectionVars false

namespace PySpline

open Spec

variable {K : Type} [Field K] [LinearOrder K] [IsStrictOrderedRing K]

/-! ## C118 -/

/-- Distinct interior knots: no basis function vanishes identically. -/
theorem knots_lt_of_distinct {p n : ℕ} {U : List K} (hU : Clamped p n U) (hd : DistinctInterior p n U) :
    ∀ j < n, knotFn U j < knotFn U (j + p + 1) := by
  intro j hj
  have hV := monotone_knotFn hU.mono
  have hsz := hU.size
  exact ((hV (le_max_left j p)).trans_lt (hd (max j p) (le_max_right _ _) (max_lt hj hsz))).trans_le (hV (by omega))

/-- **C118.** Two curves with the same knots and the same points have the same control points. -/
theorem single_point_injective {p n : ℕ} {U : List K} {P Q : List (List K)} (hU : Clamped p n U) (hp : 1 ≤ p)
    (hd : DistinctInterior p n U) (h0 : knotFn U 0 = 0) (h1 : knotFn U (n + p) = 1)
    (hl : knotFn U (n - 1) ≤ 1 - (1 / 10 ^ 8 + 1 / 10 ^ 6)) (hP : Shape P n 3) (hQ : Shape Q n 3)
    (h : ∀ u, 0 ≤ u → u ≤ 1 → Curve.singlePoint ⟨p, P, U⟩ u = Curve.singlePoint ⟨p, Q, U⟩ u) : P = Q := by
  refine rows_ext hP hQ fun k hk => coeff_eq_of_curve_eq hU hp (knots_lt_of_distinct hU hd) fun u hu0 hu1 => ?_
  rw [hU.left p le_rfl, h0] at hu0
  rw [hU.right n le_rfl (by omega), h1] at hu1
  have hr : Regular p n U u := regular_of_distinct hU hd h0 h1 hu0.le hu1.le fun hc => by
    rw [abs_of_nonpos (by linarith)] at hc
    linarith
  have e := h u hu0.le hu1.le
  rw [single_point_bspline_sum hU hp hP le_rfl hu0.le hu1.le hr,
    single_point_bspline_sum hU hp hQ le_rfl hu0.le hu1.le hr] at e
  have e := Except.ok.inj e
  simp only [List.cons.injEq, and_true] at e
  interval_cases k
  · exact e.1
  · exact e.2.1
  · exact e.2.2

/-- **C118.** The same for surfaces. -/
theorem surface_point_injective {s t : Surface K} (hs : ClampedSurface s) (ht : ClampedSurface t)
    (hdu : DistinctInterior s.degreeU s.numU s.kvU) (hdv : DistinctInterior s.degreeV s.numV s.kvV)
    (hu : knotFn s.kvU 0 = 0 ∧ knotFn s.kvU (s.numU + s.degreeU) = 1)
    (hv : knotFn s.kvV 0 = 0 ∧ knotFn s.kvV (s.numV + s.degreeV) = 1)
    (hlu : knotFn s.kvU (s.numU - 1) ≤ 1 - (1 / 10 ^ 8 + 1 / 10 ^ 6))
    (hlv : knotFn s.kvV (s.numV - 1) ≤ 1 - (1 / 10 ^ 8 + 1 / 10 ^ 6)) (hst : t = { s with ctrlpts := t.ctrlpts })
    (h : ∀ u v, 0 ≤ u → u ≤ 1 → 0 ≤ v → v ≤ 1 → s.singlePoint u v = t.singlePoint u v) : s = t := by
  obtain ⟨p, q, n, m, P, U, V⟩ := s
  obtain ⟨p', q', n', m', Q, U', V'⟩ := t
  obtain ⟨rfl, rfl, rfl, rfl, -, rfl, rfl⟩ := Surface.mk.inj hst
  dsimp only at *
  have key : P = Q := by
    refine rows_ext_grid hs.shape ht.shape fun k hk i hi j hj => ?_
    have hreg : ∀ {p n : ℕ} {U : List K}, Clamped p n U → DistinctInterior p n U → knotFn U 0 = 0 →
        knotFn U (n + p) = 1 → knotFn U (n - 1) ≤ 1 - (1 / 10 ^ 8 + 1 / 10 ^ 6) → ∀ u, 0 < u → u < 1 →
        Regular p n U u := fun hU hd h0 h1 hl u hu0 hu1 =>
      regular_of_distinct hU hd h0 h1 hu0.le hu1.le fun hc => by
        rw [abs_of_nonpos (by linarith)] at hc
        linarith
    refine coeff_eq_of_curve_eq (c := fun j => coord P k (i * m' + j)) (d := fun j => coord Q k (i * m' + j))
      hs.cv hs.dv (knots_lt_of_distinct hs.cv hdv) (fun v hv0 hv1 => ?_) j hj
    refine coeff_eq_of_curve_eq
      (c := fun i => curve (knotFn V') q' m' (fun j => coord P k (i * m' + j)) v)
      (d := fun i => curve (knotFn V') q' m' (fun j => coord Q k (i * m' + j)) v)
      hs.cu hs.du (knots_lt_of_distinct hs.cu hdu) (fun u hu0 hu1 => ?_) i hi
    dsimp only at *
    rw [hs.cv.left q' le_rfl, hv.1] at hv0
    rw [hs.cv.right m' le_rfl (Nat.le_add_right _ _), hv.2] at hv1
    rw [hs.cu.left p' le_rfl, hu.1] at hu0
    rw [hs.cu.right n' le_rfl (Nat.le_add_right _ _), hu.2] at hu1
    have ru := hreg hs.cu hdu hu.1 hu.2 hlu u hu0 hu1
    have rv := hreg hs.cv hdv hv.1 hv.2 hlv v hv0 hv1
    have e := h u v hu0.le hu1.le hv0.le hv1.le
    rw [surface_point_tensor_sum hs ⟨hu0.le, hu1.le⟩ ⟨hv0.le, hv1.le⟩ ru rv,
      surface_point_tensor_sum ht ⟨hu0.le, hu1.le⟩ ⟨hv0.le, hv1.le⟩ ru rv] at e
    have e := Except.ok.inj e
    simp only [List.cons.injEq, and_true] at e
    have ec : Surface.value ⟨p', q', n', m', P, U', V'⟩ k u v = Surface.value ⟨p', q', n', m', Q, U', V'⟩ k u v := by
      interval_cases k
      · exact e.1
      · exact e.2.1
      · exact e.2.2
    rw [value_eq_curve_u, value_eq_curve_u] at ec
    exact ec
  rw [key]

/-- **C118.** The order in which two new knots are inserted does not matter. -/
theorem knot_insertion_comm {U : List K} {P : List (List K)} {r s n p : ℕ} {x y : K} (hU : Clamped p n U) (hp : 1 ≤ p)
    (hP : Shape P n 3) (hcount : ∀ v, U.count v ≤ p + 1)
    (hx : knotFn U p ≤ x ∧ x ≤ knotFn U n ∧ nearEnd n x U = false)
    (hy : knotFn U p ≤ y ∧ y ≤ knotFn U n ∧ nearEnd n y U = false)
    (hxn : ∀ v ∈ y :: U, ¬ |x - v| ≤ 1 / 10 ^ 8 + 1 / 10 ^ 5 * |v|)
    (hyn : ∀ v ∈ x :: U, ¬ |y - v| ≤ 1 / 10 ^ 8 + 1 / 10 ^ 5 * |v|) (hr : r ≤ p) (hs : s ≤ p) :
    ∃ U' P', (do let (V, Q) ← curveKnotInsertion p U P x r
                 curveKnotInsertion p V Q y s) = .ok (U', P') ∧
      (do let (V, Q) ← curveKnotInsertion p U P y s
          curveKnotInsertion p V Q x r) = .ok (U', P') := by
  -- inserting both, in one of the two orders
  have both : ∀ {x y : K} {r s : ℕ}, (knotFn U p ≤ x ∧ x ≤ knotFn U n ∧ nearEnd n x U = false) →
      (knotFn U p ≤ y ∧ y ≤ knotFn U n ∧ nearEnd n y U = false) →
      (∀ v ∈ y :: U, ¬ |x - v| ≤ 1 / 10 ^ 8 + 1 / 10 ^ 5 * |v|) →
      (∀ v ∈ x :: U, ¬ |y - v| ≤ 1 / 10 ^ 8 + 1 / 10 ^ 5 * |v|) → r ≤ p → s ≤ p →
      ∃ U' P', (do let (V, Q) ← curveKnotInsertion p U P x r
                   curveKnotInsertion p V Q y s) = .ok (U', P') ∧ Clamped p (n + r + s) U' ∧
        Shape P' (n + r + s) 3 ∧ U'.Perm (U ++ List.replicate r x ++ List.replicate s y) ∧
        ∀ k < 3, ∀ u, curve (knotFn U') p (n + r + s) (coord P' k) u = curve (knotFn U) p n (coord P k) u := by
    intro x y r s hx hy hxn hyn hr hs
    obtain ⟨V, Q, h1, -, hQ, hperm, -, hc⟩ := knot_insertion_preserves_curve_new_knot hU.toKnotVector hP hx.1 hx.2.1
      hx.2.2 (fun v hv => hxn v (List.mem_cons_of_mem _ hv)) hr
    obtain ⟨hV, hcV⟩ := hc hU
    have hmem : ∀ v ∈ V, v ∈ U ∨ v = x := by
      intro v hv
      rcases List.mem_append.1 (hperm.mem_iff.1 hv) with h | h
      · exact Or.inl h
      · exact Or.inr (List.eq_of_mem_replicate h)
    have hsz := hU.size
    -- the ends are the same
    have hU0 : ∀ v ∈ V, knotFn U 0 ≤ v ∧ v ≤ knotFn U (n + p) := by
      intro v hv
      rcases hmem v hv with h | rfl
      · exact knotFn_bounds hU.mono hU.len h
      · rw [← hU.left p le_rfl, ← hU.right n le_rfl (by omega)]
        exact ⟨hx.1, hx.2.1⟩
    have hsub : ∀ v ∈ U, v ∈ V := fun v hv => hperm.mem_iff.2 (List.mem_append_left _ hv)
    have lU := hU.len
    have lV := hV.len
    have hfirst : knotFn V p = knotFn U p := by
      rw [hV.left p le_rfl, hU.left p le_rfl]
      exact le_antisymm (knotFn_bounds hV.mono hV.len (hsub _ (knotFn_mem (by omega)))).1
        (hU0 _ (knotFn_mem (by omega))).1
    have hlast : knotFn V (n + r) = knotFn U n := by
      rw [hV.right (n + r) le_rfl (by omega), hU.right n le_rfl (by omega)]
      exact le_antisymm (hU0 _ (knotFn_mem (by omega))).2
        (knotFn_bounds hV.mono hV.len (hsub _ (knotFn_mem (by omega)))).2
    obtain ⟨W, R, h2, -, hR, hperm', -, hc'⟩ := knot_insertion_preserves_curve_new_knot hV.toKnotVector hQ
      (u := y) (r := s) (by rw [hfirst]; exact hy.1) (by rw [hlast]; exact hy.2.1)
      (by have := hy.2.2; unfold nearEnd at this ⊢; rw [hlast]; exact this)
      (fun v hv => by
        rcases hmem v hv with h | rfl
        · exact hyn v (List.mem_cons_of_mem _ h)
        · exact hyn _ List.mem_cons_self) hs
    obtain ⟨hW, hcW⟩ := hc' hV
    refine ⟨W, R, ?_, hW, hR, hperm'.trans (hperm.append_right _), fun k hk u => ?_⟩
    · rw [h1, ok_bind]
      exact h2
    · rw [hcW k hk, hcV k hk]
  obtain ⟨A, X, hA, cA, sA, pA, eA⟩ := both hx hy hxn hyn hr hs
  obtain ⟨B, Y, hB, cB, sB, pB, eB⟩ := both hy hx hyn hxn hs hr
  have hAB : A = B := by
    refine List.Perm.eq_of_pairwise' cA.mono cB.mono (pA.trans (List.Perm.trans ?_ pB.symm))
    rw [List.append_assoc, List.append_assoc]
    exact (List.perm_append_comm).append_left U
  subst hAB
  have hXY : X = Y := by
    rw [Nat.add_right_comm] at cB sB eB
    refine rows_ext sA sB fun k hk => coeff_eq_of_curve_eq cA hp (fun j hj => knotFn_lt_of_count cA.mono ?_ ?_) ?_
    · intro v
      rw [pA.count_eq, List.count_append, List.count_append, List.count_replicate, List.count_replicate]
      have hself : ∀ z : K, |z - z| ≤ 1 / 10 ^ 8 + 1 / 10 ^ 5 * |z| := fun z => by
        rw [sub_self, abs_zero]; positivity
      by_cases hvx : x = v
      · have hxy : ¬ y = v := by
          rintro rfl
          exact hxn y List.mem_cons_self (by rw [hvx]; exact hself y)
        have : U.count v = 0 := List.count_eq_zero.2 fun hm => hxn v (List.mem_cons_of_mem _ hm) (by
          rw [hvx]; exact hself v)
        simp [hvx, hxy, this]
        omega
      · by_cases hvy : y = v
        · have : U.count v = 0 := List.count_eq_zero.2 fun hm => hyn v (List.mem_cons_of_mem _ hm) (by
            rw [hvy]; exact hself v)
          simp [hvx, hvy, this]
          omega
        · have := hcount v
          simp [hvx, hvy, this]
    · rw [cA.len]
      omega
    · intro u _ _
      rw [eA k hk, eB k hk]
  subst hXY
  exact ⟨A, X, hA, hB⟩

/-! ## C119 -/

/-- **C119.** Moving every control point that acts at the parameter by at most `ε` in a coordinate moves the curve
point by at most `ε` in this coordinate. -/
theorem single_point_stable {p n : ℕ} {U : List K} {P Q : List (List K)} {u ε : K} (hU : Clamped p n U) (hp : 1 ≤ p)
    (hP : Shape P n 3) (hQ : Shape Q n 3) (h0 : 0 ≤ u) (h1 : u ≤ 1) (hr : Regular p n U u) {k : ℕ} (hk : k < 3)
    (h : ∀ i < n, knotFn U i ≤ u → u ≤ knotFn U (i + p + 1) → |coord P k i - coord Q k i| ≤ ε) :
    ∃ x y, Curve.singlePoint ⟨p, P, U⟩ u = .ok x ∧ Curve.singlePoint ⟨p, Q, U⟩ u = .ok y ∧
      |x.getD k 0 - y.getD k 0| ≤ ε := by
  refine ⟨_, _, single_point_bspline_sum hU hp hP le_rfl h0 h1 hr, single_point_bspline_sum hU hp hQ le_rfl h0 h1 hr, ?_⟩
  have hhi : u ≤ knotFn U (n + p) := by rw [← hU.right n le_rfl (by omega)]; exact hr.hi
  have key : |curve (knotFn U) p n (coord P k) u - curve (knotFn U) p n (coord Q k) u| ≤ ε := by
    have e : ∀ c d : ℕ → K, curve (knotFn U) p n c u - curve (knotFn U) p n d u
        = curve (knotFn U) p n (fun i => c i - d i) u := by
      intro c d
      unfold curve
      rw [← Finset.sum_sub_distrib]
      exact Finset.sum_congr rfl fun i _ => by ring
    rw [abs_le']
    constructor
    · rw [e]
      exact curve_le hU hr.lo hhi fun i hi a b => (le_abs_self _).trans (h i hi a b)
    · rw [neg_sub, e]
      exact curve_le hU hr.lo hhi fun i hi a b => by
        have := h i hi a b
        rw [abs_sub_comm] at this
        exact (le_abs_self _).trans this
  interval_cases k <;> simpa using key

/-- **C119.** Curve points move continuously with the parameter: if neighbouring control points differ in a coordinate
by at most `L (U[i+p+1] - U[i+1]) / p`, points at `s` and `t` differ in this coordinate by at most `L |t - s|`. -/
theorem single_point_lipschitz {p n : ℕ} {U : List K} {P : List (List K)} {s t L : K} (hU : Clamped p n U) (hp : 1 ≤ p)
    (hP : Shape P n 3) (hs : 0 ≤ s ∧ s ≤ 1) (ht : 0 ≤ t ∧ t ≤ 1) (rs : Regular p n U s) (rt : Regular p n U t)
    {k : ℕ} (hk : k < 3) (h : ∀ i, i + 1 < n →
      |coord P k (i + 1) - coord P k i| * p ≤ L * (knotFn U (i + p + 1) - knotFn U (i + 1))) :
    ∃ x y, Curve.singlePoint ⟨p, P, U⟩ s = .ok x ∧ Curve.singlePoint ⟨p, P, U⟩ t = .ok y ∧
      |y.getD k 0 - x.getD k 0| ≤ L * |t - s| := by
  refine ⟨_, _, single_point_bspline_sum hU hp hP le_rfl hs.1 hs.2 rs,
    single_point_bspline_sum hU hp hP le_rfl ht.1 ht.2 rt, ?_⟩
  have key : |curve (knotFn U) p n (coord P k) t - curve (knotFn U) p n (coord P k) s| ≤ L * |t - s| := by
    rcases le_total s t with hst | hst
    · rw [abs_of_nonneg (sub_nonneg.2 hst)]
      exact curve_lipschitz hU hp h rs.lo hst rt.hi
    · rw [abs_sub_comm, abs_sub_comm t, abs_of_nonneg (sub_nonneg.2 hst)]
      exact curve_lipschitz hU hp h rt.lo hst rs.hi
  interval_cases k <;> simpa using key

/-! ## C120 -/

/-- **C120.** Reversing the control points and the knots reverses the curve. -/
theorem single_point_reverse {p n : ℕ} {U : List K} {P : List (List K)} {u : K} (hU : Clamped p n U) (hp : 1 ≤ p)
    (hP : Shape P n 3) (h0 : 0 ≤ u) (h1 : u ≤ 1) (hr : Regular p n U u) (hr' : Regular p n (reverseKnots U) (1 - u)) :
    Curve.singlePoint ⟨p, P.reverse, reverseKnots U⟩ (1 - u) = Curve.singlePoint ⟨p, P, U⟩ u := by
  have hP' : Shape P.reverse n 3 := ⟨by rw [List.length_reverse, hP.1], fun row hrow => hP.2 row (List.mem_reverse.1 hrow)⟩
  rw [single_point_bspline_sum hU hp hP le_rfl h0 h1 hr,
    single_point_bspline_sum (clamped_reverse hU) hp hP' le_rfl (by linarith) (by linarith) hr']
  have : ∀ k, curve (knotFn (reverseKnots U)) p n (coord P.reverse k) (1 - u) = curve (knotFn U) p n (coord P k) u := by
    intro k
    rw [← curve_reverse hU hp hr hr']
    refine curve_congr (fun i hi => ?_) _
    unfold coord
    simp only [List.getD_eq_getElem?_getD]
    rw [List.getElem?_reverse (by rw [hP.1]; exact hi), hP.1]
  rw [this, this, this]

/-! ## C121 -/

/-- The surface with the two directions exchanged. -/
def Surface.transpose (s : Surface K) : Surface K :=
  ⟨s.degreeV, s.degreeU, s.numV, s.numU,
    (List.range (s.numV * s.numU)).map fun l => s.ctrlpts.getD (l % s.numU * s.numV + l / s.numU) [], s.kvV, s.kvU⟩

theorem coord_transpose (s : Surface K) (k : ℕ) {i j : ℕ} (hi : i < s.numU) (hj : j < s.numV) :
    coord s.transpose.ctrlpts k (j * s.numU + i) = coord s.ctrlpts k (i * s.numV + j) := by
  have hl : j * s.numU + i < s.numV * s.numU :=
    lt_of_lt_of_le (by rw [Nat.add_mul, Nat.one_mul]; omega : j * s.numU + i < (j + 1) * s.numU)
      (Nat.mul_le_mul_right _ hj)
  unfold coord Surface.transpose
  dsimp only
  congr 1
  rw [List.getD_eq_getElem?_getD, List.getElem?_map, List.getElem?_range hl]
  simp only [Option.map_some, Option.getD_some]
  rw [Nat.mul_comm j, Nat.mul_add_mod, Nat.mod_eq_of_lt hi, Nat.mul_add_div (by omega), Nat.div_eq_of_lt hi,
    Nat.add_zero]

/-- **C121.** Exchanging the two directions of a surface exchanges the parameters. -/
theorem surface_point_transpose {s : Surface K} (hs : ClampedSurface s) {u v : K}
    (hu : 0 ≤ u ∧ u ≤ 1) (hv : 0 ≤ v ∧ v ≤ 1) (ru : Regular s.degreeU s.numU s.kvU u)
    (rv : Regular s.degreeV s.numV s.kvV v) : s.transpose.singlePoint v u = s.singlePoint u v := by
  have ht : ClampedSurface s.transpose := ⟨hs.cv, hs.cu, hs.dv, hs.du, by
    refine ⟨by simp [Surface.transpose], fun row hrow => ?_⟩
    obtain ⟨l, hl, rfl⟩ := List.mem_map.1 hrow
    have hl := List.mem_range.1 hl
    have hpos : 0 < s.numU := Nat.pos_of_ne_zero fun h => by rw [h] at hl; omega
    have h1 : l % s.numU < s.numU := Nat.mod_lt _ hpos
    have h2 : l / s.numU < s.numV := Nat.div_lt_of_lt_mul (by rwa [Nat.mul_comm])
    have h3 : l % s.numU * s.numV + l / s.numU < s.ctrlpts.length := by
      rw [hs.shape.1]
      exact lt_of_lt_of_le (by rw [Nat.add_mul, Nat.one_mul]; omega : _ < (l % s.numU + 1) * s.numV)
        (Nat.mul_le_mul_right _ h1)
    refine hs.shape.2 _ ?_
    rw [List.getD_eq_getElem?_getD, List.getElem?_eq_getElem h3]
    exact List.getElem_mem h3⟩
  rw [surface_point_tensor_sum hs hu hv ru rv, surface_point_tensor_sum ht hv hu rv ru]
  have : ∀ k, s.transpose.value k v u = s.value k u v := by
    intro k
    rw [value_eq_curve_u, value_eq_curve_v]
    refine curve_congr (fun j hj => curve_congr (fun i hi => ?_) _) _
    exact coord_transpose s k hi hj
  rw [this, this, this]

/-! ## Concrete cases -/

/-- C118: the curve of `exP` is the only one with these points. -/
example (Q : List (List ℚ)) (hQ : Shape Q 6 3)
    (h : ∀ u, 0 ≤ u → u ≤ 1 → Curve.singlePoint ⟨2, exP, exU⟩ u = Curve.singlePoint ⟨2, Q, exU⟩ u) : exP = Q :=
  single_point_injective exU_clamped (by decide) exU_distinct (by decide +kernel) (by decide +kernel) (by decide +kernel)
    exP_shape hQ h

/-- C118: `1/10` once and `6/10` twice. -/
example : (do let (V, Q) ← curveKnotInsertion 2 exU exP (1/10) 1
              curveKnotInsertion 2 V Q (6/10) 2)
    = (do let (V, Q) ← curveKnotInsertion 2 exU exP (6/10) 2
          curveKnotInsertion 2 V Q (1/10) 1) := by
  obtain ⟨U', P', h1, h2⟩ := knot_insertion_comm (x := 1/10) (y := 6/10) (r := 1) (s := 2) exU_clamped (by decide)
    exP_shape (by
      intro v
      by_cases h : v ∈ exU
      · revert v; decide +kernel
      · rw [List.count_eq_zero.2 h]; omega) (by decide +kernel) (by decide +kernel) (by decide +kernel)
    (by decide +kernel) (by decide) (by decide)
  exact h1.trans h2.symm

/-- C119: the second coordinate of one control point changed by `1/2`. -/
example : ∃ x y, Curve.singlePoint ⟨2, exP, exU⟩ (3/10) = .ok x ∧
    Curve.singlePoint ⟨2, exP.set 2 ((exP.getD 2 []).set 1 ((exP.getD 2 []).getD 1 0 + 1/2)), exU⟩ (3/10) = .ok y ∧
    |x.getD 1 0 - y.getD 1 0| ≤ 1/2 :=
  single_point_stable exU_clamped (by decide) exP_shape ⟨rfl, by decide +kernel⟩ (by norm_num) (by norm_num)
    (exU_regular (by norm_num) (by norm_num)) (by decide) (by intro i hi; interval_cases i <;> decide +kernel)

/-- C119 with the constant `40`. -/
example : ∃ x y, Curve.singlePoint ⟨2, exP, exU⟩ (3/10) = .ok x ∧ Curve.singlePoint ⟨2, exP, exU⟩ (31/100) = .ok y ∧
    |y.getD 1 0 - x.getD 1 0| ≤ 40 * |31/100 - 3/10| :=
  single_point_lipschitz exU_clamped (by decide) exP_shape (by norm_num) (by norm_num)
    (exU_regular (by norm_num) (by norm_num)) (exU_regular (by norm_num) (by norm_num)) (by decide)
    (by intro i hi; have : i < 5 := by omega
        interval_cases i <;> decide +kernel)

/-- C120, also at a knot. -/
example : Curve.singlePoint ⟨2, exP.reverse, [0, 0, 0, 1/4, 1/2, 3/4, 1, 1, 1]⟩ (3/4)
    = Curve.singlePoint ⟨2, exP, exU⟩ (1/4) := by
  have e : reverseKnots exU = [0, 0, 0, 1/4, 1/2, 3/4, 1, 1, 1] := by decide +kernel
  have h := single_point_reverse (u := 1/4) exU_clamped (by decide) exP_shape (by norm_num) (by norm_num)
    (exU_regular (by norm_num) (by norm_num)) (by rw [e]; exact exU_regular (by norm_num) (by norm_num))
  rw [e] at h
  norm_num at h ⊢
  exact h

/-- C121. -/
example : exS.transpose.singlePoint (1/2) (1/4) = exS.singlePoint (1/4) (1/2) :=
  surface_point_transpose exS_clamped (by norm_num) (by norm_num) exS_regular.1 exS_regular.2

end PySpline
