import Verif.Lemmas.InsertionDoubleAux
import Verif.Lemmas.RoundedInsertion
import Verif.Props.CurveMore
import Verif.Props.Double

/-!
# C128: knot insertion in double precision
-/

set_option linter.unusedSectionVars false

namespace PySpline

open Spec

section
variable {K : Type} [Field K] [LinearOrder K] [IsStrictOrderedRing K]

/-- **C128.** `curve_knot_insertion` in rounded arithmetic: the knots are exact, the control points outside the affected
range are copied, and the others differ from control points `Q` of the unchanged curve by at most
`3 ((1/ρ)^(3r) - 1)` times the largest coordinate. -/
theorem knot_insertion_rounded {ρ : K} {fl : K → K} (hfr : Rounding fl) (hf : Accurate ρ fl) {U : List K}
    {P : List (List K)} {k r n p : ℕ} {u : K} (hU : KnotVector p n U) (hP : Shape P n 3) (hpk : p ≤ k) (hk : k < n)
    (hfs : findSpanWith (endTestFl fl) (spanFuel n p) n p u U = .ok (k : ℤ)) (h1 : knotFn U k ≤ u)
    (h2 : u < knotFn U (k + 1)) (hs : findMultiplicityFl fl u U = U.count u) (hr : r + U.count u ≤ p) {B : K}
    (hB : ∀ row ∈ P, ∀ x ∈ row, |x| ≤ B) :
    ∃ P', curveKnotInsertionFl fl p U P u r = .ok (insertedKnots U k u r, P') ∧ Shape P' (n + r) 3 ∧
      (∀ i, i + p ≤ k → P'.getD i [] = P.getD i []) ∧
      (∀ i < n, k ≤ i + U.count u → P'.getD (i + r) [] = P.getD i []) ∧
      ∃ Q, Shape Q (n + r) 3 ∧
        (∀ i < n + r, ∀ y < 3, |coord P' y i - coord Q y i| ≤ 3 * ((1 / ρ) ^ (3 * r) - 1) * B) ∧
        (∀ y < 3, ∀ x, spline (knotFn (insertedKnots U k u r)) p (n + r) (coord Q y) x
          = spline (knotFn U) p n (coord P y) x) ∧
        (Clamped p n U → Clamped p (n + r) (insertedKnots U k u r) ∧ ∀ y < 3, ∀ x,
          curve (knotFn (insertedKnots U k u r)) p (n + r) (coord Q y) x = curve (knotFn U) p n (coord P y) x) := by
  have hm := monotone_knotFn hU.mono
  have hlen := hU.len
  have hsz := hU.size
  have hPl := hP.1
  have hrun := multiplicity_run hm (k := k) (by omega) h1 (fun _ => h2) rfl
  have hB0 : 0 ≤ B := by
    have h0 : P.getD 0 [] ∈ P := by
      rw [List.getD_eq_getElem?_getD, List.getElem?_eq_getElem (by omega)]
      exact List.getElem_mem _
    have hl := hP.2 _ h0
    obtain ⟨x, y, z, e⟩ := List.length_eq_three.1 hl
    exact (abs_nonneg x).trans (hB _ h0 x (by rw [e]; simp))
  have hc : ∀ y i, |coord P y i| ≤ B := by
    intro y i
    unfold coord
    by_cases hi : i < P.length
    · have hmem : P.getD i [] ∈ P := by
        rw [List.getD_eq_getElem?_getD, List.getElem?_eq_getElem hi]; exact List.getElem_mem _
      by_cases hy : y < (P.getD i []).length
      · refine hB _ hmem _ ?_
        rw [List.getD_eq_getElem?_getD (l := P.getD i []), List.getElem?_eq_getElem hy]; exact List.getElem_mem _
      · rw [List.getD_eq_getElem?_getD (l := P.getD i []), List.getElem?_eq_none (by omega)]; simpa using hB0
    · rw [List.getD_eq_getElem?_getD (l := P), List.getElem?_eq_none (by omega)]
      simpa using hB0
  set Q : ℕ → ℕ → ℕ → K := fun t m y => insIterFl fl (knotFn U) p k (U.count u) u (coord P y) t m with hQ
  obtain ⟨kv, hkv, lkv, vkv⟩ := insertion_knots (r := r) u hU.len hk
  have hne : ∀ t i : ℕ, t < r → k - p + t + 1 + i + U.count u ≤ k →
      0 < knotFn U (i + k + 1) - knotFn U (k - p + t + 1 + i) := fun t i _ _ => by
    have e1 : knotFn U (k - p + t + 1 + i) ≤ knotFn U k := hm (by omega)
    have e2 : knotFn U (k + 1) ≤ knotFn U (i + k + 1) := hm (by omega)
    linarith
  obtain ⟨newP, hnew, shP, vP⟩ := insertion_rows hP hpk hk hr (fun j i R => do
      let a ← pyGet U ((k : ℤ) - p + j + i)
      let b ← pyGet U (i + k + 1)
      let alpha ← pyDivFl fl (fl (u - a)) (fl (b - a))
      let x ← pyGet R (i + 1)
      let y ← pyGet R i
      assignRow R i (rowCombFl fl alpha x y))
    (fun t i x y => combFl fl (alphaFl fl u (knotFn U (k - p + t + 1 + i)) (knotFn U (i + k + 1))) x y)
    (fun t i ht hi R shR => by
      have l1 := shR.row (i := i + 1) (by omega)
      have l0 := shR.row (i := i) (by omega)
      refine ⟨rowCombFl fl (alphaFl fl u (knotFn U (k - p + t + 1 + i)) (knotFn U (i + k + 1)))
        (R.getD (i + 1) []) (R.getD i []), ?_, rowCombFl_length l1 l0, fun y hy => ?_⟩
      · unfold pyDivFl
        rw [pyGet_knot U _ (k - p + t + 1 + i) (by push_cast [hpk]; ring) (by omega), ok_bind,
          pyGet_knot U _ (i + k + 1) (by push_cast; ring) (by omega), ok_bind,
          pyDiv_ok (hf.fl_pos (hne t i ht hi)).ne', ok_bind, ok_bind,
          pyGet_nat R _ (i + 1) [] (by push_cast; ring) (by rw [shR.1]; omega),
          ok_bind, pyGet_nat R _ i [] rfl (by rw [shR.1]; omega), ok_bind]
        rfl
      · rw [rowCombFl_getD (by omega) (by omega), at2_row, at2_row])
    Q (fun m y => rfl)
    (fun t m y h h' => by
      have := insIterFl_left (fl := fl) (V := knotFn U) (s := U.count u) (u := u) (c := coord P y) (r - t) h'
      rwa [show t + (r - t) = r by omega] at this)
    (fun t m y h h' => by
      have := insIterFl_right (fl := fl) (V := knotFn U) (u := u) (c := coord P y) (t := t) hr (r - t) (by omega) h'
      rwa [show t + (r - t) = r by omega] at this)
    (fun t i y _ h => insIterFl_mid hpk (by omega))
  have hfn := knotFn_of_getD hU.len hk lkv vkv
  have hkvU : kv = insertedKnots U k u r := eq_insertedKnots hU.len hk lkv hfn
  rw [← hkvU]
  have hcall : curveKnotInsertionFl fl p U P u r = .ok (kv, newP) := by
    unfold curveKnotInsertionFl
    rw [hP.1, hfs, ok_bind, hs]
    rw [hP.1] at hnew
    simp only at hkv hnew ⊢
    rw [bind3_ok _ _ _ _ _ hkv, bind5_ok _ _ _ _ _ _ _ hnew]
  set Q' : List (List K) := (List.range (n + r)).map fun m =>
    (List.range 3).map fun y => boehmIter (knotFn U) p k u (coord P y) r m with hQ'
  have vQ : ∀ m < n + r, ∀ y < 3, at2 Q' m y 0 = boehmIter (knotFn U) p k u (coord P y) r m := by
    intro m hmn y hy
    simp [hQ', at2, List.getD_eq_getElem?_getD, hmn, hy]
  obtain ⟨-, hspl, hclamp⟩ := inserted_curve (P' := Q') hU hpk hk h1 h2 hrun hr lkv hfn vQ
  refine ⟨newP, hcall, shP, fun i hi => ?_, fun i hi1 hi2 => ?_, Q', ⟨by simp [hQ'], ?_⟩, fun i hi y hy => ?_,
    hspl, hclamp⟩
  · refine row3_ext (shP.row (by omega)) (hP.row (by omega)) fun y hy => ?_
    rw [at2_row, at2_row, vP i (by omega) y hy]
    have := insIterFl_left (fl := fl) (V := knotFn U) (s := U.count u) (u := u) (c := coord P y) (t := 0) r
      (show i + p ≤ k + 0 by omega)
    rwa [Nat.zero_add] at this
  · refine row3_ext (shP.row (by omega)) (hP.row (by omega)) fun y hy => ?_
    rw [at2_row, at2_row, vP (i + r) (by omega) y hy]
    have := insIterFl_right (fl := fl) (V := knotFn U) (u := u) (c := coord P y) (t := 0) hr r (by omega) hi2
    rwa [Nat.zero_add] at this
  · intro row hrow
    rw [hQ'] at hrow
    obtain ⟨m, -, rfl⟩ := List.mem_map.1 hrow
    simp
  · have e1 : coord newP y i = Q r i y := vP i hi y hy
    have e2 : coord Q' y i = boehmIter (knotFn U) p k u (coord P y) r i := vQ i hi y hy
    rw [e1, e2]
    exact insIterFl_error hfr hf hm hpk h1 h2 hrun hr (hc y) r le_rfl i

end

/-! ## Double precision -/

/-- **C128** in double precision: a parameter that is at least `2e-5` from every knot of a clamped knot vector on
`[0,1]`, inserted up to `degree` times.  The new curve is the old one up to `1e-14` times the largest coordinate, for
every parameter. -/
theorem knot_insertion_double {p n r : ℕ} {U : List ℚ} {P : List (List ℚ)} {u : ℚ} (hU : Clamped p n U)
    (hz : knotFn U 0 = 0) (ho : knotFn U (n + p) = 1) (hp10 : p ≤ 10) (hP : Shape P n 3) (h0 : 0 < u) (h1 : u < 1)
    (hfar : ∀ x ∈ U, 2 / 10 ^ 5 ≤ |u - x|) (hr : r ≤ p) {B : ℚ} (hB : ∀ row ∈ P, ∀ x ∈ row, |x| ≤ B) :
    ∃ k P', curveKnotInsertionFl fl64 p U P u r = .ok (insertedKnots U k u r, P') ∧ Shape P' (n + r) 3 ∧
      knotFn U k < u ∧ u < knotFn U (k + 1) ∧ Clamped p (n + r) (insertedKnots U k u r) ∧
      (∀ i, i + p ≤ k → P'.getD i [] = P.getD i []) ∧ (∀ i < n, k ≤ i → P'.getD (i + r) [] = P.getD i []) ∧
      ∀ y < 3, ∀ x, 0 ≤ x → x ≤ 1 →
        |curve (knotFn (insertedKnots U k u r)) p (n + r) (coord P' y) x - curve (knotFn U) p n (coord P y) x|
          ≤ 1 / 10 ^ 14 * B := by
  have hV := monotone_knotFn hU.mono
  have hlen := hU.len
  have hsz := hU.size
  have hn : knotFn U n = 1 := by rw [hU.right n le_rfl (by omega), ho]
  have hpz : knotFn U p = 0 := by rw [hU.left p le_rfl, hz]
  have hnot : u ∉ U := fun h => by
    have := hfar u h
    rw [sub_self, abs_zero] at this
    norm_num at this
  have hmem : ∀ i ≤ n + p, knotFn U i ∈ U := fun i hi => by
    rw [knotFn_eq (by omega)]; exact List.getElem_mem _
  have hne : ∀ i ≤ n + p, u ≠ knotFn U i := fun i hi e => hnot (e ▸ hmem i hi)
  have hu1 : u ≤ 1 - 2 / 10 ^ 5 := by
    have := hfar _ (hmem n (by omega))
    rw [hn, abs_sub_comm, abs_of_pos (by linarith)] at this
    linarith
  obtain ⟨k, hfs, hpk, hk, b1, b2, -⟩ := findSpanWith_regular (close := endTestFl fl64) (u := u) hU.toKnotVector
    endTestFl_refl (by rw [hpz]; exact h0.le) (by rw [hn]; exact h1.le) (fun i _ hi e => absurd e (hne i (by omega)))
    (fun h => by
      rw [hn] at h
      have := endTestFl_one h1.le h
      linarith)
  have b1' : knotFn U k < u := lt_of_le_of_ne b1 (hne k (by omega)).symm
  have b2' : u < knotFn U (k + 1) := lt_of_le_of_ne b2 (hne (k + 1) (by omega))
  have hcount : U.count u = 0 := List.count_eq_zero.2 hnot
  have hunit : ∀ x ∈ U, |x| ≤ 1 := by
    intro x hx
    obtain ⟨i, hi, rfl⟩ := List.mem_iff_getElem.1 hx
    rw [← knotFn_eq hi, abs_of_nonneg]
    · rw [← ho]; exact hV (by omega)
    · rw [← hz]; exact hV (Nat.zero_le _)
  have hmult : findMultiplicityFl fl64 u U = U.count u := by
    rw [hcount]
    exact foldl_count_zero fun x hx => iscloseFl_far (hunit x hx) (hfar x hx)
  obtain ⟨P', hcall, shP, hl, hr', Q, shQ, hPQ, -, hcl⟩ := knot_insertion_rounded rounding_fl64 accurate_fl64
    hU.toKnotVector hP hpk hk hfs b1 b2' hmult (by rw [hcount]; exact hr) hB
  obtain ⟨hc', hcur⟩ := hcl hU
  refine ⟨k, P', hcall, shP, b1', b2', hc', hl, fun i hi hki => hr' i hi (by omega), fun y hy x hx0 hx1 => ?_⟩
  have hB0 : 0 ≤ B := by
    have h0 : P.getD 0 [] ∈ P := by
      have := hP.1
      rw [List.getD_eq_getElem?_getD, List.getElem?_eq_getElem (by omega)]
      exact List.getElem_mem _
    obtain ⟨a, b, c, e⟩ := List.length_eq_three.1 (hP.2 _ h0)
    exact (abs_nonneg a).trans (hB _ h0 a (by rw [e]; simp))
  have hε : 3 * ((1 / (1 - 1 / 2 ^ 53 : ℚ)) ^ (3 * r) - 1) * B ≤ 1 / 10 ^ 14 * B := by
    refine mul_le_mul_of_nonneg_right ?_ hB0
    have h2 : (1 / (1 - 1 / 2 ^ 53 : ℚ)) ^ (3 * r) ≤ (1 / (1 - 1 / 2 ^ 53)) ^ 30 :=
      pow_le_pow_right₀ (by norm_num) (by omega)
    have h3 : 3 * ((1 / (1 - 1 / 2 ^ 53 : ℚ)) ^ 30 - 1) ≤ 1 / 10 ^ 14 := by decide +kernel
    linarith
  rw [← hcur y hy x]
  set W := insertedKnots U k u r with hW
  have w0 : knotFn W p ≤ x := by
    have : knotFn W p = 0 := by
      rw [hW, knotFn_eq (by simp [insertedKnots]; omega)]
      unfold insertedKnots
      rw [List.getElem_append_left (by simp; omega), List.getElem_append_left (by simp; omega), List.getElem_take,
        ← knotFn_eq (by omega), hpz]
    rw [this]; exact hx0
  have w1 : x ≤ knotFn W (n + r + p) := by
    have : knotFn W (n + r + p) = 1 := by
      rw [hW, knotFn_eq (by simp [insertedKnots]; omega)]
      unfold insertedKnots
      rw [List.getElem_append_right (by simp; omega), List.getElem_drop, ← knotFn_eq (by simp; omega), ← ho]
      congr 1
      simp
      omega
    rw [this]; exact hx1
  have e : ∀ c d : ℕ → ℚ, curve (knotFn W) p (n + r) c x - curve (knotFn W) p (n + r) d x
      = curve (knotFn W) p (n + r) (fun i => c i - d i) x := by
    intro c d
    unfold curve
    rw [← Finset.sum_sub_distrib]
    exact Finset.sum_congr rfl fun i _ => by ring
  rw [abs_le']
  constructor
  · rw [e]
    exact curve_le hc' w0 w1 fun i hi _ _ => (le_abs_self _).trans ((hPQ i hi y hy).trans hε)
  · rw [neg_sub, e]
    exact curve_le hc' w0 w1 fun i hi _ _ => (le_abs_self _).trans (by
      rw [abs_sub_comm]; exact (hPQ i hi y hy).trans hε)

/-! ## Concrete cases -/

/-- The rounded control points are not the exact ones. -/
example : curveKnotInsertion 2 exU exP (3/10) 1 ≠ curveKnotInsertionFl fl64 2 exU exP (3/10) 1 ∧
    (∃ P', curveKnotInsertionFl fl64 2 exU exP (3/10) 1 = .ok (insertedKnots exU 3 (3/10) 1, P')) := by
  refine ⟨by decide +kernel, ?_⟩
  have : (match curveKnotInsertionFl fl64 2 exU exP (3/10) 1 with
    | .ok (U', _) => decide (U' = insertedKnots exU 3 (3/10) 1)
    | .error _ => false) = true := by decide +kernel
  split at this
  · rename_i U' P' h
    exact ⟨P', by rw [h, of_decide_eq_true this]⟩
  · cases this

/-- The hypotheses of `knot_insertion_double` hold for the example curve, `3/10` and two insertions. -/
example : ∃ k P', curveKnotInsertionFl fl64 2 exU exP (3/10) 2 = .ok (insertedKnots exU k (3/10) 2, P') ∧
    ∀ y < 3, ∀ x, 0 ≤ x → x ≤ 1 →
      |curve (knotFn (insertedKnots exU k (3/10) 2)) 2 8 (coord P' y) x - curve (knotFn exU) 2 6 (coord exP y) x|
        ≤ 1 / 10 ^ 14 * 10 := by
  obtain ⟨k, P', h, -, -, -, -, -, -, hc⟩ := knot_insertion_double (r := 2) (P := exP) (u := 3/10) (B := 10) exU_clamped
    (by decide +kernel) (by decide +kernel) (by norm_num) exP_shape (by norm_num) (by norm_num) (by decide +kernel)
    le_rfl (by decide +kernel)
  exact ⟨k, P', h, hc⟩

end PySpline
