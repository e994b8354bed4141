import Verif.Lemmas.IeeeInsertion
import Verif.Lemmas.IeeeKnots
import Verif.Lemmas.InsertionDoubleAux
import Verif.Props.CurveMore
import Verif.Props.Ieee

/-!
# C164: knot insertion with overflow and underflow
-/

set_option linter.unusedSectionVars false
set_option exponentiation.threshold 1100

namespace PySpline

open Spec Ext

section
variable {K : Type} [Field K] [LinearOrder K] [IsStrictOrderedRing K]

/-! ## Agreement with the other models -/

/-- With exact finite arithmetic the function is the one with infinities and NaNs of `Model/Extended.lean`; without
overflow it is the one in rounded arithmetic of `Model/RoundedInsertion.lean`, unless that divides by zero. -/
theorem knot_insertion_ieee_agrees (p : ℕ) (r : ℕ) :
    (∀ (U : List (Ext K)) (P : List (List (Ext K))) (u : Ext K),
      curveKnotInsertionR fin p U P u r = curveKnotInsertionE p U P u r) ∧
    ∀ (fl : K → K) (U : List K) (P : List (List K)) (u : K),
      curveKnotInsertionFl fl p U P u r = .error .nonfinite ∨
      curveKnotInsertionR (fun x => fin (fl x)) p (U.map fin) (P.map (List.map fin)) (fin u) r
        = (curveKnotInsertionFl fl p U P u r).map (Prod.map (List.map fin) (List.map (List.map fin))) :=
  ⟨fun U P u => curveKnotInsertionR_fin p U P u r, fun fl U P u => (curveKnotInsertionR_follows fl p U P u r).iff⟩

/-! ## Errors -/

theorem at2_lift2 (P : List (List K)) (i y : ℕ) : at2 (lift2 P) i y 0 = fin (coord P y i) := by
  unfold at2 lift2 coord
  rw [List.getD_eq_getElem?_getD (l := List.map _ P), List.getElem?_map, List.getD_eq_getElem?_getD (l := P)]
  rcases P[i]? with _ | row
  · rfl
  · exact getD_lift row y

theorem shape_lift2 {P : List (List K)} {n c : ℕ} (h : Shape P n c) : Shape (lift2 P) n c := by
  refine ⟨by rw [lift2, List.length_map]; exact h.1, fun row hrow => ?_⟩
  obtain ⟨q, hq, rfl⟩ := List.mem_map.1 hrow
  rw [List.length_map]; exact h.2 q hq

/-- Two arrays of the same shape with the same entries. -/
theorem shape_ext {α : Type} {A B : List (List α)} {n c : ℕ} (hA : Shape A n c) (hB : Shape B n c) (d : α)
    (h : ∀ i < n, ∀ y < c, at2 A i y d = at2 B i y d) : A = B := by
  refine List.ext_getElem (by rw [hA.1, hB.1]) fun i h1 h2 => ?_
  have hi : i < n := by rw [hA.1] at h1; exact h1
  have e1 : A.getD i [] = A[i] := by rw [List.getD_eq_getElem?_getD, List.getElem?_eq_getElem h1]; rfl
  have e2 : B.getD i [] = B[i] := by rw [List.getD_eq_getElem?_getD, List.getElem?_eq_getElem h2]; rfl
  have l1 := hA.row hi
  have l2 := hB.row hi
  rw [e1] at l1
  rw [e2] at l2
  refine List.ext_getElem (by rw [l1, l2]) fun y g1 g2 => ?_
  have := h i hi y (by omega)
  unfold at2 at this
  rw [e1, e2, List.getD_eq_getElem?_getD, List.getElem?_eq_getElem g1, List.getD_eq_getElem?_getD,
    List.getElem?_eq_getElem g2] at this
  exact this

/-- **C164.** `curve_knot_insertion` in arithmetic with rounding, overflow and underflow, with stored knots and control
points of at most `B`: no infinity and no NaN arises, the knots are exact, the control points outside the affected range
are copied, and the others differ from control points `Q` of the unchanged curve, of at most `B` too, by at most
`κ^(2r) (B + 2 r (1/ρ)² η) - B` with `κ = (1/ρ)^6 (1 + η)`. -/
theorem knot_insertion_ieee {ρ η M : K} {rd : K → Ext K} (hrd : IeeeRounding ρ η M rd) {U : List K}
    {P : List (List K)} {k r n p : ℕ} {u : K} (hU : KnotVector p n U) (hP : Shape P n 3) (hpk : p ≤ k) (hk : k < n)
    (hfs : findSpanR rd n p (fin u) (U.map fin) = .ok (k : ℤ)) (h1 : knotFn U k ≤ u)
    (h2 : u < knotFn U (k + 1)) (hs : findMultiplicityR rd (fin u) (U.map fin) = U.count u)
    (hr : r + U.count u ≤ p) {B : K} (hB : ∀ row ∈ P, ∀ x ∈ row, |x| ≤ B) (hUst : ∀ x ∈ U, rd x = fin x)
    (hu : rd u = fin u) (hPst : ∀ row ∈ P, ∀ x ∈ row, rd x = fin x) (hspan : knotFn U (n + p) - knotFn U 0 ≤ M)
    (hM : (1 / ρ) ^ 6 * (1 + η) ≤ M)
    (hMB : 2 * ((1 / ρ) ^ 6 * (1 + η))
      * (((1 / ρ) ^ 6 * (1 + η)) ^ (2 * r) * (B + r * (2 * (1 / ρ) ^ 2 * η)) + η) ≤ M) :
    ∃ P' : List (List K), curveKnotInsertionR rd p (U.map fin) (P.map (List.map fin)) (fin u) r
        = .ok ((insertedKnots U k u r).map fin, P'.map (List.map fin)) ∧
      Shape P' (n + r) 3 ∧ (∀ row ∈ P', ∀ x ∈ row, rd x = fin x) ∧
      (∀ i, i + p ≤ k → P'.getD i [] = P.getD i []) ∧
      (∀ i < n, k ≤ i + U.count u → P'.getD (i + r) [] = P.getD i []) ∧
      ∃ Q, Shape Q (n + r) 3 ∧ (∀ i < n + r, ∀ y < 3, |coord Q y i| ≤ B) ∧
        (∀ i < n + r, ∀ y < 3, |coord P' y i - coord Q y i|
          ≤ ((1 / ρ) ^ 6 * (1 + η)) ^ (2 * r) * (B + r * (2 * (1 / ρ) ^ 2 * η)) - B) ∧
        (∀ y < 3, ∀ x, spline (knotFn (insertedKnots U k u r)) p (n + r) (coord Q y) x
          = spline (knotFn U) p n (coord P y) x) ∧
        (Clamped p n U → Clamped p (n + r) (insertedKnots U k u r) ∧ ∀ y < 3, ∀ x,
          curve (knotFn (insertedKnots U k u r)) p (n + r) (coord Q y) x = curve (knotFn U) p n (coord P y) x) := by
  have hm := monotone_knotFn hU.mono
  have hlen := hU.len
  have hsz := hU.size
  have hPl := hP.1
  have hrun := multiplicity_run hm (k := k) (by omega) h1 (fun _ => h2) rfl
  have hmemP : ∀ i < n, P.getD i [] ∈ P := fun i hi => by
    rw [List.getD_eq_getElem?_getD, List.getElem?_eq_getElem (by omega)]; exact List.getElem_mem _
  have hB0 : 0 ≤ B := by
    obtain ⟨x, y, z, e⟩ := List.length_eq_three.1 (hP.2 _ (hmemP 0 (by omega)))
    exact (abs_nonneg x).trans (hB _ (hmemP 0 (by omega)) x (by rw [e]; simp))
  have hc : ∀ y i, coord P y i = 0 ∨ ∃ row ∈ P, coord P y i ∈ row := by
    intro y i
    unfold coord
    by_cases hi : i < P.length
    · by_cases hy : y < (P.getD i []).length
      · refine Or.inr ⟨_, hmemP i (by omega), ?_⟩
        rw [List.getD_eq_getElem?_getD (l := P.getD i []), List.getElem?_eq_getElem hy]; exact List.getElem_mem _
      · left
        rw [List.getD_eq_getElem?_getD (l := P.getD i []), List.getElem?_eq_none (by omega)]; rfl
    · left
      rw [List.getD_eq_getElem?_getD (l := P), List.getElem?_eq_none (by omega)]; rfl
  have hcB : ∀ y i, |coord P y i| ≤ B := fun y i => by
    rcases hc y i with h | ⟨row, h, h'⟩
    · rw [h, abs_zero]; exact hB0
    · exact hB row h _ h'
  have hcS : ∀ y i, rd (coord P y i) = fin (coord P y i) := fun y i => by
    rcases hc y i with h | ⟨row, h, h'⟩
    · rw [h]; exact hrd.zero
    · exact hPst row h _ h'
  have hVS : ∀ i, rd (knotFn U i) = fin (knotFn U i) := fun i => by
    refine hUst _ ?_
    by_cases hi : i < U.length
    · rw [knotFn_eq hi]; exact List.getElem_mem _
    · have hne : U ≠ [] := fun e => by rw [e] at hlen; simp at hlen
      have : knotFn U i = U.getLast hne := by
        unfold knotFn
        rw [List.getD_eq_getElem?_getD, List.getElem?_eq_none (by omega)]
        simp [List.getLastD_eq_getLast?, List.getLast?_eq_some_getLast hne]
      rw [this]; exact List.getLast_mem hne
  have hVM : ∀ i j, knotFn U j - knotFn U i ≤ M := fun i j => by
    have e1 : knotFn U 0 ≤ knotFn U i := hm (Nat.zero_le _)
    have e2 : knotFn U j ≤ knotFn U (n + p) := by
      by_cases hj : j ≤ n + p
      · exact hm hj
      · have hne : U ≠ [] := fun e => by rw [e] at hlen; simp at hlen
        have e1 : knotFn U j = U.getLast hne := by
          unfold knotFn
          rw [List.getD_eq_getElem?_getD, List.getElem?_eq_none (by omega)]
          simp [List.getLastD_eq_getLast?, List.getLast?_eq_some_getLast hne]
        rw [e1, knotFn_eq (by omega), List.getLast_eq_getElem]
        exact le_of_eq (by congr 1; omega)
    linarith
  set Q : ℕ → ℕ → ℕ → Ext K := fun t m y =>
    insIterR rd (fun i => fin (knotFn U i)) p k (U.count u) (fin u) (fun i => fin (coord P y i)) t m with hQ
  obtain ⟨kv, hkv, lkv, vkv⟩ := insertion_knots (r := r) u hU.len hk
  have hkvE : (do
      let newKv ← forZ 0 ((k : ℤ) + 1) (List.replicate ((U.map fin).length + r) 0) fun i kv => do
        let x ← pyGet (U.map fin) i
        pySet kv i x
      let newKv ← forZ 1 ((r : ℤ) + 1) newKv fun i kv => pySet kv ((k : ℤ) + i) (fin u)
      forZ ((k : ℤ) + 1) ((n : ℤ) + p + 1) newKv fun i kv => do
        let x ← pyGet (U.map fin) i
        pySet kv (i + r) x) = .ok (kv.map fin : List (Ext K)) := by
    rw [List.length_map, replicate_zero]
    refine Follows.value (f := List.map fin) ?_ hkv
    refine Follows.bind (Follows.forZ rfl fun i kv => Follows.bind (Follows.get _ _) fun x => Follows.set _ _ rfl)
      fun kv1 => ?_
    refine Follows.bind (Follows.forZ rfl fun i kv => Follows.set _ _ rfl) fun kv2 => ?_
    exact Follows.forZ rfl fun i kv => Follows.bind (Follows.get _ _) fun x => Follows.set _ _ rfl
  have hget : ∀ (z : ℤ) (i : ℕ), z = i → i < n + p + 1 → pyGet (U.map fin) z = .ok (fin (knotFn U i)) :=
    fun z i hz hi => by
      have := (Follows.get (f := fin) U z).value (pyGet_knot U z i hz (by omega))
      exact this
  obtain ⟨newP, hnew, shP, vP⟩ := insertion_rows_any (asg := assignRowE) (fun _ _ _ => rfl) (shape_lift2 hP) hpk hk hr
    (fun j i R => do
      let a ← pyGet (U.map fin) ((k : ℤ) - p + j + i)
      let b ← pyGet (U.map fin) (i + k + 1)
      let alpha := rnd rd (rnd rd (fin u - a) / rnd rd (b - a))
      let x ← pyGet R (i + 1)
      let y ← pyGet R i
      assignRowE R i (rowCombR rd alpha x y))
    (fun t i x y => combR rd (alphaR rd (fin u) (fin (knotFn U (k - p + t + 1 + i))) (fin (knotFn U (i + k + 1)))) x y)
    (fun t i ht hi R shR => by
      have l1 := shR.row (i := i + 1) (by omega)
      have l0 := shR.row (i := i) (by omega)
      refine ⟨rowCombR rd (alphaR rd (fin u) (fin (knotFn U (k - p + t + 1 + i))) (fin (knotFn U (i + k + 1))))
        (R.getD (i + 1) []) (R.getD i []), ?_, ?_, fun y hy => ?_⟩
      · rw [hget _ (k - p + t + 1 + i) (by push_cast [hpk]; ring) (by omega), ok_bind,
          hget _ (i + k + 1) (by push_cast; ring) (by omega), ok_bind]
        dsimp only
        rw [pyGet_nat R _ (i + 1) [] (by push_cast; ring) (by rw [shR.1]; omega),
          ok_bind, pyGet_nat R _ i [] rfl (by rw [shR.1]; omega), ok_bind]
        rfl
      · unfold rowCombR; rw [List.length_zipWith, l1, l0, min_self]
      · have y1 : y < (R.getD (i + 1) []).length := by omega
        have y0 : y < (R.getD i []).length := by omega
        unfold rowCombR at2
        rw [List.getD_eq_getElem?_getD (l := List.zipWith _ _ _), List.getD_eq_getElem?_getD (l := R.getD (i + 1) []),
          List.getD_eq_getElem?_getD (l := R.getD i []),
          List.getElem?_eq_getElem (by rw [List.length_zipWith]; omega), List.getElem?_eq_getElem y1,
          List.getElem?_eq_getElem y0]
        simp only [Option.getD_some, List.getElem_zipWith]
        rfl)
    Q (fun m y => at2_lift2 P m y)
    (fun t m y h h' => by
      have := insIterR_left (rd := rd) (V := fun i => fin (knotFn U i)) (s := U.count u) (u := fin u)
        (c := fun i => fin (coord P y i)) (r - t) h'
      rwa [show t + (r - t) = r by omega] at this)
    (fun t m y h h' => by
      have := insIterR_right (rd := rd) (V := fun i => fin (knotFn U i)) (u := fin u)
        (c := fun i => fin (coord P y i)) (t := t) hr (r - t) (by omega) h'
      rwa [show t + (r - t) = r by omega] at this)
    (fun t i y _ h => insIterR_mid hpk (by omega))
  have hfn := knotFn_of_getD hU.len hk lkv vkv
  have hkvU : kv = insertedKnots U k u r := eq_insertedKnots hU.len hk lkv hfn
  rw [← hkvU]
  have hcall : curveKnotInsertionR rd p (U.map fin) (lift2 P) (fin u) r = .ok (kv.map fin, newP) := by
    unfold curveKnotInsertionR
    rw [(shape_lift2 hP).1, hfs, ok_bind, hs]
    rw [(shape_lift2 hP).1] at hnew
    simp only [zeros2E] at hkvE hnew ⊢
    rw [bind3_ok _ _ _ _ _ hkvE, bind5_ok _ _ _ _ _ _ _ hnew]
  have herr := fun y => insIterR_error hrd hm hVS hu (c := coord P y) hpk h1 h2 hVM hrun hr (hcB y) (hcS y) hM
    (by
      refine le_trans (le_of_eq ?_) hMB
      unfold insErr insGrowth
      ring) r le_rfl
  set P' : List (List K) := (List.range (n + r)).map fun m => (List.range 3).map fun y => (Q r m y).val with hP'
  have shP' : Shape P' (n + r) 3 := ⟨by simp [hP'], fun row hrow => by
    obtain ⟨m, -, rfl⟩ := List.mem_map.1 hrow
    simp⟩
  have vP' : ∀ m < n + r, ∀ y < 3, fin (coord P' y m) = Q r m y := by
    intro m hmn y hy
    have : coord P' y m = (Q r m y).val := by simp [hP', coord, List.getD_eq_getElem?_getD, hmn, hy]
    rw [this]
    obtain ⟨z, e, -⟩ := herr y m
    have : Q r m y = fin z := e
    rw [this]; rfl
  have hlift : newP = P'.map (List.map fin) := shape_ext shP (shape_lift2 shP') 0 fun m hmn y hy => by
    rw [vP m hmn y hy, ← vP' m hmn y hy]
    exact (at2_lift2 P' m y).symm
  rw [hlift] at hcall
  set Q' : List (List K) := (List.range (n + r)).map fun m =>
    (List.range 3).map fun y => boehmIter (knotFn U) p k u (coord P y) r m with hQ'
  have vQ : ∀ m < n + r, ∀ y < 3, at2 Q' m y 0 = boehmIter (knotFn U) p k u (coord P y) r m := by
    intro m hmn y hy
    simp [hQ', at2, List.getD_eq_getElem?_getD, hmn, hy]
  obtain ⟨-, hspl, hclamp⟩ := inserted_curve (P' := Q') hU hpk hk h1 h2 hrun hr lkv hfn vQ
  have inj : ∀ a b : K, (fin a : Ext K) = fin b → a = b := fun a b h => by cases h; rfl
  refine ⟨P', hcall, shP', fun row hrow x hx => ?_, fun i hi => ?_, fun i hi1 hi2 => ?_, Q', ⟨by simp [hQ'], ?_⟩,
    fun i hi y hy => ?_, fun i hi y hy => ?_, hspl, hclamp⟩
  · obtain ⟨m, -, rfl⟩ := List.mem_map.1 hrow
    obtain ⟨y, -, rfl⟩ := List.mem_map.1 hx
    obtain ⟨z, e, e2, -⟩ := herr y m
    have : Q r m y = fin z := e
    rw [this]; exact e2
  · refine row3_ext (shP'.row (by omega)) (hP.row (by omega)) fun y hy => inj _ _ ?_
    refine (vP' i (by omega) y hy).trans ?_
    have := insIterR_left (rd := rd) (V := fun i => fin (knotFn U i)) (s := U.count u) (u := fin u)
      (c := fun i => fin (coord P y i)) (t := 0) r (show i + p ≤ k + 0 by omega)
    rwa [Nat.zero_add] at this
  · refine row3_ext (shP'.row (by omega)) (hP.row (by omega)) fun y hy => inj _ _ ?_
    refine (vP' (i + r) (by omega) y hy).trans ?_
    have := insIterR_right (rd := rd) (V := fun i => fin (knotFn U i)) (u := fin u)
      (c := fun i => fin (coord P y i)) (t := 0) hr r (by omega) hi2
    rwa [Nat.zero_add] at this
  · intro row hrow
    rw [hQ'] at hrow
    obtain ⟨m, -, rfl⟩ := List.mem_map.1 hrow
    simp
  · have e2 : coord Q' y i = boehmIter (knotFn U) p k u (coord P y) r i := vQ i hi y hy
    rw [e2]
    exact boehmIter_bounded hm hpk h1 h2 hrun hr (hcB y) r le_rfl i
  · obtain ⟨z, e, -, e3⟩ := herr y i
    have e1 : coord P' y i = z := inj _ _ ((vP' i hi y hy).trans e)
    have e2 : coord Q' y i = boehmIter (knotFn U) p k u (coord P y) r i := vQ i hi y hy
    rw [e1, e2]
    exact e3

end

/-! ## Binary64 -/

/-- Numbers of `[0,1]` that differ by `2e-5` are not close. -/
theorem iscloseR_far {u x : ℚ} (hx : |x| ≤ 1) (hu : |u| ≤ 1) (h : 2 / 10 ^ 5 ≤ |u - x|) :
    iscloseR bin64 (fin u) (fin x) rtolDefault atolDefault = false := by
  have e2 : bin64 atolDefault = fin (fl64s atolDefault) := by decide +kernel
  have e3 : bin64 rtolDefault = fin (fl64s rtolDefault) := by decide +kernel
  have c2 : 0 ≤ fl64s rtolDefault := by decide +kernel
  have c4 : 0 ≤ fl64s atolDefault := by decide +kernel
  have c5 : fl64s atolDefault ≤ 1 := by decide +kernel
  have c6 : fl64s (fl64s rtolDefault * 1) ≤ 1 := by decide +kernel
  have c7 : fl64s (fl64s atolDefault + fl64s (fl64s rtolDefault * 1)) < fl64s (2 / 10 ^ 5) := by decide +kernel
  have c8 : fl64s rtolDefault ≤ 1 := by decide +kernel
  have hbig : (4 : ℚ) ≤ 2 ^ 1023 := le_trans (by norm_num) (pow_le_pow_right₀ (by norm_num) (show 2 ≤ 1023 by norm_num))
  have d0 : 0 ≤ fl64s rtolDefault * |x| := mul_nonneg c2 (abs_nonneg _)
  have d1 : fl64s rtolDefault * |x| ≤ fl64s rtolDefault * 1 := mul_le_mul_of_nonneg_left hx c2
  have d2 : fl64s (fl64s rtolDefault * |x|) ≤ fl64s (fl64s rtolDefault * 1) := fl64s_mono d1
  have d3 := fl64s_nonneg d0
  unfold iscloseR
  rw [if_pos (by rfl)]
  have e1 : rnd bin64 ((fin u : Ext ℚ) - fin x) = fin (fl64s (u - x)) := by
    show bin64 (u - x) = _
    refine bin64_abs_le (le_trans (abs_sub u x) ?_)
    linarith
  have e4 : rnd bin64 (fin (fl64s rtolDefault) * Ext.abs (fin x)) = fin (fl64s (fl64s rtolDefault * |x|)) := by
    show bin64 (fl64s rtolDefault * |x|) = _
    exact bin64_le d0 (by linarith)
  have e5 : rnd bin64 (fin (fl64s atolDefault) + fin (fl64s (fl64s rtolDefault * |x|)))
      = fin (fl64s (fl64s atolDefault + fl64s (fl64s rtolDefault * |x|))) :=
    bin64_le (by linarith) (by linarith)
  rw [e1, e2, e3, e4, e5, show Ext.abs (fin (fl64s (u - x))) = fin |fl64s (u - x)| from rfl]
  rw [Bool.eq_false_iff, ne_eq, le_lift, not_le, abs_fl64s]
  calc _ ≤ fl64s (fl64s atolDefault + fl64s (fl64s rtolDefault * 1)) := fl64s_mono (by linarith)
    _ < fl64s (2 / 10 ^ 5) := c7
    _ ≤ _ := fl64s_mono h

/-- **C164** for binary64: a parameter that is at least `2e-5` from every knot of a clamped knot vector on `[0,1]`,
inserted up to `degree ≤ 10` times into a curve with coordinates of any size up to `2^1020`, subnormal ones included.
No infinity and no NaN arises, and the new curve is the old one up to `2e-14` times the largest coordinate plus
`2^-1060`. -/
theorem knot_insertion_binary64 {p n r : ℕ} {U : List ℚ} {P : List (List ℚ)} {u : ℚ} (hU : Clamped p n U)
    (hz : knotFn U 0 = 0) (ho : knotFn U (n + p) = 1) (hp10 : p ≤ 10) (hP : Shape P n 3) (h0 : 0 < u) (h1 : u < 1)
    (hfar : ∀ x ∈ U, 2 / 10 ^ 5 ≤ |u - x|) (hr : r ≤ p) (hUst : ∀ x ∈ U, bin64 x = fin x) (hu : bin64 u = fin u)
    (hPst : ∀ row ∈ P, ∀ x ∈ row, bin64 x = fin x) {B : ℚ} (hB : ∀ row ∈ P, ∀ x ∈ row, |x| ≤ B)
    (hBM : B ≤ 2 ^ 1020) :
    ∃ k P', curveKnotInsertionR bin64 p (U.map fin) (P.map (List.map fin)) (fin u) r
        = .ok ((insertedKnots U k u r).map fin, P'.map (List.map fin)) ∧ Shape P' (n + r) 3 ∧
      knotFn U k < u ∧ u < knotFn U (k + 1) ∧ Clamped p (n + r) (insertedKnots U k u r) ∧
      (∀ row ∈ P', ∀ x ∈ row, bin64 x = fin x ∧ |x| ≤ B + (2 / 10 ^ 14 * B + 1 / 2 ^ 1060)) ∧
      (∀ i, i + p ≤ k → P'.getD i [] = P.getD i []) ∧ (∀ i < n, k ≤ i → P'.getD (i + r) [] = P.getD i []) ∧
      ∀ y < 3, ∀ x, 0 ≤ x → x ≤ 1 →
        |curve (knotFn (insertedKnots U k u r)) p (n + r) (coord P' y) x - curve (knotFn U) p n (coord P y) x|
          ≤ 2 / 10 ^ 14 * B + 1 / 2 ^ 1060 := by
  have hV := monotone_knotFn hU.mono
  have hlen := hU.len
  have hsz := hU.size
  have hn : knotFn U n = 1 := by rw [hU.right n le_rfl (by omega), ho]
  have hpz : knotFn U p = 0 := by rw [hU.left p le_rfl, hz]
  have hnot : u ∉ U := fun h => by
    have := hfar u h
    rw [sub_self, abs_zero] at this
    norm_num at this
  have hmem : ∀ i ≤ n + p, knotFn U i ∈ U := fun i hi => by
    rw [knotFn_eq (by omega)]; exact List.getElem_mem _
  have hne : ∀ i ≤ n + p, u ≠ knotFn U i := fun i hi e => hnot (e ▸ hmem i hi)
  have hu1 : u ≤ 1 - 2 / 10 ^ 5 := by
    have := hfar _ (hmem n (by omega))
    rw [hn, abs_sub_comm, abs_of_pos (by linarith)] at this
    linarith
  obtain ⟨k, hfs, hpk, hk, b1, b2, -⟩ := findSpanWith_regular
    (close := fun a b => iscloseR bin64 (fin a) (fin b) (1 / 10 ^ 6) atolDefault) (u := u) hU.toKnotVector
    iscloseR_bin64_refl (by rw [hpz]; exact h0.le) (by rw [hn]; exact h1.le)
    (fun i _ hi e => absurd e (hne i (by omega)))
    (fun h => by
      rw [hn] at h
      have := iscloseR_bin64_one h0.le h1.le h
      linarith)
  rw [← findSpanR_lift bin64 n p u U] at hfs
  have b1' : knotFn U k < u := lt_of_le_of_ne b1 (hne k (by omega)).symm
  have b2' : u < knotFn U (k + 1) := lt_of_le_of_ne b2 (hne (k + 1) (by omega))
  have hcount : U.count u = 0 := List.count_eq_zero.2 hnot
  have hunit : ∀ x ∈ U, |x| ≤ 1 := by
    intro x hx
    obtain ⟨i, hi, rfl⟩ := List.mem_iff_getElem.1 hx
    rw [← knotFn_eq hi, abs_of_nonneg]
    · rw [← ho]; exact hV (by omega)
    · rw [← hz]; exact hV (Nat.zero_le _)
  have hmult : findMultiplicityR bin64 (fin u) (U.map fin) = U.count u := by
    rw [hcount]
    refine foldl_count_zero fun x' hx' => ?_
    obtain ⟨x, hx, rfl⟩ := List.mem_map.1 hx'
    exact iscloseR_far (hunit x hx) (by rw [abs_of_pos h0]; exact h1.le) (hfar x hx)
  have hB0 : 0 ≤ B := by
    have h0 : P.getD 0 [] ∈ P := by
      have := hP.1
      rw [List.getD_eq_getElem?_getD, List.getElem?_eq_getElem (by omega)]
      exact List.getElem_mem _
    obtain ⟨a, b, c, e⟩ := List.length_eq_three.1 (hP.2 _ h0)
    exact (abs_nonneg a).trans (hB _ h0 a (by rw [e]; simp))
  -- the numbers
  have hM3 : (2 : ℚ) ^ 1023 = 2 ^ 1020 * 8 := by rw [show (1023 : ℕ) = 1020 + 3 from rfl, pow_add]; norm_num
  have hM1 : (8 : ℚ) ≤ 2 ^ 1020 := le_trans (by norm_num)
    (pow_le_pow_right₀ (by norm_num) (show 3 ≤ 1020 by norm_num))
  have hη0 : (0 : ℚ) < 1 / 2 ^ 1075 := one_div_pos.2 (pow_pos (by norm_num) _)
  have hη1 : (1 : ℚ) / 2 ^ 1075 = 1 / 2 ^ 1060 * (1 / 2 ^ 15) := by
    rw [show (1075 : ℕ) = 1060 + 15 from rfl, pow_add]; ring
  have hη2 : (1 : ℚ) / 2 ^ 1060 ≤ 1 / 2 ^ 100 := one_div_le_one_div_of_le (by norm_num)
    (pow_le_pow_right₀ (by norm_num) (by norm_num))
  have hθ0 : (0 : ℚ) < 1 / 2 ^ 1060 := one_div_pos.2 (pow_pos (by norm_num) _)
  have main : ∀ η θ T : ℚ, 0 < η → 0 < θ → η = θ * (1 / 2 ^ 15) → θ ≤ 1 / 2 ^ 100 → 8 ≤ T → B ≤ T →
      (1 / (1 - 1 / 2 ^ 53 : ℚ)) ^ 6 * (1 + η) ≤ T * 8 ∧
      2 * ((1 / (1 - 1 / 2 ^ 53 : ℚ)) ^ 6 * (1 + η)) * (((1 / (1 - 1 / 2 ^ 53 : ℚ)) ^ 6 * (1 + η)) ^ (2 * r)
        * (B + r * (2 * (1 / (1 - 1 / 2 ^ 53 : ℚ)) ^ 2 * η)) + η) ≤ T * 8 ∧
      ((1 / (1 - 1 / 2 ^ 53 : ℚ)) ^ 6 * (1 + η)) ^ (2 * r) * (B + r * (2 * (1 / (1 - 1 / 2 ^ 53 : ℚ)) ^ 2 * η)) - B
        ≤ 2 / 10 ^ 14 * B + θ := by
    intro η θ T q0 q1 q2 q3 q4 q5
    have q6 : η ≤ 1 / 2 ^ 100 := by
      have : θ * (1 / 2 ^ 15) ≤ θ * 1 := mul_le_mul_of_nonneg_left (by norm_num) q1.le
      linarith
    set κ : ℚ := (1 / (1 - 1 / 2 ^ 53 : ℚ)) ^ 6 * (1 + η) with hκ
    have k1 : 1 ≤ κ := one_le_mul_of_one_le_of_one_le (one_le_pow₀ (by norm_num)) (by linarith)
    have k2 : κ ≤ (1 / (1 - 1 / 2 ^ 53 : ℚ)) ^ 6 * (1 + 1 / 2 ^ 100) :=
      mul_le_mul_of_nonneg_left (by linarith) (by positivity)
    have k3 : κ ^ (2 * r) ≤ 1 + 2 / 10 ^ 14 :=
      calc κ ^ (2 * r) ≤ κ ^ 20 := pow_le_pow_right₀ k1 (by omega)
        _ ≤ ((1 / (1 - 1 / 2 ^ 53 : ℚ)) ^ 6 * (1 + 1 / 2 ^ 100)) ^ 20 := pow_le_pow_left₀ (by linarith) k2 _
        _ ≤ _ := by decide +kernel
    have k4 : κ ≤ 11 / 10 := k2.trans (by decide +kernel)
    have k5 : 2 * (1 / (1 - 1 / 2 ^ 53 : ℚ)) ^ 2 ≤ 3 := by decide +kernel
    have r0 : (0 : ℚ) ≤ r := Nat.cast_nonneg r
    have r1 : (r : ℚ) ≤ 10 := by exact_mod_cast hr.trans hp10
    have k6 : (r : ℚ) * (2 * (1 / (1 - 1 / 2 ^ 53 : ℚ)) ^ 2 * η) ≤ 30 * η := by
      have e1 : 2 * (1 / (1 - 1 / 2 ^ 53 : ℚ)) ^ 2 * η ≤ 3 * η := mul_le_mul_of_nonneg_right k5 q0.le
      have e2 : (r : ℚ) * (2 * (1 / (1 - 1 / 2 ^ 53 : ℚ)) ^ 2 * η) ≤ r * (3 * η) := mul_le_mul_of_nonneg_left e1 r0
      have e3 : (r : ℚ) * (3 * η) ≤ 10 * (3 * η) := mul_le_mul_of_nonneg_right r1 (by linarith)
      linarith
    have k7 : κ ^ (2 * r) * (B + r * (2 * (1 / (1 - 1 / 2 ^ 53 : ℚ)) ^ 2 * η)) ≤ (1 + 2 / 10 ^ 14) * (B + 30 * η) := by
      refine mul_le_mul k3 (by linarith) (add_nonneg hB0 ?_) (by norm_num)
      exact mul_nonneg r0 (mul_nonneg (by positivity) q0.le)
    have q7 : η ≤ 1 / 10 ^ 6 := q6.trans (by norm_num)
    refine ⟨by linarith, ?_, ?_⟩
    · have : κ ^ (2 * r) * (B + r * (2 * (1 / (1 - 1 / 2 ^ 53 : ℚ)) ^ 2 * η)) + η ≤ 11 / 10 * T + 1 := by
        linarith
      refine (mul_le_mul (show 2 * κ ≤ 22 / 10 by linarith) this ?_ (by norm_num)).trans ?_
      · have : 0 ≤ κ ^ (2 * r) * (B + r * (2 * (1 / (1 - 1 / 2 ^ 53 : ℚ)) ^ 2 * η)) :=
          mul_nonneg (by positivity) (add_nonneg hB0 (mul_nonneg r0 (mul_nonneg (by positivity) q0.le)))
        linarith
      · linarith
    · have : 31 * η ≤ θ := by rw [q2]; linarith
      linarith
  obtain ⟨m1, m2, m3⟩ := main _ _ _ hη0 hθ0 hη1 hη2 hM1 hBM
  rw [← hM3] at m1 m2
  obtain ⟨P', hcall, shP, hst, hl, hr', Q, shQ, hQB, hPQ, -, hcl⟩ := knot_insertion_ieee ieeeRounding_bin64
    hU.toKnotVector hP hpk hk hfs b1 b2' hmult (by rw [hcount]; exact hr) hB hUst hu hPst
    (by rw [hz, ho, hM3]; linarith) m1 m2
  obtain ⟨hc', hcur⟩ := hcl hU
  refine ⟨k, P', hcall, shP, b1', b2', hc', fun row hrow x hx => ⟨hst row hrow x hx, ?_⟩, hl,
    fun i hi hki => hr' i hi (by omega), fun y hy x hx0 hx1 => ?_⟩
  · obtain ⟨i, hi, rfl⟩ := List.getElem_of_mem hrow
    obtain ⟨y, hy, rfl⟩ := List.getElem_of_mem hx
    have hi' : i < n + r := by rw [shP.1] at hi; exact hi
    have hy' : y < 3 := by rw [shP.2 _ hrow] at hy; exact hy
    have e : P'[i][y] = coord P' y i := by simp [coord, List.getD_eq_getElem?_getD, hi, hy]
    rw [e]
    have a1 := abs_add_le (coord Q y i) (coord P' y i - coord Q y i)
    rw [add_sub_cancel] at a1
    linarith [hQB i hi' y hy', (hPQ i hi' y hy').trans m3]
  rw [← hcur y hy x]
  set W := insertedKnots U k u r with hW
  have w0 : knotFn W p ≤ x := by
    have : knotFn W p = 0 := by
      rw [hW, knotFn_eq (by simp [insertedKnots]; omega)]
      unfold insertedKnots
      rw [List.getElem_append_left (by simp; omega), List.getElem_append_left (by simp; omega), List.getElem_take,
        ← knotFn_eq (by omega), hpz]
    rw [this]; exact hx0
  have w1 : x ≤ knotFn W (n + r + p) := by
    have : knotFn W (n + r + p) = 1 := by
      rw [hW, knotFn_eq (by simp [insertedKnots]; omega)]
      unfold insertedKnots
      rw [List.getElem_append_right (by simp; omega), List.getElem_drop, ← knotFn_eq (by simp; omega), ← ho]
      congr 1
      simp
      omega
    rw [this]; exact hx1
  have e : ∀ c d : ℕ → ℚ, curve (knotFn W) p (n + r) c x - curve (knotFn W) p (n + r) d x
      = curve (knotFn W) p (n + r) (fun i => c i - d i) x := by
    intro c d
    unfold curve
    rw [← Finset.sum_sub_distrib]
    exact Finset.sum_congr rfl fun i _ => by ring
  rw [abs_le']
  constructor
  · rw [e]
    exact curve_le hc' w0 w1 fun i hi _ _ => (le_abs_self _).trans ((hPQ i hi y hy).trans m3)
  · rw [neg_sub, e]
    exact curve_le hc' w0 w1 fun i hi _ _ => (le_abs_self _).trans (by
      rw [abs_sub_comm]; exact (hPQ i hi y hy).trans m3)

/-! ## Concrete cases -/

/-- The hypotheses of `knot_insertion_binary64` hold for a curve with huge and with subnormal coordinates. -/
example : ∃ k P', curveKnotInsertionR bin64 2 (exU.map fin)
      ([[2 ^ 1000, 1 / 2 ^ 1074, 0], [0, 3 / 2 ^ 1074, 1], [-2 ^ 1000, 0, 2], [1, 0, 3], [0, 0, 4],
        [2 ^ 900, 0, 5]].map (List.map fin)) (fin (1 / 4 + 1 / 16)) 2
        = .ok ((insertedKnots exU k (1 / 4 + 1 / 16) 2).map fin, P'.map (List.map fin)) ∧
    ∀ y < 3, ∀ x, 0 ≤ x → x ≤ 1 →
      |curve (knotFn (insertedKnots exU k (1 / 4 + 1 / 16) 2)) 2 8 (coord P' y) x
        - curve (knotFn exU) 2 6 (coord [[2 ^ 1000, 1 / 2 ^ 1074, 0], [0, 3 / 2 ^ 1074, 1], [-2 ^ 1000, 0, 2], [1, 0, 3],
          [0, 0, 4], [2 ^ 900, 0, 5]] y) x| ≤ 2 / 10 ^ 14 * 2 ^ 1000 + 1 / 2 ^ 1060 := by
  obtain ⟨k, P', h, -, -, -, -, -, -, -, hc⟩ := knot_insertion_binary64 (r := 2) (u := 1 / 4 + 1 / 16) (B := 2 ^ 1000)
    (P := [[2 ^ 1000, 1 / 2 ^ 1074, 0], [0, 3 / 2 ^ 1074, 1], [-2 ^ 1000, 0, 2], [1, 0, 3], [0, 0, 4], [2 ^ 900, 0, 5]])
    exU_clamped (by decide +kernel) (by decide +kernel) (by norm_num) ⟨by decide, by decide⟩ (by norm_num)
    (by norm_num) (by decide +kernel) le_rfl (by decide +kernel) (by decide +kernel) (by decide +kernel)
    (by decide +kernel) (by decide +kernel)
  exact ⟨k, P', h, hc⟩

/-- Underflow: the middle of the smallest subnormal and zero is rounded to zero. -/
example : curveKnotInsertionR bin64 1 [fin 0, fin 0, fin 1, fin 1]
    [[fin 0, fin 0, fin 0], [fin (1 / 2 ^ 1074), fin 1, fin 0]] (fin (1 / 2)) 1
    = .ok ([fin 0, fin 0, fin (1 / 2), fin 1, fin 1],
        [[fin 0, fin 0, fin 0], [fin 0, fin (1 / 2), fin 0], [fin (1 / 2 ^ 1074), fin 1, fin 0]]) := by
  decide +kernel

/-- Knots with a span beyond the largest double: the division by the infinite length gives a wrong, finite point. -/
example : curveKnotInsertionR bin64 1 [fin (-2 ^ 1023), fin (-2 ^ 1023), fin (2 ^ 1023), fin (2 ^ 1023)]
    [[fin 0, fin 0, fin 0], [fin 1, fin 1, fin 0]] (fin (-2 ^ 1022)) 1
    = .ok ([fin (-2 ^ 1023), fin (-2 ^ 1023), fin (-2 ^ 1022), fin (2 ^ 1023), fin (2 ^ 1023)],
        [[fin 0, fin 0, fin 0], [fin 0, fin 0, fin 0], [fin 1, fin 1, fin 0]]) := by
  decide +kernel

end PySpline
