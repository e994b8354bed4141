import Verif.Props.Data

/-!
# C59: the initial surface of an `InteriorProblem`
-/

set_option linter.unusedSectionVars false

namespace PySpline

open Spec Finset

section
variable {K : Type} [Field K] [LinearOrder K] [IsStrictOrderedRing K] [FloorRing K]

theorem sum_affine {m : ℕ} {N : ℕ → K} (h : ∑ j ∈ range m, N j = 1) (f : ℕ → K) (x y : K) :
    ∑ j ∈ range m, (x + f j * y) * N j = x + (∑ j ∈ range m, f j * N j) * y := by
  have : ∀ j, (x + f j * y) * N j = x * N j + f j * N j * y := fun j => by ring
  rw [sum_congr rfl fun j _ => this j, sum_add_distrib, ← mul_sum, h, mul_one, ← sum_mul]

/-- Row `i * m + j` of the net. -/
def ruledRow (top bottom : List (List K)) (m x : ℕ) : List K :=
  (List.range 3).map fun k => at2 bottom (x / m) k 0
    + ((x % m : ℕ) : K) / ((m : K) - 1) * (at2 top (x / m) k 0 - at2 bottom (x / m) k 0)

theorem ruledNet_eq {top bottom : List (List K)} {n m : ℕ} (ht : Shape top n 3)
    (hb : Shape bottom n 3) (hm : 2 ≤ m) :
    ruledNet top bottom n m = .ok ((List.range (n * m)).map (ruledRow top bottom m)) := by
  have hm1 : (m : K) - 1 ≠ 0 := by
    have : (2 : K) ≤ m := by exact_mod_cast hm
    intro h
    linarith
  have key := double_loop n m (w := 3) (ruledRow top bottom m) (fun t => by simp [ruledRow])
    (fun upt vpt (st : List (List K) × ℕ) => do
      let b ← pyGet bottom (upt : ℤ)
      let f ← pyDiv (vpt : K) ((m : K) - 1)
      let row ← vadd b ((List.zipWith (· - ·) (top.getD upt []) (bottom.getD upt [])).map
        fun x => f * x)
      let _ ← (if row.length = 3 then .ok () else .error .valueError : Py Unit)
      let net ← pySet st.1 (st.2 : ℤ) row
      .ok (net, st.2 + 1)) (by
    intro i j d hi hj hd
    have lb := hb.row hi
    have lt := ht.row hi
    dsimp only
    rw [pyGet_nat bottom _ i [] rfl (by rw [hb.1]; exact hi), ok_bind, pyDiv_ok hm1, ok_bind]
    unfold vadd
    rw [if_pos (by rw [List.length_map, List.length_zipWith, lb, lt, min_self]), ok_bind,
      if_pos (by rw [List.length_zipWith, List.length_map, List.length_zipWith, lb, lt, min_self,
        min_self]), ok_bind,
      pySet_nat d _ (i * m + j) _ rfl (by rw [hd.1]; exact index_lt hi hj), ok_bind]
    have e1 : (i * m + j) / m = i := by
      rw [Nat.mul_comm, Nat.mul_add_div (by omega), Nat.div_eq_of_lt hj, Nat.add_zero]
    have e2 : (i * m + j) % m = j := by
      rw [Nat.mul_comm, Nat.mul_add_mod, Nat.mod_eq_of_lt hj]
    have : ruledRow top bottom m (i * m + j) = List.zipWith (· + ·) (bottom.getD i [])
        ((List.zipWith (· - ·) (top.getD i []) (bottom.getD i [])).map
          fun x => (j : K) / ((m : K) - 1) * x) := by
      unfold ruledRow at2
      rw [e1, e2, row_eq_three lb, row_eq_three lt]
      rfl
    rw [this])
  unfold ruledNet
  dsimp only
  rw [forN_congr (g := fun upt st => forN 0 m st fun vpt (st : List (List K) × ℕ) => do
      let b ← pyGet bottom (upt : ℤ)
      let f ← pyDiv (vpt : K) ((m : K) - 1)
      let row ← vadd b ((List.zipWith (· - ·) (top.getD upt []) (bottom.getD upt [])).map
        fun x => f * x)
      let _ ← (if row.length = 3 then .ok () else .error .valueError : Py Unit)
      let net ← pySet st.1 (st.2 : ℤ) row
      .ok (net, st.2 + 1)), key, ok_bind]
  intro i s _ hi
  rw [pyGet_nat top _ i [] rfl (by rw [ht.1]; exact hi), ok_bind,
    pyGet_nat bottom _ i [] rfl (by rw [hb.1]; exact hi), ok_bind]
  have : vsub (top.getD i []) (bottom.getD i [])
      = .ok (List.zipWith (· - ·) (top.getD i []) (bottom.getD i [])) := by
    unfold vsub
    rw [if_pos (by rw [ht.row hi, hb.row hi])]
  rw [this, ok_bind]

/-- **C59.** The initial surface between two fitted boundaries of the same degree and size: its
control points run linearly from the bottom to the top control points. -/
theorem ruled_surface_points {t b : Fitted K} {p n q m : ℕ} (td : t.degree = some (p : ℤ))
    (bd : b.degree = some (p : ℤ)) (tn : t.numCtrl = some (n : ℤ)) (bn : b.numCtrl = some (n : ℤ))
    (ht : Shape t.fitCurve.ctrlpts n 3) (hb : Shape b.fitCurve.ctrlpts n 3) (hq : q < m)
    (hm : 2 ≤ m) :
    ∃ s : Surface K, ruledSurface (some t) (some b) (some (q : ℤ)) (some (m : ℤ)) = .ok s ∧
      s.degreeU = p ∧ s.degreeV = q ∧ s.numU = n ∧ s.numV = m ∧ s.kvU = b.fitCurve.kv ∧
      generateUniform q m = .ok s.kvV ∧ Shape s.ctrlpts (n * m) 3 ∧
      ∀ k < 3, ∀ i < n, ∀ j < m, coord s.ctrlpts k (i * m + j)
        = coord b.fitCurve.ctrlpts k i + (j : K) / ((m : K) - 1)
            * (coord t.fitCurve.ctrlpts k i - coord b.fitCurve.ctrlpts k i) := by
  refine ⟨⟨p, q, n, m, (List.range (n * m)).map (ruledRow t.fitCurve.ctrlpts b.fitCurve.ctrlpts m),
    b.fitCurve.kv, zeros q ++ _ ++ _⟩, ?_, rfl, rfl, rfl, rfl, rfl, generateUniform_eq hq,
    ⟨by simp, ?_⟩, ?_⟩
  · unfold ruledSurface
    show (if t.degree ≠ b.degree then _ else _) = _
    rw [if_neg (by rw [td, bd]; simp), if_neg (by rw [tn, bn]; simp), bd, bn]
    show (ruledNet t.fitCurve.ctrlpts b.fitCurve.ctrlpts (n : ℤ).toNat (m : ℤ).toNat >>= _) = _
    rw [Int.toNat_natCast, Int.toNat_natCast, ruledNet_eq ht hb hm, ok_bind]
    show (generateUniform (q : ℤ).toNat (m : ℤ).toNat >>= _) = _
    rw [Int.toNat_natCast, Int.toNat_natCast, generateUniform_eq hq, ok_bind]
    rfl
  · intro row hrow
    obtain ⟨x, -, rfl⟩ := List.mem_map.1 hrow
    simp [ruledRow]
  · intro k hk i hi j hj
    have hx := index_lt hi hj
    have e1 : (i * m + j) / m = i := by
      rw [Nat.mul_comm, Nat.mul_add_div (by omega), Nat.div_eq_of_lt hj, Nat.add_zero]
    have e2 : (i * m + j) % m = j := by
      rw [Nat.mul_comm, Nat.mul_add_mod, Nat.mod_eq_of_lt hj]
    have hrow : ((List.range (n * m)).map
        (ruledRow t.fitCurve.ctrlpts b.fitCurve.ctrlpts m)).getD (i * m + j) []
          = ruledRow t.fitCurve.ctrlpts b.fitCurve.ctrlpts m (i * m + j) := by
      simp [List.getD_eq_getElem?_getD, hx]
    unfold coord
    dsimp only
    rw [hrow]
    unfold ruledRow
    rw [e1, e2]
    simp [List.getD_eq_getElem?_getD, hk, at2]

/-- **C59.** If moreover the two boundary curves have the same knots (and degrees at least one), the
surface is ruled: the point at `(u, v)` is on the segment from the bottom curve at `u` to the top
curve at `u`, at a fraction that depends on `v` only; at `v = 0` it is the bottom curve, at `v = 1`
the top curve. -/
theorem ruled_surface_contains {t b : Fitted K} {p n q m : ℕ} (td : t.degree = some (p : ℤ))
    (bd : b.degree = some (p : ℤ)) (tn : t.numCtrl = some (n : ℤ)) (bn : b.numCtrl = some (n : ℤ))
    (tc : t.fitCurve.degree = p) (bc : b.fitCurve.degree = p)
    (ht : Shape t.fitCurve.ctrlpts n 3) (hb : Shape b.fitCurve.ctrlpts n 3)
    (hkv : t.fitCurve.kv = b.fitCurve.kv) (hcl : Clamped p n b.fitCurve.kv) (hp : 1 ≤ p)
    (hq1 : 1 ≤ q) (hq : q < m) {s : Surface K}
    (hs : ruledSurface (some t) (some b) (some (q : ℤ)) (some (m : ℤ)) = .ok s) :
    (∀ u, 0 ≤ u → u ≤ 1 → Regular p n b.fitCurve.kv u →
      s.singlePoint u 0 = b.fitCurve.singlePoint u ∧
      s.singlePoint u 1 = t.fitCurve.singlePoint u) ∧
    ∀ v, 0 ≤ v → v ≤ 1 → Regular q m s.kvV v → ∃ l, 0 ≤ l ∧ l ≤ 1 ∧
      ∀ u, 0 ≤ u → u ≤ 1 → Regular p n b.fitCurve.kv u → ∃ x y,
        b.fitCurve.singlePoint u = .ok x ∧ t.fitCurve.singlePoint u = .ok y ∧
        s.singlePoint u v = .ok ((List.range 3).map fun k =>
          x.getD k 0 + l * (y.getD k 0 - x.getD k 0)) := by
  obtain ⟨s', hs', a1, a2, a3, a4, a5, a6, a7, a8⟩ :=
    ruled_surface_points td bd tn bn ht hb hq (by omega)
  rw [hs] at hs'
  cases hs'
  obtain ⟨U, hU, vcl, vdi, v0, v1, -, -⟩ := generate_uniform_valid (K := K) hq
  rw [a6] at hU
  have hU : s.kvV = U := Except.ok.inj hU
  rw [← hU] at vcl vdi v0 v1
  have hm1 : (0 : K) < (m : K) - 1 := by
    have : (2 : K) ≤ m := by exact_mod_cast (by omega : 2 ≤ m)
    linarith
  have hS : ClampedSurface s := by
    refine ⟨?_, ?_, ?_, ?_, ?_⟩
    · rw [a1, a3, a5]; exact hcl
    · rw [a2, a4]; exact vcl
    · rw [a1]; exact hp
    · rw [a2]; exact hq1
    · rw [a3, a4]; exact a7
  have kV : UnitKnots s.degreeV s.numV s.kvV := by
    rw [a2, a4]
    exact ⟨vcl, v0, v1, vdi q le_rfl hq, by
      have := vdi (m - 1) (by omega) (by omega)
      rwa [show m - 1 + 1 = m by omega] at this⟩
  have hrow : ∀ j < m, ∀ i < n, (s.columnPts j).getD i [] = (List.range 3).map fun k =>
      coord b.fitCurve.ctrlpts k i + (j : K) / ((m : K) - 1)
        * (coord t.fitCurve.ctrlpts k i - coord b.fitCurve.ctrlpts k i) := by
    intro j hj i hi
    rw [columnPts_getD s j (by rw [a3]; exact hi), a4, row_eq_three (a7.row (index_lt hi hj))]
    have e0 := a8 0 (by omega) i hi j hj
    have e1 := a8 1 (by omega) i hi j hj
    have e2 := a8 2 (by omega) i hi j hj
    unfold coord at e0 e1 e2
    rw [e0, e1, e2]
    rfl
  have ext : ∀ {A B : List (List K)}, A.length = n → B.length = n →
      (∀ i < n, A.getD i [] = B.getD i []) → A = B := by
    intro A B hA hB h
    refine List.ext_getElem (hA.trans hB.symm) fun i h1 h2 => ?_
    have := h i (by omega)
    rwa [List.getD_eq_getElem?_getD, List.getD_eq_getElem?_getD, List.getElem?_eq_getElem h1,
      List.getElem?_eq_getElem h2] at this
  have three : ∀ {A : List (List K)}, Shape A n 3 → ∀ i < n,
      A.getD i [] = (List.range 3).map fun k => coord A k i := by
    intro A hA i hi
    rw [row_eq_three (hA.row hi)]
    rfl
  have c0 : s.columnPts 0 = b.fitCurve.ctrlpts := by
    refine ext (by simp [Surface.columnPts, a3]) hb.1 fun i hi => ?_
    rw [hrow 0 (by omega) i hi, three hb i hi]
    simp
  have c1 : s.columnPts (m - 1) = t.fitCurve.ctrlpts := by
    refine ext (by simp [Surface.columnPts, a3]) ht.1 fun i hi => ?_
    rw [hrow (m - 1) (by omega) i hi, three ht i hi, Nat.cast_sub (by omega), Nat.cast_one,
      div_self hm1.ne']
    simp
  refine ⟨fun u hu0 hu1 hr => ?_, fun v hv0 hv1 hrv => ?_⟩
  · have := surface_edge_v hS kV (u := u) ⟨hu0, hu1⟩ (by rw [a1, a3, a5]; exact hr)
    rw [a1, a4, a5, c0, c1] at this
    refine ⟨this.1.trans ?_, this.2.trans ?_⟩
    · rw [← bc]
    · rw [← hkv, ← tc]
  · have hN := fun j => Nclosed_nonneg (monotone_knotFn vcl.mono) q m j v
    have hsum := sum_Nclosed vcl hrv.lo hrv.hi
    refine ⟨curve (knotFn s.kvV) q m (fun j => (j : K) / ((m : K) - 1)) v, ?_, ?_,
      fun u hu0 hu1 hr => ?_⟩
    · exact sum_nonneg fun j _ => mul_nonneg (div_nonneg (Nat.cast_nonneg j) hm1.le) (hN j)
    · unfold curve
      refine le_of_le_of_eq (sum_le_sum fun j hj => ?_) hsum
      have : (j : K) / ((m : K) - 1) ≤ 1 := by
        rw [div_le_one hm1]
        have : (j : K) + 1 ≤ m := by exact_mod_cast mem_range.1 hj
        linarith
      have := mul_le_mul_of_nonneg_right this (hN j)
      linarith
    · have pb := single_point_bspline_sum hcl hp hb le_rfl hu0 hu1 hr
      have pt := single_point_bspline_sum hcl hp ht le_rfl hu0 hu1 hr
      rw [show (⟨p, b.fitCurve.ctrlpts, b.fitCurve.kv⟩ : Curve K) = b.fitCurve by rw [← bc]] at pb
      rw [show (⟨p, t.fitCurve.ctrlpts, b.fitCurve.kv⟩ : Curve K) = t.fitCurve by
        rw [← tc, ← hkv]] at pt
      refine ⟨_, _, pb, pt, ?_⟩
      rw [surface_point_tensor_sum hS ⟨hu0, hu1⟩ ⟨hv0, hv1⟩ (by rw [a1, a3, a5]; exact hr)
        (by rw [a2, a4]; exact hrv)]
      have val : ∀ k < 3, s.value k u v = curve (knotFn b.fitCurve.kv) p n
            (coord b.fitCurve.ctrlpts k) u + curve (knotFn s.kvV) q m
              (fun j => (j : K) / ((m : K) - 1)) v * (curve (knotFn b.fitCurve.kv) p n
            (coord t.fitCurve.ctrlpts k) u - curve (knotFn b.fitCurve.kv) p n
            (coord b.fitCurve.ctrlpts k) u) := by
        intro k hk
        rw [value_eq_curve_u, a1, a2, a3, a4, a5]
        have inner : ∀ i < n, curve (knotFn s.kvV) q m
              (fun j => coord s.ctrlpts k (i * m + j)) v
            = coord b.fitCurve.ctrlpts k i + curve (knotFn s.kvV) q m
              (fun j => (j : K) / ((m : K) - 1)) v * (coord t.fitCurve.ctrlpts k i
                - coord b.fitCurve.ctrlpts k i) := by
          intro i hi
          rw [curve_congr (fun j hj => a8 k hk i hi j hj)]
          exact sum_affine hsum _ _ _
        rw [curve_congr inner]
        unfold curve
        rw [← sum_sub_distrib, mul_sum, ← sum_add_distrib]
        exact sum_congr rfl fun i _ => by ring
      rw [val 0 (by omega), val 1 (by omega), val 2 (by omega)]
      rfl

end

/-! ## Concrete cases -/

def exBottom : Fitted ℚ :=
  ⟨some 2, some 4, ⟨2, [[0, 0, 0], [1, 0, 1], [2, 0, 0], [3, 0, 1]], [0, 0, 0, 1/2, 1, 1, 1]⟩, none⟩
def exTop : Fitted ℚ :=
  ⟨some 2, some 4, ⟨2, [[0, 2, 0], [1, 4, 1], [2, 4, 2], [3, 2, 1]], [0, 0, 0, 1/2, 1, 1, 1]⟩, none⟩

/-- C59: the net for three control points in `v`. -/
example : (ruledSurface (some exTop) (some exBottom) (some 1) (some 3)).map (·.ctrlpts)
    = .ok [[0, 0, 0], [0, 1, 0], [0, 2, 0], [1, 0, 1], [1, 2, 1], [1, 4, 1],
      [2, 0, 0], [2, 2, 1], [2, 4, 2], [3, 0, 1], [3, 1, 1], [3, 2, 1]] := by decide +kernel

example : (ruledSurface (some exTop) (some exBottom) (some 1) (some 3) >>=
    fun s => s.singlePoint (1/4) 1) = exTop.fitCurve.singlePoint (1/4) ∧
    exTop.fitCurve.singlePoint (1/4) = .ok [7/8, 7/2, 7/8] := by decide +kernel

/-- The knots of the top curve are not looked at: if they differ from those of the bottom curve, the
surface does not contain the top curve. -/
theorem ruled_surface_ignores_top_knots :
    let t : Fitted ℚ := { exTop with fitCurve := { exTop.fitCurve with
      kv := [0, 0, 0, 1/4, 1, 1, 1] } }
    (ruledSurface (some t) (some exBottom) (some 1) (some 3) >>= fun s => s.singlePoint (1/4) 1)
        = .ok [7/8, 7/2, 7/8] ∧
      t.fitCurve.singlePoint (1/4) = .ok [5/4, 4, 5/4] := by
  decide +kernel

/-- One control point in `v` gives a division by zero. -/
example : ruledSurface (some exTop) (some exBottom) (some 0) (some 1) = .error .nonfinite := by
  decide +kernel

end PySpline
