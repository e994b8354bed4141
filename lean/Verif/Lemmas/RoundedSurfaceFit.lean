import Verif.Model.RoundedSurfaceFit
import Verif.Lemmas.RoundedKnotRuns
import Verif.Props.Ruled

/-!
# The initial surface and `fit_surface` in rounded arithmetic: auxiliary facts
-/

set_option linter.unusedSectionVars false

namespace PySpline

open Spec Finset

section
variable {K : Type} [Field K] [LinearOrder K] [IsStrictOrderedRing K]

theorem Rounding.zero' {fl : K → K} (h : Rounding fl) : fl 0 = 0 := by
  have := h.neg 0
  rw [neg_zero] at this
  linarith

/-- One coordinate of control point `j` between a bottom and a top control point. -/
def ruledFl (fl : K → K) (b t : K) (m j : ℕ) : K := fl (b + fl (fl ((j : K) / ((m : K) - 1)) * fl (t - b)))

/-- Row `i * m + j` of the net. -/
def ruledRowFl (fl : K → K) (top bottom : List (List K)) (m x : ℕ) : List K :=
  (List.range 3).map fun k => ruledFl fl (at2 bottom (x / m) k 0) (at2 top (x / m) k 0) m (x % m)

theorem ruledNetFl_eq (fl : K → K) {top bottom : List (List K)} {n m : ℕ} (ht : Shape top n 3)
    (hb : Shape bottom n 3) (hm : 2 ≤ m) :
    ruledNetFl fl top bottom n m = .ok ((List.range (n * m)).map (ruledRowFl fl top bottom m)) := by
  have hm1 : (m : K) - 1 ≠ 0 := by
    have : (2 : K) ≤ m := by exact_mod_cast hm
    intro h
    linarith
  have key := double_loop n m (w := 3) (ruledRowFl fl top bottom m) (fun t => by simp [ruledRowFl])
    (fun upt vpt (st : List (List K) × ℕ) => do
      let b ← pyGet bottom (upt : ℤ)
      let f ← pyDiv (vpt : K) ((m : K) - 1)
      let row ← vadd b (((List.zipWith (· - ·) (top.getD upt []) (bottom.getD upt [])).map fl).map
        fun x => fl (fl f * x))
      let _ ← (if (row.map fl).length = 3 then .ok () else .error .valueError : Py Unit)
      let net ← pySet st.1 (st.2 : ℤ) (row.map fl)
      .ok (net, st.2 + 1)) (by
    intro i j d hi hj hd
    have lb := hb.row hi
    have lt := ht.row hi
    dsimp only
    rw [pyGet_nat bottom _ i [] rfl (by rw [hb.1]; exact hi), ok_bind, pyDiv_ok hm1, ok_bind]
    unfold vadd
    rw [if_pos (by simp only [List.length_map, List.length_zipWith, lb, lt, min_self]), ok_bind, if_pos (by simp only [List.length_map, List.length_zipWith, lb, lt, min_self]), ok_bind,
      pySet_nat d _ (i * m + j) _ rfl (by rw [hd.1]; exact index_lt hi hj), ok_bind]
    have e1 : (i * m + j) / m = i := by
      rw [Nat.mul_comm, Nat.mul_add_div (by omega), Nat.div_eq_of_lt hj, Nat.add_zero]
    have e2 : (i * m + j) % m = j := by
      rw [Nat.mul_comm, Nat.mul_add_mod, Nat.mod_eq_of_lt hj]
    have : ruledRowFl fl top bottom m (i * m + j) = (List.zipWith (· + ·) (bottom.getD i [])
        (((List.zipWith (· - ·) (top.getD i []) (bottom.getD i [])).map fl).map
          fun x => fl (fl ((j : K) / ((m : K) - 1)) * x))).map fl := by
      unfold ruledRowFl ruledFl at2
      rw [e1, e2, row_eq_three lb, row_eq_three lt]
      rfl
    rw [this])
  unfold ruledNetFl
  dsimp only
  rw [forN_congr (g := fun upt st => forN 0 m st fun vpt (st : List (List K) × ℕ) => do
      let b ← pyGet bottom (upt : ℤ)
      let f ← pyDiv (vpt : K) ((m : K) - 1)
      let row ← vadd b (((List.zipWith (· - ·) (top.getD upt []) (bottom.getD upt [])).map fl).map
        fun x => fl (fl f * x))
      let _ ← (if (row.map fl).length = 3 then .ok () else .error .valueError : Py Unit)
      let net ← pySet st.1 (st.2 : ℤ) (row.map fl)
      .ok (net, st.2 + 1)), key, ok_bind]
  intro i s _ hi
  rw [pyGet_nat top _ i [] rfl (by rw [ht.1]; exact hi), ok_bind,
    pyGet_nat bottom _ i [] rfl (by rw [hb.1]; exact hi), ok_bind]
  have : vsub (top.getD i []) (bottom.getD i [])
      = .ok (List.zipWith (· - ·) (top.getD i []) (bottom.getD i [])) := by
    unfold vsub
    rw [if_pos (by rw [ht.row hi, hb.row hi])]
  rw [this, ok_bind]

/-- The initial surface. -/
theorem ruledSurfaceFl_eq (fl : K → K) {t b : Fitted K} {p n q m : ℕ} (td : t.degree = some (p : ℤ))
    (bd : b.degree = some (p : ℤ)) (tn : t.numCtrl = some (n : ℤ)) (bn : b.numCtrl = some (n : ℤ))
    (ht : Shape t.fitCurve.ctrlpts n 3) (hb : Shape b.fitCurve.ctrlpts n 3) (hm : 2 ≤ m) {V : List K}
    (hV : generateUniformFl fl q m = .ok V) :
    ∃ P, ruledSurfaceFl fl (some t) (some b) (some (q : ℤ)) (some (m : ℤ)) = .ok ⟨p, q, n, m, P, b.fitCurve.kv, V⟩ ∧
      Shape P (n * m) 3 ∧ ∀ k < 3, ∀ i < n, ∀ j < m, coord P k (i * m + j)
        = ruledFl fl (coord b.fitCurve.ctrlpts k i) (coord t.fitCurve.ctrlpts k i) m j := by
  refine ⟨(List.range (n * m)).map (ruledRowFl fl t.fitCurve.ctrlpts b.fitCurve.ctrlpts m), ?_, ⟨by simp, ?_⟩, ?_⟩
  · unfold ruledSurfaceFl
    show (if t.degree ≠ b.degree then _ else _) = _
    rw [if_neg (by rw [td, bd]; simp), if_neg (by rw [tn, bn]; simp), bd, bn]
    show (ruledNetFl fl t.fitCurve.ctrlpts b.fitCurve.ctrlpts (n : ℤ).toNat (m : ℤ).toNat >>= _) = _
    rw [Int.toNat_natCast, Int.toNat_natCast, ruledNetFl_eq fl ht hb hm, ok_bind]
    show (generateUniformFl fl (q : ℤ).toNat (m : ℤ).toNat >>= _) = _
    rw [Int.toNat_natCast, Int.toNat_natCast, hV, ok_bind]
    rfl
  · intro row hrow
    obtain ⟨x, -, rfl⟩ := List.mem_map.1 hrow
    simp [ruledRowFl]
  · intro k hk i hi j hj
    have hx := index_lt hi hj
    have e1 : (i * m + j) / m = i := by
      rw [Nat.mul_comm, Nat.mul_add_div (by omega), Nat.div_eq_of_lt hj, Nat.add_zero]
    have e2 : (i * m + j) % m = j := by
      rw [Nat.mul_comm, Nat.mul_add_mod, Nat.mod_eq_of_lt hj]
    have hrow : ((List.range (n * m)).map
        (ruledRowFl fl t.fitCurve.ctrlpts b.fitCurve.ctrlpts m)).getD (i * m + j) []
          = ruledRowFl fl t.fitCurve.ctrlpts b.fitCurve.ctrlpts m (i * m + j) := by
      simp [List.getD_eq_getElem?_getD, hx]
    unfold coord
    rw [hrow]
    unfold ruledRowFl
    rw [e1, e2]
    simp [List.getD_eq_getElem?_getD, hk, at2]

/-- The line of control points from `b` to `t`. -/
theorem ruledFl_line {fl : K → K} (hr : Rounding fl) (b t : K) {m : ℕ} (hm : 2 ≤ m) :
    (fl b = b → ruledFl fl b t m 0 = b) ∧ ruledFl fl b t m (m - 1) = fl (b + fl (t - b)) ∧
      (fl b = b → t = b → ∀ j, ruledFl fl b t m j = b) ∧
      ∀ i j, i ≤ j → (b ≤ t → ruledFl fl b t m i ≤ ruledFl fl b t m j) ∧
        (t ≤ b → ruledFl fl b t m j ≤ ruledFl fl b t m i) := by
  have hz := hr.zero'
  have hm1 : (0 : K) < (m : K) - 1 := by
    have : (2 : K) ≤ m := by exact_mod_cast hm
    linarith
  refine ⟨fun hb => ?_, ?_, fun hb ht j => ?_, fun i j hij => ?_⟩
  · unfold ruledFl
    rw [Nat.cast_zero, zero_div, hz, zero_mul, hz, add_zero, hb]
  · unfold ruledFl
    rw [Nat.cast_sub (by omega), Nat.cast_one, div_self hm1.ne', hr.one, one_mul, hr.idem]
  · unfold ruledFl
    rw [ht, sub_self, hz, mul_zero, hz, add_zero, hb]
  · have hf : fl ((i : K) / ((m : K) - 1)) ≤ fl ((j : K) / ((m : K) - 1)) :=
      hr.mono (div_le_div_of_nonneg_right (by exact_mod_cast hij) hm1.le)
    refine ⟨fun h => hr.mono (add_le_add_right (hr.mono (mul_le_mul_of_nonneg_right hf ?_)) _),
      fun h => hr.mono (add_le_add_right (hr.mono (mul_le_mul_of_nonpos_right hf ?_)) _)⟩
    · rw [← hz]; exact hr.mono (sub_nonneg.2 h)
    · rw [← hz]; exact hr.mono (sub_nonpos.2 h)

theorem parameterizeSurfaceWith_range {inv : List K → Py (K × K)} {data : List (List K)}
    (h3 : ∀ pt ∈ data, pt.length = 3)
    (hinv : ∀ pt ∈ data, ∃ x, inv pt = .ok x ∧ (0 ≤ x.1 ∧ x.1 ≤ 1) ∧ 0 ≤ x.2 ∧ x.2 ≤ 1) :
    ∃ rows, parameterizeSurfaceWith inv data = .ok rows ∧ Shape rows data.length 5 ∧
      ∀ r < data.length, (0 ≤ at2 rows r 3 0 ∧ at2 rows r 3 0 ≤ 1) ∧ 0 ≤ at2 rows r 4 0 ∧ at2 rows r 4 0 ≤ 1 := by
  choose! g hg using hinv
  have hm : mapPy (fun point => do
      let (u, v) ← inv point
      .ok (point ++ [u, v])) data = .ok (data.map fun pt => pt ++ [(g pt).1, (g pt).2]) :=
    mapPy_eq_ok _ _ _ fun pt hpt => by rw [(hg pt hpt).1, ok_bind]
  have hlen : ∀ row ∈ data.map fun pt => pt ++ [(g pt).1, (g pt).2], row.length = 5 := by
    intro row hrow
    obtain ⟨pt, hpt, rfl⟩ := List.mem_map.1 hrow
    simp [h3 pt hpt]
  have hperm := npSortRows_perm [3, 4, 0, 1, 2] (data.map fun pt => pt ++ [(g pt).1, (g pt).2])
  unfold parameterizeSurfaceWith
  rw [hm, ok_bind, if_pos (List.all_eq_true.2 fun row hrow => by simpa using hlen row hrow)]
  refine ⟨_, rfl, ⟨by rw [hperm.length_eq]; simp, fun row hrow => hlen row (hperm.mem_iff.1 hrow)⟩, fun r hr => ?_⟩
  set rows := npSortRows [3, 4, 0, 1, 2] (data.map fun pt => pt ++ [(g pt).1, (g pt).2])
  have hl : r < rows.length := by rw [hperm.length_eq]; simpa using hr
  have hmem : rows.getD r [] ∈ rows := by
    rw [List.getD_eq_getElem?_getD, List.getElem?_eq_getElem hl]
    exact List.getElem_mem hl
  obtain ⟨pt, hpt, he⟩ := List.mem_map.1 (hperm.mem_iff.1 hmem)
  have e : at2 rows r 3 0 = (g pt).1 ∧ at2 rows r 4 0 = (g pt).2 := by
    unfold at2
    rw [← he, List.getD_eq_getElem?_getD, List.getElem?_append_right (by rw [h3 pt hpt]), h3 pt hpt,
      List.getD_eq_getElem?_getD, List.getElem?_append_right (by rw [h3 pt hpt]; omega), h3 pt hpt]
    exact ⟨rfl, rfl⟩
  rw [e.1, e.2]
  exact (hg pt hpt).2

/-- Sorting sorted rows again keeps their number, widths and parameters. -/
theorem npSortRows_shape {rows : List (List K)} {m w : ℕ} (keys : List ℕ) (h : Shape rows m w) :
    Shape (npSortRows keys rows) m w ∧ ∀ r < m, ∃ q < m, (npSortRows keys rows).getD r [] = rows.getD q [] := by
  have hperm := npSortRows_perm keys rows
  refine ⟨⟨by rw [hperm.length_eq, h.1], fun row hrow => h.2 row (hperm.mem_iff.1 hrow)⟩, fun r hr => ?_⟩
  have hl : r < (npSortRows keys rows).length := by rw [hperm.length_eq, h.1]; exact hr
  have hmem : (npSortRows keys rows).getD r [] ∈ npSortRows keys rows := by
    rw [List.getD_eq_getElem?_getD, List.getElem?_eq_getElem hl]
    exact List.getElem_mem hl
  obtain ⟨q, hq, he⟩ := List.mem_iff_getElem.1 (hperm.mem_iff.1 hmem)
  exact ⟨q, by rw [← h.1]; exact hq, by
    rw [← he, List.getD_eq_getElem?_getD (l := rows), List.getElem?_eq_getElem hq, Option.getD_some]⟩

/-- Whenever `single_fit_surface` returns, with any arithmetic. -/
theorem singleFitSurfaceFl_ok {fl : K → K} {ls : ℕ → List (List K) → List K → List K} {s s' : Surface K}
    {data : List (List K)} (h : SingleFitSurfaceFl fl ls s data (.ok s')) (hu : 0 < s.numU) (hv : 0 < s.numV)
    (hn : s.ctrlpts.length = s.numU * s.numV) :
    ∃ P, s' = { s with ctrlpts := P } ∧ Shape P (s.numU * s.numV) 3 ∧ ∀ k < 3, ∀ i < s.numU, ∀ j < s.numV,
      OnBoundary s i j → coord P k (i * s.numV + j) = coord s.ctrlpts k (i * s.numV + j) := by
  rcases h with ⟨e, -, h⟩ | ⟨M, check, -, -, h⟩
  · cases h
  obtain ⟨_, -, h⟩ := bind_eq_ok h.symm
  obtain ⟨f, hf, h⟩ := bind_eq_ok h
  obtain ⟨new, hnew, h⟩ := bind_eq_ok h
  cases h
  rw [hn] at hf
  obtain ⟨m, hm, -, hmask⟩ := surface_mask_boundary hu hv
  rw [hm] at hf; cases hf
  obtain ⟨h1, h2⟩ := fitColumnsFl_ok hnew
  rw [hn] at h1 h2
  refine ⟨new, rfl, h1, fun k hk i hi j hj hb => h2 _ (index_lt hi hj) ?_ k hk⟩
  rw [hmask i hi j hj, decide_eq_true_iff]
  exact hb

end

/-! ## Double precision -/

/-- The difference of two doubles that differ by at most a factor of two is a double. -/
theorem fl64_sterbenz {x y : ℚ} (hx : fl64 x = x) (hy : fl64 y = y) (h0 : 0 < y) (h1 : y ≤ 2 * x) (h2 : x ≤ 2 * y) :
    fl64 (x - y) = x - y := by
  have form : ∀ {z : ℚ}, 0 < z → fl64 z = z → ∃ a : ℤ, z = a * 2 ^ (expo z - 52) := fun {z} hz h =>
    ⟨roundEven (z / 2 ^ (expo z - 52)), by
      conv_lhs => rw [← h, fl64_of_pos hz]
      rfl⟩
  have key : ∀ {x y : ℚ}, fl64 x = x → fl64 y = y → 0 < y → y ≤ x → x ≤ 2 * y → fl64 (x - y) = x - y := by
    intro x y hx hy h0 h1 h2
    obtain ⟨a, ha⟩ := form (h0.trans_le h1) hx
    obtain ⟨b, hb⟩ := form h0 hy
    have he : expo y ≤ expo x := expo_mono h0 h1
    obtain ⟨d, hd⟩ := Int.eq_ofNat_of_zero_le (sub_nonneg.2 he)
    have hpos : (0 : ℚ) < 2 ^ (expo y - 52) := zpow_pos (by norm_num) _
    have e : x - y = ((a * 2 ^ d - b : ℤ) : ℚ) * 2 ^ (expo y - 52) := by
      conv_lhs => rw [ha, hb]
      push_cast
      rw [show expo x - 52 = (d : ℤ) + (expo y - 52) by omega, zpow_add₀ (by norm_num), zpow_natCast]
      ring
    have hn : 0 ≤ a * 2 ^ d - b := by
      have : (0 : ℚ) ≤ ((a * 2 ^ d - b : ℤ) : ℚ) * 2 ^ (expo y - 52) := by rw [← e]; linarith
      exact_mod_cast (mul_nonneg_iff_of_pos_right hpos).1 this
    obtain ⟨w, hw⟩ := Int.eq_ofNat_of_zero_le hn
    have hle : w ≤ 2 ^ 53 := by
      have h3 : ((w : ℕ) : ℚ) * 2 ^ (expo y - 52) ≤ ((2 ^ 53 : ℤ) : ℚ) * 2 ^ (expo y - 52) := by
        rw [← zpow_split']
        have := (expo_spec h0).2
        rw [hw] at e
        have e' : x - y = ((w : ℕ) : ℚ) * 2 ^ (expo y - 52) := by rw [e]; norm_cast
        rw [← e']
        linarith
      have := le_of_mul_le_mul_right h3 hpos
      exact_mod_cast this
    rw [e, hw]
    exact_mod_cast fl64_dyadic hle (expo y - 52)
  rcases le_total y x with h | h
  · exact key hx hy h0 h h2
  · have := key hy hx (by linarith) h h1
    rw [← neg_sub, fl64_neg, this]

/-- A control point of the initial surface in double precision. -/
theorem ruledFl_error {b t M : ℚ} {j m : ℕ} (hb : |b| ≤ M) (ht : |t| ≤ M) (hj : j < m) (hm : 2 ≤ m) :
    |ruledFl fl64 b t m j - (b + (j : ℚ) / ((m : ℚ) - 1) * (t - b))| ≤ M / 2 ^ 50 := by
  have acc : ∀ x, |fl64 x - x| ≤ 1 / 2 ^ 53 * |x| := fl64_rel_error
  have hjK : (j : ℚ) + 1 ≤ m := by exact_mod_cast hj
  have hmK : (2 : ℚ) ≤ m := by exact_mod_cast hm
  have hj0 : (0 : ℚ) ≤ j := Nat.cast_nonneg j
  have hn : (0 : ℚ) < (m : ℚ) - 1 := by linarith
  have hM : 0 ≤ M := (abs_nonneg b).trans hb
  unfold ruledFl
  set r : ℚ := (j : ℚ) / ((m : ℚ) - 1) with hr
  have hr0 : 0 ≤ r := by positivity
  have hr1 : r ≤ 1 := by rw [hr, div_le_one hn]; linarith
  set d := t - b with hd
  have hdM : |d| ≤ 2 * M := by
    rw [hd, sub_eq_add_neg]
    refine (abs_add_le _ _).trans ?_
    rw [abs_neg]; linarith
  set u : ℚ := 1 / 2 ^ 53 with hu
  have hu0 : 0 ≤ u := by positivity
  set x1 := fl64 d with hx1
  set f := fl64 r with hf
  set x3 := fl64 (f * x1) with hx3
  have hf0 : 0 ≤ f := fl64_nonneg hr0
  have hf1 : f ≤ 1 := by
    have := rounding_fl64.mono hr1
    rwa [rounding_fl64.one] at this
  have e1 : |x1 - d| ≤ u * (2 * M) := (acc d).trans (mul_le_mul_of_nonneg_left hdM hu0)
  have a1 : |x1| ≤ (1 + u) * (2 * M) := by
    have : |x1| ≤ |x1 - d| + |d| := by simpa using abs_add_le (x1 - d) d
    linarith
  have ef : |f - r| ≤ u := (acc r).trans (by rw [abs_of_nonneg hr0]; exact mul_le_of_le_one_right hu0 hr1)
  have e2 : |f * x1 - r * d| ≤ 2 * (u * (2 * M)) := by
    have : f * x1 - r * d = f * (x1 - d) + (f - r) * d := by ring
    rw [this]
    refine (abs_add_le _ _).trans ?_
    rw [abs_mul, abs_mul, abs_of_nonneg hf0]
    have h1 : f * |x1 - d| ≤ 1 * (u * (2 * M)) := mul_le_mul hf1 e1 (abs_nonneg _) zero_le_one
    have h2 : |f - r| * |d| ≤ u * (2 * M) := mul_le_mul ef hdM (abs_nonneg _) hu0
    linarith
  have e3 : |x3 - f * x1| ≤ u * ((1 + u) * (2 * M)) := by
    refine (acc _).trans (mul_le_mul_of_nonneg_left ?_ hu0)
    rw [abs_mul, abs_of_nonneg hf0]
    exact (mul_le_of_le_one_left (abs_nonneg _) hf1).trans a1
  have e4 : |x3 - r * d| ≤ u * ((1 + u) * (2 * M)) + 2 * (u * (2 * M)) := by
    have := abs_add_le (x3 - f * x1) (f * x1 - r * d)
    rw [sub_add_sub_cancel] at this
    linarith
  have hy : |b + r * d| ≤ M := by
    have : b + r * d = (1 - r) * b + r * t := by rw [hd]; ring
    rw [this]
    refine (abs_add_le _ _).trans ?_
    rw [abs_mul, abs_mul, abs_of_nonneg hr0, abs_of_nonneg (sub_nonneg.2 hr1)]
    have h1 : (1 - r) * |b| ≤ (1 - r) * M := mul_le_mul_of_nonneg_left hb (sub_nonneg.2 hr1)
    have h2 : r * |t| ≤ r * M := mul_le_mul_of_nonneg_left ht hr0
    linarith
  have e5 : |fl64 (b + x3) - (b + x3)| ≤ u * (M + (u * ((1 + u) * (2 * M)) + 2 * (u * (2 * M)))) := by
    refine (acc _).trans (mul_le_mul_of_nonneg_left ?_ hu0)
    have := abs_add_le (b + r * d) (x3 - r * d)
    rw [show b + r * d + (x3 - r * d) = b + x3 by ring] at this
    linarith
  have hfin : |fl64 (b + x3) - (b + r * d)| ≤ u * (M + (u * ((1 + u) * (2 * M)) + 2 * (u * (2 * M))))
      + (u * ((1 + u) * (2 * M)) + 2 * (u * (2 * M))) := by
    have := abs_add_le (fl64 (b + x3) - (b + x3)) (x3 - r * d)
    rw [show fl64 (b + x3) - (b + x3) + (x3 - r * d) = fl64 (b + x3) - (b + r * d) by ring] at this
    linarith
  refine hfin.trans ?_
  have : u * (M + (u * ((1 + u) * (2 * M)) + 2 * (u * (2 * M)))) + (u * ((1 + u) * (2 * M)) + 2 * (u * (2 * M)))
      = (7 * u + 8 * u ^ 2 + 2 * u ^ 3) * M := by ring
  rw [this, div_eq_mul_inv, mul_comm M]
  exact mul_le_mul_of_nonneg_right (by rw [hu]; norm_num) hM

/-- One surface fit in double precision: it is never refused. -/
theorem singleFitSurface_double_returns {ls : ℕ → List (List ℚ) → List ℚ → List ℚ}
    (hlen : ∀ n A b, A.length = b.length → (∀ row ∈ A, row.length = n) → (ls n A b).length = n) {s : Surface ℚ}
    {data : List (List ℚ)} {m : ℕ} (hs : ClampedSurface s)
    (fu : knotFn s.kvU s.degreeU < knotFn s.kvU (s.degreeU + 1))
    (fv : knotFn s.kvV s.degreeV < knotFn s.kvV (s.degreeV + 1)) (hd : Shape data m 5)
    (hu : ∀ r < m, knotFn s.kvU s.degreeU ≤ at2 data r 3 0 ∧ at2 data r 3 0 ≤ knotFn s.kvU s.numU)
    (hv : ∀ r < m, knotFn s.kvV s.degreeV ≤ at2 data r 4 0 ∧ at2 data r 4 0 ≤ knotFn s.kvV s.numV)
    (hsize : 5 * s.degreeU + 5 * s.degreeV + 1 + s.numU * s.numV + m ≤ 10 ^ 10) :
    (∃ res, SingleFitSurfaceFl fl64 ls s data res) ∧ ∀ res, SingleFitSurfaceFl fl64 ls s data res →
      ∃ P, res = .ok { s with ctrlpts := P } ∧ Shape P (s.numU * s.numV) 3 ∧ ∀ k < 3, ∀ i < s.numU, ∀ j < s.numV,
        OnBoundary s i j → coord P k (i * s.numV + j) = coord s.ctrlpts k (i * s.numV + j) := by
  have su := hs.cu.size
  have sv := hs.cv.size
  obtain ⟨M, hM, ⟨r, hr⟩, hok⟩ := single_fit_surface_unity_double hs fu fv hd hu hv hsize
  obtain ⟨M', hM', hMs, -⟩ := surface_matrix_rounded accurate_fl64 hs fu fv hd
  rw [hM] at hM'
  cases hM'
  obtain ⟨f, hf, hfl, -⟩ := surface_mask_boundary (nu := s.numU) (nv := s.numV) (by omega) (by omega)
  obtain ⟨new, hnew⟩ := fitColumnsFl_returns (fl := fl64) hlen hd (by omega) hs.shape hMs hfl
  refine ⟨⟨_, Or.inr ⟨M, r, hM, hr, rfl⟩⟩, fun res hres => ?_⟩
  have hret : res = .ok { s with ctrlpts := new } := by
    rcases hres with ⟨e, he, -⟩ | ⟨M', check, hM', hcheck, rfl⟩
    · rw [hM] at he; cases he
    rw [hM] at hM'
    cases hM'
    rw [hok _ hcheck, ok_bind, hs.shape.1, hf, ok_bind, hnew, ok_bind]
  subst hret
  obtain ⟨P, hP, h1, h2⟩ := singleFitSurfaceFl_ok hres (by omega) (by omega) hs.shape.1
  exact ⟨P, by rw [hP], h1, h2⟩

end PySpline
