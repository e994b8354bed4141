import Verif.Props.SurfaceInversion
import Verif.Lemmas.Convergence

/-!
# The iteration of `surface_inversion` on a parabolic cylinder
-/

set_option linter.unusedSectionVars false

namespace PySpline

open Spec Polynomial

/-- The parabolic cylinder `(u, v, (u - 1/2)²)` as a surface of degree two in both directions. -/
noncomputable def exTrough : Surface ℝ where
  degreeU := 2
  degreeV := 2
  numU := 3
  numV := 3
  ctrlpts := [[0, 0, 1/4], [0, 1/2, 1/4], [0, 1, 1/4], [1/2, 0, -1/4], [1/2, 1/2, -1/4], [1/2, 1, -1/4],
    [1, 0, 1/4], [1, 1/2, 1/4], [1, 1, 1/4]]
  kvU := [0, 0, 0, 1, 1, 1]
  kvV := [0, 0, 0, 1, 1, 1]

theorem quadKnots_clamped : Clamped 2 3 ([0, 0, 0, 1, 1, 1] : List ℝ) :=
  ⟨⟨by simp, by simp, by decide⟩,
    by intro i hi; interval_cases i <;> simp [knotFn],
    by intro i h1 h2; interval_cases i <;> simp [knotFn]⟩

theorem exTrough_clamped : ClampedSurface exTrough where
  cu := quadKnots_clamped
  cv := quadKnots_clamped
  du := by decide
  dv := by decide
  shape := ⟨rfl, by
    intro r hr
    simp only [exTrough, List.mem_cons, List.not_mem_nil, or_false] at hr
    rcases hr with rfl | rfl | rfl | rfl | rfl | rfl | rfl | rfl | rfl <;> rfl⟩

theorem quadKnots_regular : AllRegular (K := ℝ) 2 3 [0, 0, 0, 1, 1, 1] :=
  allRegular_of_distinct quadKnots_clamped
    (by intro i h1 h2; obtain rfl : i = 2 := by omega
        simp [knotFn])
    (by simp [knotFn]) (by simp [knotFn]) (by norm_num [knotFn])

/-- The partial derivatives of the parabolic cylinder. -/
noncomputable def troughDers : ℕ → ℕ → ℝ → ℝ → List ℝ
  | 0, 0, u, v => [u, v, (u - 1/2) ^ 2]
  | 1, 0, u, _ => [1, 0, 2 * (u - 1/2)]
  | 0, 1, _, _ => [0, 1, 0]
  | 2, 0, _, _ => [0, 0, 2]
  | _, _, _, _ => [0, 0, 0]

theorem quad_piece : piece (knotFn ([0, 0, 0, 1, 1, 1] : List ℝ)) 2 2 0 = (1 - X) * (1 - X) ∧
    piece (knotFn ([0, 0, 0, 1, 1, 1] : List ℝ)) 2 2 1 = C 2 * X * (1 - X) ∧
    piece (knotFn ([0, 0, 0, 1, 1, 1] : List ℝ)) 2 2 2 = X * X := by
  refine ⟨?_, ?_, ?_⟩
  · simp [piece, knotFn]
  · simp [piece, knotFn]
    rw [show (C 2 : ℝ[X]) = 1 + 1 by rw [← C_1, ← C_add]; norm_num]
    ring
  · simp [piece, knotFn]

theorem quadKnots_span {m : ℕ} (h : knotFn ([0, 0, 0, 1, 1, 1] : List ℝ) m < knotFn [0, 0, 0, 1, 1, 1] (m + 1)) :
    m = 2 := by
  by_contra hne
  rcases lt_or_ge m 6 with h6 | h6
  · interval_cases m <;> simp [knotFn] at h hne
  · simp [knotFn, List.getElem?_eq_none (show ([0, 0, 0, 1, 1, 1] : List ℝ).length ≤ m from h6),
      List.getElem?_eq_none (show ([0, 0, 1, 1, 1] : List ℝ).length ≤ m from le_trans (by decide) h6)] at h

theorem quad_ders (u : ℝ) :
    (∀ a ≤ 2, (Spec.deriv a ((1 - X) * (1 - X) : ℝ[X])).eval u = [(1 - u) ^ 2, -2 * (1 - u), 2].getD a 0) ∧
    (∀ a ≤ 2, (Spec.deriv a (C 2 * X * (1 - X) : ℝ[X])).eval u = [2 * u * (1 - u), 2 - 4 * u, -4].getD a 0) ∧
    (∀ a ≤ 2, (Spec.deriv a (X * X : ℝ[X])).eval u = [u ^ 2, 2 * u, 2].getD a 0) := by
  refine ⟨fun a ha => ?_, fun a ha => ?_, fun a ha => ?_⟩ <;> interval_cases a <;> simp [Spec.deriv] <;> ring

theorem trough_patch (a b : ℕ) (ha : a ≤ 2) (hb : b ≤ 2) (u v : ℝ) :
    ((List.range 3).map fun c => patchDeriv (knotFn exTrough.kvU) 2 2 3 (knotFn exTrough.kvV) 2 2 3
      (coord exTrough.ctrlpts c) a b u v) = troughDers a b u v := by
  obtain ⟨p0, p1, p2⟩ := quad_piece
  obtain ⟨d0, d1, d2⟩ := quad_ders u
  obtain ⟨e0, e1, e2⟩ := quad_ders v
  have key : ∀ c, patchDeriv (knotFn exTrough.kvU) 2 2 3 (knotFn exTrough.kvV) 2 2 3
      (coord exTrough.ctrlpts c) a b u v = ∑ i ∈ Finset.range 3, ∑ j ∈ Finset.range 3,
        coord exTrough.ctrlpts c (i * 3 + j) *
        [[(1 - u) ^ 2, -2 * (1 - u), 2].getD a 0, [2 * u * (1 - u), 2 - 4 * u, -4].getD a 0, [u ^ 2, 2 * u, 2].getD a 0].getD i 0 *
        [[(1 - v) ^ 2, -2 * (1 - v), 2].getD b 0, [2 * v * (1 - v), 2 - 4 * v, -4].getD b 0, [v ^ 2, 2 * v, 2].getD b 0].getD j 0 := by
    intro c
    unfold patchDeriv
    simp only [Finset.sum_range_succ, Finset.sum_range_zero, exTrough, p0, p1, p2, d0 a ha, d1 a ha, d2 a ha,
      e0 b hb, e1 b hb, e2 b hb, List.getD_cons_zero, List.getD_cons_succ]
  rw [show List.range 3 = [0, 1, 2] from rfl, List.map_cons, List.map_cons, List.map_cons, List.map_nil, key, key, key]
  simp only [Finset.sum_range_succ, Finset.sum_range_zero, exTrough, coord]
  interval_cases a <;> interval_cases b <;>
    simp only [troughDers, List.cons.injEq, and_true, zero_add, zero_mul, one_mul, Nat.reduceMul, Nat.reduceAdd,
      List.getD_cons_zero, List.getD_cons_succ] <;>
    refine ⟨?_, ?_, ?_⟩ <;> ring

theorem exTrough_smooth (norm : List ℝ → ℝ) : (exTrough.like norm).Smooth troughDers := by
  obtain ⟨D, hD, hval⟩ := surface_smooth norm exTrough_clamped le_rfl le_rfl quadKnots_regular quadKnots_regular
  have e : ∀ u v, 0 ≤ u → u ≤ 1 → 0 ≤ v → v ≤ 1 → ∀ a ≤ 2, ∀ b ≤ 2, D a b u v = troughDers a b u v := by
    intro u v h1 h2 h3 h4 a ha b hb
    obtain ⟨m, k, -, -, -, -, hm, hk, h⟩ := hval u v h1 h2 h3 h4
    obtain rfl := quadKnots_span hm
    obtain rfl := quadKnots_span hk
    rw [h a ha b hb]
    exact trough_patch a b ha hb u v
  refine ⟨fun u v h1 h2 h3 h4 => ?_, fun u v h1 h2 h3 h4 => ?_, fun a b u v => ?_⟩
  · rw [hD.pt u v h1 h2 h3 h4, e u v h1 h2 h3 h4 0 (by omega) 0 (by omega)]
  · obtain ⟨rows, hr, hd⟩ := hD.ders u v h1 h2 h3 h4
    exact ⟨rows, hr, fun a ha b hb => by rw [hd a ha b hb, e u v h1 h2 h3 h4 a ha b hb]⟩
  · unfold troughDers
    split <;> rfl

theorem Euclidean.le_norm {nm : Num ℝ} (hE : Euclidean nm) {x y z c : ℝ} (h : c ^ 2 ≤ x ^ 2 + y ^ 2 + z ^ 2) :
    c ≤ nm.norm [x, y, z] := by
  rw [← hE.sq] at h
  exact le_of_sq_le_sq h (hE.nonneg _ _ _)

theorem Euclidean.norm_le {nm : Num ℝ} (hE : Euclidean nm) {x y z c : ℝ} (hc : 0 ≤ c)
    (h : x ^ 2 + y ^ 2 + z ^ 2 ≤ c ^ 2) : nm.norm [x, y, z] ≤ c := by
  rw [← hE.sq] at h
  exact le_of_sq_le_sq h hc

/-- The derivatives of the parabolic cylinder at `u = 1/2 + z`. -/
noncomputable def troughInfo (z : ℝ) : SurfDers ℝ := ⟨[1, 0, 2 * z], [0, 1, 0], [0, 0, 2], [0, 0, 0], [0, 0, 0]⟩

theorem troughInfo_eq (z v : ℝ) : (⟨troughDers 1 0 (1/2 + z) v, troughDers 0 1 (1/2 + z) v, troughDers 2 0 (1/2 + z) v,
    troughDers 0 2 (1/2 + z) v, troughDers 1 1 (1/2 + z) v⟩ : SurfDers ℝ) = troughInfo z := by
  simp [troughDers, troughInfo]

/-- The next iterate, measured from the foot point. -/
noncomputable def troughNext (z t : ℝ) : ℝ :=
  t - (t + 2 * z * (t ^ 2 - 1/4)) / (1 + 4 * z ^ 2 + 2 * (t ^ 2 - 1/4))

theorem trough_den (z t : ℝ) : 0 < 1 + 4 * z ^ 2 + 2 * (t ^ 2 - 1/4) := by
  have := sq_nonneg z
  have := sq_nonneg t
  linarith

theorem troughNext_neg (z t : ℝ) : troughNext (-z) (-t) = -troughNext z t := by
  unfold troughNext
  rw [neg_sq, neg_sq]
  ring

theorem trough_surfStep {nm : Num ℝ} (hE : Euclidean nm) (norm : List ℝ → ℝ) {t z v : ℝ} (ht : |t| ≤ 1/2)
    (hv : 0 ≤ v ∧ v ≤ 1) (hy : |troughNext z t| ≤ 1/2) :
    surfStep nm (exTrough.like norm) [1/2, 1/2, 1/4] (1/2 + t) v (troughInfo z) = .ok (1/2 + troughNext z t, 1/2) := by
  have ht' := abs_le.1 ht
  have hy' := abs_le.1 hy
  unfold surfStep
  dsimp only
  rw [(exTrough_smooth norm).pt _ _ (by linarith) (by linarith) hv.1 hv.2, ok_bind,
    vsub_len3 rfl rfl, ok_bind, dot_len3 rfl rfl, ok_bind, dot_len3 rfl rfl,
    ok_bind, dot_len3 rfl rfl, ok_bind, dot_len3 rfl rfl,
    ok_bind, dot_len3 rfl rfl, ok_bind, dot_len3 rfl rfl, ok_bind,
    hE.sq_ip (l := (troughInfo z).du) rfl, hE.sq_ip (l := (troughInfo z).dv) rfl]
  simp only [troughInfo, troughDers, ip, sub3, List.getD_cons_zero, List.getD_cons_succ]
  have hd := trough_den z t
  have hy1 : (0:ℝ) ≤ 1/2 + troughNext z t := by linarith
  have hy2 : 1/2 + troughNext z t ≤ 1 := by linarith
  rw [if_neg (by ring_nf; ring_nf at hd; exact hd.ne')]
  have e1 : ∀ A B : ℝ, A = 1/2 + troughNext z t → B = 1/2 →
      (Except.ok (clamp01 A, clamp01 B) : Py (ℝ × ℝ)) = .ok (1/2 + troughNext z t, 1/2) := by
    rintro _ _ rfl rfl
    rw [clamp01_eq, clamp01_eq, min_eq_right hy2, max_eq_right hy1, min_eq_right (by norm_num), max_eq_right (by norm_num)]
  have e : (1 * 1 + 0 * 0 + 2 * z * (2 * z) + ((1 / 2 + t - 1 / 2) * 0 + (v - 1 / 2) * 0 + ((1 / 2 + t - 1 / 2) ^ 2 - 1 / 4) * 2)) *
        (0 * 0 + 1 * 1 + 0 * 0 + ((1 / 2 + t - 1 / 2) * 0 + (v - 1 / 2) * 0 + ((1 / 2 + t - 1 / 2) ^ 2 - 1 / 4) * 0)) -
        (1 * 0 + 0 * 1 + 2 * z * 0 + ((1 / 2 + t - 1 / 2) * 0 + (v - 1 / 2) * 0 + ((1 / 2 + t - 1 / 2) ^ 2 - 1 / 4) * 0)) *
        (1 * 0 + 0 * 1 + 2 * z * 0 + ((1 / 2 + t - 1 / 2) * 0 + (v - 1 / 2) * 0 + ((1 / 2 + t - 1 / 2) ^ 2 - 1 / 4) * 0))
        = 1 + 4 * z ^ 2 + 2 * (t ^ 2 - 1/4) := by ring
  have ef : 1 * 1 + 0 * 0 + 2 * z * (2 * z) + ((1 / 2 + t - 1 / 2) * 0 + (v - 1 / 2) * 0 + ((1 / 2 + t - 1 / 2) ^ 2 - 1 / 4) * 2)
      = 1 + 4 * z ^ 2 + 2 * (t ^ 2 - 1/4) := by ring
  rw [e, ef]
  refine e1 _ _ ?_ ?_
  · unfold troughNext
    have hd' := hd.ne'
    field_simp
    ring
  · rw [div_self hd.ne']
    ring

theorem trough_cond2 {nm : Num ℝ} (hE : Euclidean nm) (norm : List ℝ → ℝ) {eps2 : ℝ} (h2 : eps2 ≤ 1/20) {t y v : ℝ}
    (ht : |t| ≤ 1/5) (hy : |y| ≤ 1/5) (hv : |v - 1/2| ≤ 1/10) (hc : 1/25 < |y + 2 * t * (y ^ 2 - 1/4)|) :
    surfCond2 nm (exTrough.like norm) [1/2, 1/2, 1/4] eps2 (1/2 + y) v (troughInfo t) = .ok false := by
  have ht' := abs_le.1 ht
  have hy' := abs_le.1 hy
  have hv' := abs_le.1 hv
  have := (exTrough_smooth norm).cond2 (nm := nm) (p := [1/2, 1/2, 1/4]) (x := (1/2 + y, v)) (eps2 := eps2) rfl
    (1/2 + t, v) (by dsimp only; linarith) (by dsimp only; linarith) (by dsimp only; linarith) (by dsimp only; linarith)
  rw [troughInfo_eq] at this
  rw [this]
  congr 1
  rw [Bool.and_eq_false_iff]
  left
  by_contra hne
  have hr := ratioLe_mul (mul_nonneg (hE.nonneg' ((exTrough_smooth norm).len 1 0 _ _)) (hE.nonneg' rfl))
    (Bool.eq_true_of_not_eq_false hne)
  simp only [troughDers, sub3, ip, List.getD_cons_zero, List.getD_cons_succ] at hr
  have hty : t ^ 2 ≤ (1/5) ^ 2 := sq_le_sq' (by linarith) (by linarith)
  have hyy : y ^ 2 ≤ (1/5) ^ 2 := sq_le_sq' (by linarith) (by linarith)
  have hvv : (v - 1/2) ^ 2 ≤ (1/10) ^ 2 := sq_le_sq' (by linarith) (by linarith)
  have n1 : nm.norm [1, 0, 2 * (1/2 + t - 1/2)] ≤ 11/10 := hE.norm_le (by norm_num) (by nlinarith)
  have n2 : nm.norm [1/2 + y - 1/2, v - 1/2, (1/2 + y - 1/2) ^ 2 - 1/4] ≤ 1/2 := hE.norm_le (by norm_num) (by
    have e : (1/2 + y - 1/2) ^ 2 = y ^ 2 := by ring
    rw [e]
    have : (y ^ 2 - 1/4) ^ 2 ≤ (1/4) ^ 2 := sq_le_sq' (by linarith [sq_nonneg y]) (by linarith [sq_nonneg y])
    linarith)
  have m0 := mul_nonneg (hE.nonneg 1 0 (2 * (1/2 + t - 1/2))) (hE.nonneg (1/2 + y - 1/2) (v - 1/2) ((1/2 + y - 1/2) ^ 2 - 1/4))
  have m1 := mul_le_mul n1 n2 (hE.nonneg _ _ _) (by norm_num)
  have m2 := mul_le_mul_of_nonneg_right h2 m0
  have e : 1 * (1/2 + y - 1/2) + 0 * (v - 1/2) + 2 * (1/2 + t - 1/2) * ((1/2 + y - 1/2) ^ 2 - 1/4)
      = y + 2 * t * (y ^ 2 - 1/4) := by ring
  rw [e] at hr
  linarith

theorem trough_cond1 {nm : Num ℝ} (hE : Euclidean nm) (norm : List ℝ → ℝ) {eps1 : ℝ} (h1 : eps1 ≤ 1/20) {y v : ℝ}
    (hy : |y| ≤ 1/5) (hv : |v - 1/2| ≤ 1/10) :
    surfCond1 nm (exTrough.like norm) [1/2, 1/2, 1/4] eps1 (1/2 + y) v = .ok false := by
  have hy' := abs_le.1 hy
  have hv' := abs_le.1 hv
  have := (exTrough_smooth norm).cond1 (nm := nm) (p := [1/2, 1/2, 1/4]) (x := (1/2 + y, v)) (eps1 := eps1) rfl
    (by dsimp only; linarith) (by dsimp only; linarith) (by dsimp only; linarith) (by dsimp only; linarith)
  rw [this]
  congr 1
  rw [decide_eq_false_iff_not, not_le]
  refine lt_of_le_of_lt h1 (lt_of_lt_of_le (show (1:ℝ)/20 < 1/10 by norm_num) ?_)
  simp only [troughDers, sub3, List.getD_cons_zero, List.getD_cons_succ]
  refine hE.le_norm ?_
  have hyy : y ^ 2 ≤ (1/5) ^ 2 := sq_le_sq' (by linarith) (by linarith)
  have e : (1/2 + y - 1/2) ^ 2 = y ^ 2 := by ring
  rw [e]
  nlinarith [sq_nonneg (v - 1/2), sq_nonneg y, sq_nonneg (y ^ 2 - 1/4)]

/-- One iteration that no test stops before the limit. -/
theorem trough_loop {nm : Num ℝ} (hE : Euclidean nm) (norm : List ℝ → ℝ) {eps1 eps2 : ℝ} (h1 : eps1 ≤ 1/20)
    (h2 : eps2 ≤ 1/20) {maxIter j : ℤ} {fuel : ℕ} {t z v y : ℝ} (hy0 : troughNext z t = y)
    (ht : |t| ≤ 1/5) (hv : |v - 1/2| ≤ 1/10) (hy : |y| ≤ 1/5) (hs : 1/20 < |y - t|)
    (hc : 1/25 < |y + 2 * t * (y ^ 2 - 1/4)|) :
    surfLoop nm (exTrough.like norm) [1/2, 1/2, 1/4] eps1 eps2 maxIter (fuel + 1) j (1/2 + t) v (troughInfo z)
    = if j ≥ maxIter then .ok (1/2 + y, 1/2) else
      surfLoop nm (exTrough.like norm) [1/2, 1/2, 1/4] eps1 eps2 maxIter fuel (j + 1) (1/2 + y) (1/2) (troughInfo t) := by
  have ht' := abs_le.1 ht
  have hv' := abs_le.1 hv
  conv_lhs => unfold surfLoop
  rw [trough_surfStep hE norm (ht.trans (by norm_num)) ⟨by linarith, by linarith⟩ (by rw [hy0]; exact hy.trans (by norm_num)),
    ok_bind]
  dsimp only
  rw [hy0, vadd_len3 (a := (troughInfo z).du) (b := (troughInfo z).dv) rfl rfl, ok_bind, if_neg]
  · have hi := (exTrough_smooth norm).info (u := 1/2 + t) (v := v) (by linarith) (by linarith) (by linarith) (by linarith)
    rw [troughInfo_eq] at hi
    rw [hi, ok_bind, trough_cond1 hE norm h1 hy (by norm_num), ok_bind, if_neg (by simp),
      trough_cond2 hE norm h2 ht hy (by norm_num) hc, ok_bind, if_neg (by simp)]
  · rw [not_le]
    refine lt_of_le_of_lt h1 (hs.trans_le (hE.le_norm ?_))
    simp only [troughInfo, List.getD_cons_zero, List.getD_cons_succ, sq_abs]
    have e : ((1/2 + y - (1/2 + t)) * 1 + (1/2 - v) * 0) ^ 2 = (y - t) ^ 2 := by ring
    rw [e]
    nlinarith [sq_nonneg ((1/2 + y - (1/2 + t)) * 0 + (1/2 - v) * 1),
      sq_nonneg ((1/2 + y - (1/2 + t)) * (2 * z) + (1/2 - v) * 0)]

/-- Opposite iterates with distances from the foot point in `[7/100, 1/5]` are followed by one on the other side. -/
theorem trough_trap {a b : ℝ} (ha : 7/100 ≤ a ∧ a ≤ 1/5) (hb : 7/100 ≤ b ∧ b ≤ 1/5) :
    1/8 ≤ -troughNext (-a) b ∧ -troughNext (-a) b ≤ 1/5 := by
  have hd := trough_den (-a) b
  have e : -troughNext (-a) b = ((b - 2 * a * (b ^ 2 - 1/4)) - b * (1 + 4 * (-a) ^ 2 + 2 * (b ^ 2 - 1/4))) /
      (1 + 4 * (-a) ^ 2 + 2 * (b ^ 2 - 1/4)) := by
    unfold troughNext
    rw [eq_div_iff hd.ne', neg_mul, sub_mul, div_mul_cancel₀ _ hd.ne']
    ring
  rw [e, le_div_iff₀ hd, div_le_iff₀ hd]
  obtain ⟨a1, a2⟩ := ha
  obtain ⟨b1, b2⟩ := hb
  constructor
  · nlinarith [mul_nonneg (sub_nonneg.2 a1) (sub_nonneg.2 a2), mul_nonneg (sub_nonneg.2 b1) (sub_nonneg.2 b2),
      mul_nonneg (sub_nonneg.2 a1) (sub_nonneg.2 b2), mul_nonneg (sub_nonneg.2 b1) (sub_nonneg.2 a2),
      mul_nonneg (sub_nonneg.2 a1) (sub_nonneg.2 b1), mul_nonneg (sub_nonneg.2 a2) (sub_nonneg.2 b2)]
  · have hA : 0 < 4/5 + 4 * b := by linarith
    have hdisc : 0 ≤ 7/100 - 472/100 * b ^ 2 + 128/10 * b ^ 3 + 28 * b ^ 4 := by
      nlinarith [mul_nonneg (sub_nonneg.2 b1) (sq_nonneg (b - 17/100)), sq_nonneg (b - 17/100), sq_nonneg (b ^ 2 - 29/1000)]
    have key : 0 ≤ 4 * (4/5 + 4 * b) * (1/10 + 4/5 * a ^ 2 + 2/5 * b ^ 2 - a / 2 - b / 2 + 2 * a * b ^ 2 +
        4 * a ^ 2 * b + 2 * b ^ 3) := by
      have e : 4 * (4/5 + 4 * b) * (1/10 + 4/5 * a ^ 2 + 2/5 * b ^ 2 - a / 2 - b / 2 + 2 * a * b ^ 2 +
          4 * a ^ 2 * b + 2 * b ^ 3) = (2 * (4/5 + 4 * b) * a - (1/2 - 2 * b ^ 2)) ^ 2 +
          (7/100 - 472/100 * b ^ 2 + 128/10 * b ^ 3 + 28 * b ^ 4) := by ring
      rw [e]
      exact add_nonneg (sq_nonneg _) hdisc
    have := nonneg_of_mul_nonneg_right key (by linarith)
    linarith [this]

/-- With distances of at least `1/8` the next distance is at least `9/50`. -/
theorem trough_trap' {a b : ℝ} (ha : 1/8 ≤ a ∧ a ≤ 1/5) (hb : 1/8 ≤ b ∧ b ≤ 1/5) : 9/50 ≤ -troughNext (-a) b := by
  have hd := trough_den (-a) b
  have e : -troughNext (-a) b = ((b - 2 * a * (b ^ 2 - 1/4)) - b * (1 + 4 * (-a) ^ 2 + 2 * (b ^ 2 - 1/4))) /
      (1 + 4 * (-a) ^ 2 + 2 * (b ^ 2 - 1/4)) := by
    unfold troughNext
    rw [eq_div_iff hd.ne', neg_mul, sub_mul, div_mul_cancel₀ _ hd.ne']
    ring
  rw [e, le_div_iff₀ hd]
  obtain ⟨a1, a2⟩ := ha
  obtain ⟨b1, b2⟩ := hb
  nlinarith [mul_nonneg (sub_nonneg.2 a1) (sub_nonneg.2 a2), mul_nonneg (sub_nonneg.2 b1) (sub_nonneg.2 b2),
      mul_nonneg (sub_nonneg.2 a1) (sub_nonneg.2 b2), mul_nonneg (sub_nonneg.2 b1) (sub_nonneg.2 a2),
      mul_nonneg (sub_nonneg.2 a1) (sub_nonneg.2 b1), mul_nonneg (sub_nonneg.2 a2) (sub_nonneg.2 b2)]

/-- The run of `surface_inversion` once the iterates are on opposite sides, far from the foot point. -/
theorem trough_inner {nm : Num ℝ} (hE : Euclidean nm) (norm : List ℝ → ℝ) {eps1 eps2 : ℝ} (h1 : eps1 ≤ 1/20)
    (h2 : eps2 ≤ 1/20) {maxIter : ℤ} (fuel : ℕ) : ∀ (j : ℤ) (a b : ℝ) (σ : ℝ), (σ = 1 ∨ σ = -1) →
    (1/8 ≤ a ∧ a ≤ 1/5) → (1/8 ≤ b ∧ b ≤ 1/5) → 1 ≤ fuel → maxIter + 1 - j ≤ fuel →
    ∃ r : ℝ × ℝ, surfLoop nm (exTrough.like norm) [1/2, 1/2, 1/4] eps1 eps2 maxIter fuel j (1/2 + σ * b) (1/2)
      (troughInfo (σ * -a)) = .ok r ∧ r.2 = 1/2 ∧ 9/50 ≤ |r.1 - 1/2| ∧ |r.1 - 1/2| ≤ 1/5 := by
  induction fuel with
  | zero => intro j a b σ _ _ _ h; omega
  | succ fuel ih =>
    intro j a b σ hσ ha hb _ hf
    obtain ⟨-, u2⟩ := trough_trap ⟨le_trans (by norm_num) ha.1, ha.2⟩ ⟨le_trans (by norm_num) hb.1, hb.2⟩
    have u1 := trough_trap' ha hb
    generalize hc : -troughNext (-a) b = c at u1 u2
    have hn : troughNext (σ * -a) (σ * b) = -σ * c := by
      rw [← hc]
      rcases hσ with rfl | rfl
      · ring_nf
      · rw [neg_one_mul, neg_one_mul, troughNext_neg]; ring
    have habs : |σ| = 1 := by rcases hσ with rfl | rfl <;> simp
    have hs2 : σ ^ 2 = 1 := by rcases hσ with rfl | rfl <;> norm_num
    rw [trough_loop hE norm h1 h2 hn]
    · split
      · refine ⟨_, rfl, rfl, ?_⟩
        have : |1/2 + -σ * c - 1/2| = c := by
          rw [show 1/2 + -σ * c - 1/2 = -(σ * c) by ring, abs_neg, abs_mul, habs, one_mul, abs_of_nonneg (by linarith)]
        dsimp only
        rw [this]
        exact ⟨u1, u2⟩
      · have := ih (j + 1) b c (-σ) (by rcases hσ with rfl | rfl <;> simp) hb ⟨le_trans (by norm_num) u1, u2⟩
          (by omega) (by push_cast at hf; omega)
        rwa [show -σ * -b = σ * b by ring] at this
    · rw [abs_mul, habs, one_mul, abs_of_nonneg (by linarith)]; exact hb.2
    · norm_num
    · rw [abs_mul, abs_neg, habs, one_mul, abs_of_nonneg (by linarith)]; exact u2
    · rw [show -σ * c - σ * b = -(σ * (c + b)) by ring, abs_neg, abs_mul, habs, one_mul, abs_of_nonneg (by linarith)]
      linarith
    · rw [show -σ * c + 2 * (σ * b) * ((-σ * c) ^ 2 - 1/4) = -(σ * (c + 2 * b * (1/4 - σ ^ 2 * c ^ 2))) by ring, hs2,
        one_mul, abs_neg, abs_mul, habs, one_mul]
      have : 0 ≤ 2 * b * (1/4 - c ^ 2) := mul_nonneg (by linarith) (by nlinarith)
      rw [abs_of_nonneg (by linarith)]
      linarith

/-- The five steps before. -/
theorem trough_outer {nm : Num ℝ} (hE : Euclidean nm) (norm : List ℝ → ℝ) {eps1 eps2 : ℝ} (h1 : eps1 ≤ 1/20)
    (h2 : eps2 ≤ 1/20) {maxIter : ℤ} (hm : 5 ≤ maxIter) {fuel : ℕ} (hf : maxIter + 1 ≤ fuel) {σ v : ℝ}
    (hσ : σ = 1 ∨ σ = -1) (hv : |v - 1/2| ≤ 1/10) :
    ∃ r : ℝ × ℝ, surfLoop nm (exTrough.like norm) [1/2, 1/2, 1/4] eps1 eps2 maxIter fuel 0 (1/2 + -σ * (1/10)) v
      (troughInfo (-σ * (1/10))) = .ok r ∧ r.2 = 1/2 ∧ 9/50 ≤ |r.1 - 1/2| ∧ |r.1 - 1/2| ≤ 1/5 := by
  obtain ⟨f, rfl⟩ : ∃ f, fuel = f + 1 + 1 + 1 + 1 + 1 := ⟨fuel - 5, by omega⟩
  have habs : |σ| = 1 := by rcases hσ with rfl | rfl <;> simp
  have hs2 : σ ^ 2 = 1 := by rcases hσ with rfl | rfl <;> norm_num
  -- the first three iterates are computed
  rw [trough_loop hE norm h1 h2 (y := -σ * (1/140))
      (by rcases hσ with rfl | rfl <;> norm_num [troughNext]) (by rcases hσ with rfl | rfl <;> norm_num [abs_le]) hv
      (by rcases hσ with rfl | rfl <;> norm_num [abs_le]) (by rcases hσ with rfl | rfl <;> norm_num [lt_abs])
      (by rcases hσ with rfl | rfl <;> norm_num [lt_abs]), if_neg (by omega),
    trough_loop hE norm h1 h2 (y := -σ * (64079/741020))
      (by rcases hσ with rfl | rfl <;> norm_num [troughNext]) (by rcases hσ with rfl | rfl <;> norm_num [abs_le]) (by norm_num)
      (by rcases hσ with rfl | rfl <;> norm_num [abs_le]) (by rcases hσ with rfl | rfl <;> norm_num [lt_abs])
      (by rcases hσ with rfl | rfl <;> norm_num [lt_abs]), if_neg (by omega),
    trough_loop hE norm h1 h2 (y := σ * (1956257951136758/26202432008774945))
      (by rcases hσ with rfl | rfl <;> norm_num [troughNext]) (by rcases hσ with rfl | rfl <;> norm_num [abs_le]) (by norm_num)
      (by rcases hσ with rfl | rfl <;> norm_num [abs_le]) (by rcases hσ with rfl | rfl <;> norm_num [lt_abs])
      (by rcases hσ with rfl | rfl <;> norm_num [lt_abs]), if_neg (by omega)]
  -- the next two are enclosed
  have step : ∀ {σ a b : ℝ} {j : ℤ} {f : ℕ}, (σ = 1 ∨ σ = -1) → j < maxIter → (7/100 ≤ a ∧ a ≤ 1/5) → (7/100 ≤ b ∧ b ≤ 1/5) →
      ∃ c, (1/8 ≤ c ∧ c ≤ 1/5) ∧ surfLoop nm (exTrough.like norm) [1/2, 1/2, 1/4] eps1 eps2 maxIter (f + 1) j (1/2 + σ * b)
        (1/2) (troughInfo (-σ * a)) = surfLoop nm (exTrough.like norm) [1/2, 1/2, 1/4] eps1 eps2 maxIter f (j + 1)
        (1/2 + -σ * c) (1/2) (troughInfo (σ * b)) := by
    intro σ a b j f hσ hj ha hb
    have habs : |σ| = 1 := by rcases hσ with rfl | rfl <;> simp
    have hs2 : σ ^ 2 = 1 := by rcases hσ with rfl | rfl <;> norm_num
    obtain ⟨u1, u2⟩ := trough_trap ha hb
    generalize hc : -troughNext (-a) b = c at u1 u2
    have hn : troughNext (-σ * a) (σ * b) = -σ * c := by
      rw [← hc]
      rcases hσ with rfl | rfl
      · ring_nf
      · rw [show - -1 * a = - -a by ring, neg_one_mul, troughNext_neg]; ring
    refine ⟨c, ⟨u1, u2⟩, ?_⟩
    rw [trough_loop hE norm h1 h2 hn, if_neg (by omega)]
    · rw [abs_mul, habs, one_mul, abs_of_nonneg (by linarith)]; exact hb.2
    · norm_num
    · rw [abs_mul, abs_neg, habs, one_mul, abs_of_nonneg (by linarith)]; exact u2
    · rw [show -σ * c - σ * b = -(σ * (c + b)) by ring, abs_neg, abs_mul, habs, one_mul, abs_of_nonneg (by linarith)]
      linarith
    · rw [show -σ * c + 2 * (σ * b) * ((-σ * c) ^ 2 - 1/4) = -(σ * (c + 2 * b * (1/4 - σ ^ 2 * c ^ 2))) by ring, hs2,
        one_mul, abs_neg, abs_mul, habs, one_mul]
      have : 0 ≤ 2 * b * (1/4 - c ^ 2) := mul_nonneg (by linarith) (by nlinarith)
      rw [abs_of_nonneg (by linarith)]
      linarith
  obtain ⟨c, hc, e⟩ := step (a := 64079/741020) (b := 1956257951136758/26202432008774945) (j := 0 + 1 + 1 + 1) (f := f + 1)
    hσ (by omega) (by norm_num) (by norm_num)
  rw [e]
  have hσ' : -σ = 1 ∨ -σ = -1 := by rcases hσ with rfl | rfl <;> simp
  obtain ⟨d, hd, e⟩ := step (σ := -σ) (a := 1956257951136758/26202432008774945) (b := c) (j := 0 + 1 + 1 + 1 + 1) (f := f)
    hσ' (by omega) (by norm_num) ⟨le_trans (by norm_num) hc.1, hc.2⟩
  rw [neg_neg] at e
  rw [e]
  have := trough_inner hE norm h1 h2 (maxIter := maxIter) f (0 + 1 + 1 + 1 + 1 + 1) c d σ hσ hc hd (by omega) (by push_cast at hf; omega)
  rwa [show σ * -c = -σ * c by ring] at this

end PySpline
