import Verif.Lemmas.IeeeNewton

/-!
# C197: when `curve_inversion` returns in IEEE arithmetic
-/

set_option linter.unusedSectionVars false
set_option exponentiation.threshold 1100

namespace PySpline

open Spec Ext

section
variable {norm : List (Ext ℚ) → Ext ℚ} {eps1 : Ext ℚ} {e2 : ℚ} {point : List ℚ} {C : CurveLike (Ext ℚ)}

private theorem guess_returns (hp : Moderate point) (hC : RegularCurve norm eps1 point C) :
    Returns (initialGuessCurveA (ieeeArith bin64 norm) C (point.map fin)) fun u =>
      ∃ x, u = fin x ∧ bin64 x = fin x ∧ 0 ≤ x ∧ x ≤ 1 := by
  obtain ⟨n1, n2⟩ := hC.num
  obtain ⟨m, hm⟩ : ∃ m, 2 * C.numCtrl = m + 1 := ⟨2 * C.numCtrl - 1, by omega⟩
  have hm1 : 1 ≤ m := by omega
  have hm2 : m ≤ 2 ^ 50 := by
    have : (2 : ℕ) ^ 50 = 2 * 2 ^ 49 := by norm_num
    omega
  have hg : ∀ i : ℕ, i ≤ m → pyGet (gridA (ieeeArith bin64 norm) (m + 1)) i = .ok (fin (vtkParam m i)) := by
    intro i hi
    rw [pyGet_nat _ _ i 0 rfl (by simp [gridA]; omega)]
    unfold gridA
    rw [List.getD_eq_getElem?_getD, List.getElem?_eq_getElem (by simp; omega), Option.getD_some, List.getElem_map,
      List.getElem_range, gridPoint_ieee hm1 hm2 hi]
  have hq : ∀ i : ℕ, i ≤ m → ∃ x, fin (vtkParam m i) = fin x ∧ bin64 x = fin x ∧ 0 ≤ x ∧ x ≤ 1 := fun i hi =>
    ⟨_, rfl, vtkParam_stored hm1 hm2 hi, ((vtk_param hm1 hm2).2.1 i hi).1, ((vtk_param hm1 hm2).2.1 i hi).2⟩
  unfold initialGuessCurveA
  dsimp only
  rw [hm, show (0 : ℤ) = ((0 : ℕ) : ℤ) from rfl, hg 0 (by omega), ok_bind]
  refine Returns.bind (Returns.forN (fun _ (st : Ext ℚ × Ext ℚ) => ∃ x, st.2 = fin x ∧ bin64 x = fin x ∧ 0 ≤ x ∧ x ≤ 1)
    (Nat.zero_le _) (hq 0 (by omega)) ?_) fun st hst => ⟨st.2, rfl, hst⟩
  rintro i ⟨mv, w⟩ - hi hw
  obtain ⟨x, ex, hx, h0, h1⟩ := hq i (by omega)
  obtain ⟨q, _, _, _, _, eq, _, mq, _⟩ := hC.eval x hx h0 h1
  dsimp only
  rw [hg i (by omega), ok_bind, ex, eq, ok_bind, vsubA_ieee hp.1 mq.1, ok_bind]
  split
  · exact ⟨_, rfl, x, rfl, hx, h0, h1⟩
  · exact ⟨_, rfl, hw⟩

private theorem loop_returns (hnorm : BoundedNorm norm) (he2 : 0 ≤ e2) (hp : Moderate point)
    (hC : RegularCurve norm eps1 point C) {maxIter : ℤ} (fuel : ℕ) : ∀ (j : ℤ) (u : ℚ) (d0 d1 d2 : List ℚ),
    maxIter + 2 - j ≤ fuel → 1 ≤ fuel → bin64 u = fin u → 0 ≤ u → u ≤ 1 →
    Moderate d0 → Moderate d1 → Moderate d2 →
    (∃ c, norm (d1.map fin) = fin c ∧ 1 / 2 ^ 500 ≤ c) → (∃ c, norm (diff64 d0 point) = fin c ∧ 1 / 2 ^ 500 ≤ c) →
    curveCond2A (ieeeArith bin64 norm) (point.map fin) (fin e2) ⟨fin u, d0.map fin, d1.map fin, d2.map fin⟩ ≠ .ok true →
    Returns (curveLoopA (ieeeArith bin64 norm) C (point.map fin) eps1 (fin e2) maxIter fuel j
      ⟨fin u, d0.map fin, d1.map fin, d2.map fin⟩) fun w => ∃ x, w = fin x ∧ bin64 x = fin x ∧ 0 ≤ x ∧ x ≤ 1 := by
  induction fuel with
  | zero => intro j u d0 d1 d2 _ h; omega
  | succ fuel ih =>
    intro j u d0 d1 d2 hj _ hu h0 h1 m0 m1 m2 hs hd hc2
    obtain ⟨a, b, ea, eb, x, ex, x0, x1⟩ := newton_step_ieee hnorm he2 m0 m1 m2 hp hs hd hc2
    have hx : bin64 x = fin x := by
      have hA := ieeeArith_stored norm
      exact clamp01E_stored hA.zero hA.one (hA.sub _ _) x ex
    unfold curveLoopA
    dsimp only
    rw [vsubA_ieee m0.1 hp.1, ok_bind, ea, ok_bind, eb, ok_bind]
    rw [show (ieeeArith bin64 norm).norm (d1.map fin) = norm (d1.map fin) from rfl, ex]
    split
    · exact ⟨_, rfl, u, rfl, hu, h0, h1⟩
    obtain ⟨q', d0', d1', d2', rest, eq, ed, mq, m0', m1', m2', hs', hd'⟩ := hC.eval x hx x0 x1
    have hinfo := curveInfoE_rows ed
    have hcond1 : curveCond1A (ieeeArith bin64 norm) C (point.map fin) eps1 (fin x)
        = .ok (le (norm (diff64 q' point)) eps1) := by
      unfold curveCond1A
      rw [eq, ok_bind, vsubA_ieee mq.1 hp.1, ok_bind]
      rfl
    rw [hinfo, ok_bind, hcond1, ok_bind]
    split
    · exact ⟨_, rfl, u, rfl, hu, h0, h1⟩
    rename_i hne
    have hd'' := hd'.resolve_left hne
    obtain ⟨r, er, lr, br⟩ := diff64_bound m0' hp
    obtain ⟨t, et, -⟩ := inner_bound (norm := norm) m1' lr br
    obtain ⟨c, hcnd⟩ : ∃ c, curveCond2A (ieeeArith bin64 norm) (point.map fin) (fin e2)
        ⟨fin x, d0'.map fin, d1'.map fin, d2'.map fin⟩ = .ok c := by
      unfold curveCond2A
      dsimp only
      rw [vsubA_ieee m0'.1 hp.1, ok_bind, er, et, ok_bind]
      exact ⟨_, rfl⟩
    rw [hcnd, ok_bind]
    split
    · exact ⟨_, rfl, u, rfl, hu, h0, h1⟩
    rename_i hcf
    split
    · exact ⟨_, rfl, x, rfl, hx, x0, x1⟩
    · refine ih _ x d0' d1' d2' (by push_cast at hj; omega) (by push_cast at hj; omega) hx x0 x1 m0' m1' m2' hs' hd'' ?_
      rw [hcnd]
      intro h
      cases h
      exact hcf rfl

/-- **C197.** `curve_inversion` in double precision with overflow and underflow returns a double in `[0, 1]`, whatever the
limit of the passes and for every `eps2 ≥ 0`, if at all doubles in `[0, 1]` the curve returns a point and derivatives of size at
most `2^500` and the computed length of the first derivative is at least `2^-500`; `regular_of_same` says for which `eps1`. -/
theorem curve_inversion_returns_binary64 (hnorm : BoundedNorm norm) (he2 : 0 ≤ e2) (hp : Moderate point)
    (hC : RegularCurve norm eps1 point C) {maxIter : ℤ} {fuel : ℕ} (hf : maxIter + 2 ≤ fuel) (hf1 : 1 ≤ fuel) :
    ∃ u, curveInversionA fuel (ieeeArith bin64 norm) C (point.map fin) eps1 (fin e2) maxIter = .ok (fin u) ∧
      bin64 u = fin u ∧ 0 ≤ u ∧ u ≤ 1 := by
  obtain ⟨_, eg, x, rfl, hx, x0, x1⟩ := guess_returns hp hC
  obtain ⟨q', d0', d1', d2', rest, eq, ed, mq, m0', m1', m2', hs', hd'⟩ := hC.eval x hx x0 x1
  have hinfo := curveInfoE_rows ed
  have hcond1 : curveCond1A (ieeeArith bin64 norm) C (point.map fin) eps1 (fin x)
      = .ok (le (norm (diff64 q' point)) eps1) := by
    unfold curveCond1A
    rw [eq, ok_bind, vsubA_ieee mq.1 hp.1, ok_bind]
    rfl
  unfold curveInversionA
  rw [eg, ok_bind, hinfo, ok_bind, hcond1, ok_bind]
  split
  · exact ⟨x, rfl, hx, x0, x1⟩
  rename_i hne
  obtain ⟨r, er, lr, br⟩ := diff64_bound m0' hp
  obtain ⟨t, et, -⟩ := inner_bound (norm := norm) m1' lr br
  obtain ⟨c, hcnd⟩ : ∃ c, curveCond2A (ieeeArith bin64 norm) (point.map fin) (fin e2)
      ⟨fin x, d0'.map fin, d1'.map fin, d2'.map fin⟩ = .ok c := by
    unfold curveCond2A
    dsimp only
    rw [vsubA_ieee m0'.1 hp.1, ok_bind, er, et, ok_bind]
    exact ⟨_, rfl⟩
  rw [hcnd, ok_bind]
  split
  · exact ⟨x, rfl, hx, x0, x1⟩
  rename_i hcf
  obtain ⟨_, e, u, rfl, h⟩ := loop_returns hnorm he2 hp hC fuel 0 x d0' d1' d2' (by omega) hf1 hx x0 x1 m0' m1' m2' hs'
    (hd'.resolve_left hne) (by rw [hcnd]; intro h; cases h; exact hcf rfl) (maxIter := maxIter)
  exact ⟨u, e, h⟩

/-- **C197.** If the zeroth derivative is the point that `single_point` returns, the last condition of `RegularCurve` holds for
every tolerance of at least `2^-500`. -/
theorem regular_of_same (hnorm : BoundedNorm norm) {e1 : ℚ} (he1 : 1 / 2 ^ 500 ≤ e1) (hp : Moderate point)
    (hnum : 1 ≤ C.numCtrl ∧ C.numCtrl ≤ 2 ^ 49)
    (h : ∀ u : ℚ, bin64 u = fin u → 0 ≤ u → u ≤ 1 → ∃ q d1 d2 rest,
      C.singlePoint (fin u) = .ok (q.map fin) ∧ C.ders (fin u) = .ok (q.map fin :: d1.map fin :: d2.map fin :: rest) ∧
      Moderate q ∧ Moderate d1 ∧ Moderate d2 ∧ ∃ c, norm (d1.map fin) = fin c ∧ 1 / 2 ^ 500 ≤ c) :
    RegularCurve norm (fin e1) point C := by
  refine ⟨hnum, fun u hu h0 h1 => ?_⟩
  obtain ⟨q, d1, d2, rest, a1, a2, a3, a4, a5, a6⟩ := h u hu h0 h1
  refine ⟨q, q, d1, d2, rest, a1, a2, a3, a3, a4, a5, a6, ?_⟩
  obtain ⟨r, er, lr, br⟩ := diff64_bound a3 hp
  obtain ⟨c, ec, -, -⟩ := hnorm r lr br
  rw [er, ec]
  rcases le_or_gt c e1 with hle | hlt
  · left
    rcases hle.lt_or_eq with h | h
    · simp [le, lt, h]
    · simp [le, lt, eqv, h]
  · exact Or.inr ⟨c, rfl, he1.trans hlt.le⟩

end

/-- The computed sum of absolute values is a bounded norm. -/
theorem sumNormR_bounded : BoundedNorm (sumNormR bin64) := by
  intro w hw hb
  obtain ⟨x, y, z, rfl⟩ := List.length_eq_three.1 hw
  have hs : ∀ s t : ℚ, 0 ≤ s → s ≤ 2 ^ 504 → |t| ≤ 2 ^ 502 → bin64 (s + |t|) = fin (fl64s (s + |t|)) ∧ 0 ≤ fl64s (s + |t|) ∧
      fl64s (s + |t|) ≤ (s + 2 ^ 502) * (1 + 1 / 2 ^ 52) + 1 := by
    intro s t h0 h1 h2
    have hn : 0 ≤ s + |t| := add_nonneg h0 (abs_nonneg t)
    have hle : s + |t| ≤ 2 ^ 1023 := by
      refine (add_le_add h1 h2).trans ?_
      have e : (2 : ℚ) ^ 504 + 2 ^ 502 ≤ 2 ^ 505 := by norm_num
      exact e.trans (pow_le_pow_right₀ (by norm_num) (by norm_num))
    refine ⟨bin64_le hn hle, fl64s_nonneg hn, ?_⟩
    have he := (abs_le.1 (fl64s_error (s + |t|))).2
    rw [abs_of_nonneg hn] at he
    have ht : (1 : ℚ) / 2 ^ 1074 ≤ 1 := by rw [div_le_one (by positivity)]; exact one_le_pow₀ (by norm_num)
    have : (s + |t|) * (1 + 1 / 2 ^ 52) ≤ (s + 2 ^ 502) * (1 + 1 / 2 ^ 52) :=
      mul_le_mul_of_nonneg_right (add_le_add_right h2 s) (by norm_num)
    linarith
  obtain ⟨e1, n1, b1⟩ := hs 0 x le_rfl (by positivity) (hb _ (by simp))
  set s1 := fl64s (0 + |x|)
  have c1 : s1 ≤ 2 ^ 503 := b1.trans (by norm_num)
  obtain ⟨e2, n2, b2⟩ := hs s1 y n1 (c1.trans (by norm_num)) (hb _ (by simp))
  set s2 := fl64s (s1 + |y|)
  have c2 : s2 ≤ 2 ^ 504 := by
    have : (s1 + 2 ^ 502) * (1 + 1 / 2 ^ 52) ≤ (2 ^ 503 + 2 ^ 502) * (1 + 1 / 2 ^ 52) :=
      mul_le_mul_of_nonneg_right (add_le_add_left c1 _) (by norm_num)
    exact (b2.trans (add_le_add_left this 1)).trans (by norm_num)
  obtain ⟨e3, n3, b3⟩ := hs s2 z n2 c2 (hb _ (by simp))
  refine ⟨_, ?_, n3, ?_⟩
  · change rnd bin64 (rnd bin64 (rnd bin64 (fin (0 + |x|)) + fin |y|) + fin |z|) = _
    have k1 : rnd bin64 (fin (0 + |x|)) = fin s1 := e1
    have k2 : rnd bin64 (fin s1 + fin |y|) = fin s2 := e2
    rw [k1, k2]
    exact e3
  · have : (s2 + 2 ^ 502) * (1 + 1 / 2 ^ 52) ≤ (2 ^ 504 + 2 ^ 502) * (1 + 1 / 2 ^ 52) :=
      mul_le_mul_of_nonneg_right (add_le_add_left c2 _) (by norm_num)
    exact (b3.trans (add_le_add_left this 1)).trans (by norm_num)

/-! ## Concrete cases -/

/-- A curve given by its values: `x` at `u`, `d` as its first derivative, outside `[0, 1]` it raises. -/
def exFormula (x d : ℚ → List ℚ) : CurveLike (Ext ℚ) where
  numCtrl := 2
  singlePoint u := match u with
    | fin u => if 0 ≤ u ∧ u ≤ 1 then .ok ((x u).map fin) else .error .valueError
    | _ => .error .valueError
  ders u := match u with
    | fin u => if 0 ≤ u ∧ u ≤ 1 then .ok [(x u).map fin, (d u).map fin, [0, 0, 0]] else .error .valueError
    | _ => .error .valueError

/-- C197: on the segment from `(0, 1, 0)` to `(1, 1, 0)` the inversion of every moderate point returns a double in `[0, 1]`. -/
example (point : List ℚ) (hp : Moderate point) :
    ∃ u, curveInversionA 102 (ieeeArith bin64 (sumNormR bin64)) (exFormula (fun u => [u, 1, 0]) fun _ => [1, 0, 0])
      (point.map fin) (fin (1 / 10 ^ 5)) (fin (1 / 10 ^ 5)) 100 = .ok (fin u) ∧ bin64 u = fin u ∧ 0 ≤ u ∧ u ≤ 1 := by
  have h500 : (1 : ℚ) ≤ 2 ^ 500 := one_le_pow₀ (by norm_num)
  refine curve_inversion_returns_binary64 sumNormR_bounded (by norm_num) hp (regular_of_same sumNormR_bounded
    (by norm_num) hp (by decide) fun u _ h0 h1 => ⟨[u, 1, 0], [1, 0, 0], [0, 0, 0], [], ?_, ?_, ⟨rfl, ?_⟩,
      ⟨rfl, ?_⟩, ⟨rfl, ?_⟩, 1, by decide +kernel, by norm_num⟩) (by norm_num) (by norm_num)
  · simp [exFormula, h0, h1]
  · simp [exFormula, h0, h1]
    rfl
  · simp only [List.mem_cons, List.not_mem_nil, or_false]
    rintro _ (rfl | rfl | rfl)
    · rw [abs_of_nonneg h0]; exact h1.trans h500
    · rw [abs_one]; exact h500
    · rw [abs_zero]; positivity
  · decide +kernel
  · decide +kernel

/-- C197: on a curve that is constant the inversion of another point raises `ValueError`: the step is `0 / 0`, and `single_point`
rejects NaN. -/
example : curveInversionA 102 (ieeeArith bin64 (sumNormR bin64)) (exFormula (fun _ => [0, 0, 0]) fun _ => [0, 0, 0])
    [1, 0, 0] (fin (1 / 10 ^ 5)) (fin (1 / 10 ^ 5)) 100 = .error .valueError := by decide +kernel

end PySpline
