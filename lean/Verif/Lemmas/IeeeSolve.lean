import Verif.Model.IeeeSolve
import Verif.SpecIeeeSolver
import Verif.Lemmas.IeeeFitAux
import Verif.Lemmas.IeeeDersStep
import Verif.Lemmas.RoundedSolve

/-!
# Lemmas on complete fits in IEEE arithmetic with overflow and underflow
-/

set_option linter.unusedSectionVars false

namespace PySpline

open Spec Ext Finset

/-- Every number below the corank is the corank of an index without the property. -/
theorem corank_surj (F : ℕ → Bool) {n t : ℕ} (h : t < corank F n) : ∃ i < n, F i = false ∧ corank F i = t := by
  induction n with
  | zero => exact absurd h (by simp [corank])
  | succ n ih =>
    unfold corank at h
    cases hF : F n with
    | true =>
      rw [hF, if_pos rfl] at h
      obtain ⟨i, h1, h2⟩ := ih h
      exact ⟨i, by omega, h2⟩
    | false =>
      rw [hF, if_neg (by simp)] at h
      rcases Nat.lt_succ_iff_lt_or_eq.1 h with h | rfl
      · obtain ⟨i, h1, h2⟩ := ih h
        exact ⟨i, by omega, h2⟩
      · exact ⟨n, by omega, hF, rfl⟩

section
variable {K : Type} [Field K] [LinearOrder K] [IsStrictOrderedRing K]

/-! ## The solution and its size -/

/-- The free entries of the solution are not larger than `κ m` times the right-hand side. -/
theorem normal_size {m n : ℕ} {N : ℕ → ℕ → K} {F : ℕ → Bool} {κ D : K} {q x : ℕ → K} (hn : 0 < n)
    (hκ0 : 0 ≤ κ) (hD0 : 0 ≤ D) (hN0 : ∀ r < m, ∀ i < n, 0 ≤ N r i) (hN1 : ∀ r < m, ∑ i ∈ range n, N r i ≤ 1)
    (hκ : ∀ e : ℕ → K, (∀ i < n, F i = true → e i = 0) → ∀ i < n,
      e i ^ 2 ≤ κ * ∑ r ∈ range m, (∑ i ∈ range n, N r i * e i) ^ 2)
    (hx : ∀ e : ℕ → K, (∀ i < n, F i = true → e i = 0) →
      ∑ r ∈ range m, (∑ i ∈ range n, N r i * x i - q r) * ∑ i ∈ range n, N r i * e i = 0)
    (hd : ∀ r < m, |q r - ∑ i ∈ range n, if F i then N r i * x i else 0| ≤ D) :
    ∀ i < n, F i = false → |x i| ≤ κ * m * D := by
  obtain ⟨f, hf⟩ : ∃ f : (ℕ → K) → ℕ → K, ∀ e r, f e r = ∑ i ∈ range n, N r i * e i := ⟨_, fun _ _ => rfl⟩
  obtain ⟨d, hdd⟩ : ∃ d : ℕ → K, ∀ r, d r = q r - ∑ i ∈ range n, if F i then N r i * x i else 0 := ⟨_, fun _ => rfl⟩
  obtain ⟨y, hy⟩ : ∃ y : ℕ → K, ∀ i, y i = if F i then 0 else x i := ⟨_, fun _ => rfl⟩
  simp only [← hf] at hκ hx
  simp only [← hdd] at hd
  have yfree : ∀ i < n, F i = true → y i = 0 := fun i _ h => by rw [hy, if_pos h]
  have hxy : ∀ r, f x r - q r = f y r - d r := fun r => by
    have : f x r = f y r + ∑ i ∈ range n, if F i then N r i * x i else 0 := by
      rw [hf, hf, ← sum_add_distrib]
      refine sum_congr rfl fun i _ => ?_
      rw [hy]
      cases F i <;> simp
    rw [this, hdd]; ring
  simp only [hxy] at hx
  obtain ⟨s, hs, hYmax⟩ := exists_max_abs hn y
  obtain ⟨Y, hY⟩ : ∃ Y, Y = |y s| := ⟨_, rfl⟩
  rw [← hY] at hYmax
  have hY0 : 0 ≤ Y := hY ▸ abs_nonneg _
  have fle : ∀ r < m, |f y r| ≤ Y := by
    intro r hr
    rw [hf]
    refine (abs_sum_le_sum_abs _ _).trans ((sum_le_sum fun i hi => ?_).trans
      ((sum_mul (range n) (fun i => N r i) Y).symm.le.trans ((mul_le_mul_of_nonneg_right (hN1 r hr) hY0).trans (one_mul Y).le)))
    rw [abs_mul, abs_of_nonneg (hN0 r hr i (mem_range.1 hi))]
    exact mul_le_mul_of_nonneg_left (hYmax i (mem_range.1 hi)) (hN0 r hr i (mem_range.1 hi))
  have hm0 : (0 : K) ≤ m := Nat.cast_nonneg m
  have hYle : Y ≤ κ * m * D := by
    refine le_of_sq_le_mul hY0 (by positivity) ?_
    have e1 : ∑ r ∈ range m, f y r ^ 2 = ∑ r ∈ range m, d r * f y r := by
      rw [← sub_eq_zero, ← sum_sub_distrib]
      refine Eq.trans (sum_congr rfl fun r _ => ?_) (hx y yfree)
      ring
    have e2 := hκ y yfree s hs
    rw [← sq_abs, ← hY, e1] at e2
    refine e2.trans ?_
    have e3 : ∑ r ∈ range m, d r * f y r ≤ m * (D * Y) := by
      refine (sum_le_sum fun r hr => ?_).trans (le_of_eq (by rw [sum_const, card_range, nsmul_eq_mul]))
      refine (le_abs_self _).trans ?_
      rw [abs_mul]
      exact mul_le_mul (hd r (mem_range.1 hr)) (fle r (mem_range.1 hr)) (abs_nonneg _) hD0
    exact (mul_le_mul_of_nonneg_left e3 hκ0).trans_eq (by ring)
  intro i hi hF
  have := hYmax i hi
  rw [hy, hF, if_neg (by simp)] at this
  exact this.trans hYle

/-- The solution of a backward stable solver for a system that is off by `ε`. -/
theorem solved_close {ε κ B : K} {ls : ℕ → List (List K) → List K → List K} (hls : BackwardStable ε ls) {m n : ℕ}
    {N : ℕ → ℕ → K} {F : ℕ → Bool} {A : List (List K)} {b : List K} (hA : Shape A m (corank F n)) (hbl : b.length = m)
    (hn : 0 < n) (hε0 : 0 ≤ ε) (hN0 : ∀ r < m, ∀ i < n, 0 ≤ N r i) (hN1 : ∀ r < m, ∑ i ∈ range n, N r i ≤ 1) (hκ0 : 0 ≤ κ)
    (hκ : ∀ e : ℕ → K, (∀ i < n, F i = true → e i = 0) → ∀ i < n,
      e i ^ 2 ≤ κ * ∑ r ∈ range m, (∑ i ∈ range n, N r i * e i) ^ 2)
    (hB0 : 0 ≤ B) (h1 : n * ((2 * m + 1) * ε) ≤ 1) (h2 : 6 * κ * m * (n * ((2 * m + 1) * ε)) ≤ 1) {q x z : ℕ → K}
    (hAN : ∀ r < m, ∀ i < n, F i = false → |at2 A r (corank F i) 0 - N r i| ≤ ε)
    (hd : ∀ r < m, |q r - ∑ i ∈ range n, if F i then N r i * x i else 0| ≤ 2 * B)
    (hb : ∀ r < m, |b.getD r 0 - (q r - ∑ i ∈ range n, if F i then N r i * x i else 0)| ≤ ε * (2 * B))
    (hx : ∀ e : ℕ → K, (∀ i < n, F i = true → e i = 0) →
      ∑ r ∈ range m, (∑ i ∈ range n, N r i * x i - q r) * ∑ i ∈ range n, N r i * e i = 0)
    (hzx : ∀ i < n, F i = true → z i = x i)
    (hz : ∀ i < n, F i = false → z i = (ls (corank F n) A b).getD (corank F i) 0) :
    ∀ i < n, |z i - x i| ≤ 2 * κ * m * (2 * m + 1) * (n * (6 * κ * m + 4) + 2) * ε * B := by
  have hm0 : (0 : K) ≤ m := Nat.cast_nonneg m
  have hn1 : (1 : K) ≤ n := by exact_mod_cast hn
  have hmε : 0 ≤ m * ε := mul_nonneg hm0 hε0
  have hδ : (2 * m + 1) * ε ≤ 1 := by
    have : 1 * ((2 * m + 1) * ε) ≤ n * ((2 * m + 1) * ε) := mul_le_mul_of_nonneg_right hn1 (by positivity)
    linarith
  have hnε : n * ε ≤ 1 := by
    have : n * ε ≤ n * ((2 * m + 1) * ε) := mul_le_mul_of_nonneg_left (by linarith) (by linarith)
    linarith
  have hε1 : ε ≤ 1 := by linarith
  obtain ⟨A', b', hA'l, hA'row, hb'l, hA', hb', hleast⟩ := hls.solves _ A b (by rw [hA.1, hbl]) hA.2
  rw [hbl] at hA'l hb'l hA' hb'
  have hbs : ∀ r < m, |b.getD r 0| ≤ 4 * B := fun r hr' => by
    have h3 := abs_add_le (b.getD r 0 - (q r - ∑ i ∈ range n, if F i then N r i * x i else 0))
      (q r - ∑ i ∈ range n, if F i then N r i * x i else 0)
    rw [sub_add_cancel] at h3
    have h4 : ε * (2 * B) ≤ 1 * (2 * B) := mul_le_mul_of_nonneg_right hε1 (by linarith)
    have := hb r hr'
    have := hd r hr'
    linarith
  have hb'd : ∀ r < m, |b'.getD r 0 - (q r - ∑ i ∈ range n, if F i then N r i * x i else 0)|
      ≤ 2 * ((2 * m + 1) * ε) * B := by
    intro r hr'
    have e1 : ∑ r ∈ range m, |b.getD r 0| ≤ m * (4 * B) := by
      refine (sum_le_sum fun r hr => hbs r (mem_range.1 hr)).trans (le_of_eq ?_)
      rw [sum_const, card_range, nsmul_eq_mul]
    have e2 := (hb' r hr').trans (mul_le_mul_of_nonneg_left e1 hε0)
    have e4 := abs_add_le (b'.getD r 0 - b.getD r 0) (b.getD r 0 - (q r - ∑ i ∈ range n, if F i then N r i * x i else 0))
    rw [sub_add_sub_cancel] at e4
    refine e4.trans ((add_le_add e2 (hb r hr')).trans (le_of_eq (by ring)))
  have hsize : ∑ r ∈ range m, ∑ t ∈ range (corank F n), |(A.getD r []).getD t 0| ≤ m * 2 := by
    refine (sum_le_sum fun r hr => ?_).trans (le_of_eq (by rw [sum_const, card_range, nsmul_eq_mul]))
    have hr' := mem_range.1 hr
    rw [sum_corank F (fun t => |(A.getD r []).getD t 0|)]
    have : ∀ i ∈ range n, (if F i then 0 else |(A.getD r []).getD (corank F i) 0|) ≤ N r i + ε := by
      intro i hi
      have hi := mem_range.1 hi
      have hNi := hN0 r hr' i hi
      cases hFi : F i with
      | true => simp only [if_true]; linarith
      | false =>
        simp only [Bool.false_eq_true, if_false]
        have e1 := hAN r hr' i hi hFi
        have e2 := abs_add_le (at2 A r (corank F i) 0 - N r i) (N r i)
        rw [sub_add_cancel, abs_of_nonneg hNi] at e2
        unfold at2 at e1 e2
        linarith
    refine (sum_le_sum this).trans ?_
    rw [sum_add_distrib, sum_const, card_range, nsmul_eq_mul]
    linarith [hN1 r hr']
  have hA'N : ∀ r < m, ∀ i < n, F i = false → |(A'.getD r []).getD (corank F i) 0 - N r i| ≤ (2 * m + 1) * ε := by
    intro r hr' i hi hFi
    have e1 := (hA' r hr' _ (corank_lt F hi hFi)).trans (mul_le_mul_of_nonneg_left hsize hε0)
    have e3 := hAN r hr' i hi hFi
    unfold at2 at e3
    have e5 := abs_add_le ((A'.getD r []).getD (corank F i) 0 - (A.getD r []).getD (corank F i) 0)
      ((A.getD r []).getD (corank F i) 0 - N r i)
    rw [sub_add_sub_cancel] at e5
    refine e5.trans ((add_le_add e1 e3).trans (le_of_eq (by ring)))
  have hz' : ∀ e : ℕ → K, (∀ i < n, F i = true → e i = 0) →
      ∑ r ∈ range m, (∑ i ∈ range n, (A'.getD r []).getD (corank F i) 0 * (if F i then 0 else z i) - b'.getD r 0)
        * ∑ i ∈ range n, (A'.getD r []).getD (corank F i) 0 * e i = 0 := by
    intro e he
    obtain ⟨v, hv⟩ := exists_corank F e n
    have := normal_of_least (m := m) (F := fun v r => ∑ t ∈ range (corank F n), (A'.getD r []).getD t 0 * v t)
      (d := fun r => b'.getD r 0) (x := fun t => (ls (corank F n) A b).getD t 0) (free := fun _ => True)
      (fun x e s r => by
        rw [mul_sum, ← sum_add_distrib]
        exact sum_congr rfl fun i _ => by ring)
      (fun s e _ => by
        have := hleast fun i => (ls (corank F n) A b).getD i 0 + s * e i
        unfold sqResid at this
        rw [hb'l] at this
        exact this) (e := v) trivial
    refine Eq.trans (sum_congr rfl fun r hr => ?_) this
    rw [sum_corank F (fun t => (A'.getD r []).getD t 0 * v t),
      sum_corank F (fun t => (A'.getD r []).getD t 0 * (ls (corank F n) A b).getD t 0)]
    congr 1
    · congr 1
      refine sum_congr rfl fun i hi => ?_
      have hi := mem_range.1 hi
      cases hFi : F i with
      | true => simp
      | false =>
        simp only [Bool.false_eq_true, if_false]
        rw [hz i hi hFi]
    · refine sum_congr rfl fun i hi => ?_
      have hi := mem_range.1 hi
      cases hFi : F i with
      | true => rw [he i hi hFi]; simp
      | false =>
        simp only [Bool.false_eq_true, if_false]
        rw [hv i hi hFi]
  have hfin := perturbed_normal (F := F) (A := fun r i => (A'.getD r []).getD (corank F i) 0) (z := z)
    (b := fun r => b'.getD r 0) (q := q) (D := 2 * B) (β := 2 * ((2 * m + 1) * ε) * B) hn hκ0
    (by positivity : 0 ≤ (2 * m + 1) * ε) (by positivity) (by positivity) hN0 hN1 hκ
    hzx hx hz' hA'N hb'd hd h1 h2
  intro i hi
  refine (hfin i hi).trans ?_
  have hβ : 2 * ((2 * m + 1) * ε) * B ≤ 2 * B := by
    have := mul_le_mul_of_nonneg_right hδ hB0
    linarith
  have e1 : n * ((2 * m + 1) * ε) * (3 * (κ * m * (2 * B)) + 2 * B + 2 * ((2 * m + 1) * ε) * B)
      ≤ n * ((2 * m + 1) * ε) * (3 * (κ * m * (2 * B)) + 2 * B + 2 * B) :=
    mul_le_mul_of_nonneg_left (by linarith) (by positivity)
  refine (mul_le_mul_of_nonneg_left (add_le_add_left e1 _) (by positivity)).trans (le_of_eq ?_)
  ring

/-! ## `linear_fit_fixed` -/

theorem setColumnE_nat {m : List (List (Ext K))} {r c : ℕ} (h : Shape m r c) (i : ℤ) (k : ℕ) (v : List (Ext K))
    (hi : i = k) (hk : k < c) (hv : v.length = r) :
    ∃ m', setColumnE m i v = .ok m' ∧ Shape m' r c ∧
      ∀ x < r, ∀ y, at2 m' x y 0 = if y = k then v.getD x 0 else at2 m x y 0 := by
  have hz : ∀ rx ∈ m.zip v, rx.1.length = c := fun rx hrx => h.2 _ (List.of_mem_zip hrx).1
  refine ⟨(m.zip v).map fun rx => rx.1.set k rx.2, ?_, ⟨?_, ?_⟩, ?_⟩
  · unfold setColumnE
    rw [if_pos (by rw [hv, h.1])]
    exact mapPy_eq_ok _ _ _ fun rx hrx => pySet_nat _ _ _ _ hi (by rw [hz rx hrx]; exact hk)
  · simp [h.1, hv]
  · intro row hrow
    obtain ⟨rx, hrx, rfl⟩ := List.mem_map.1 hrow
    rw [List.length_set, hz rx hrx]
  · intro x hx y
    have h1 : x < m.length := by rw [h.1]; exact hx
    have h2 : x < v.length := by rw [hv]; exact hx
    unfold at2
    have e : ((m.zip v).map fun rx : List (Ext K) × Ext K => rx.1.set k rx.2).getD x []
        = (m.getD x []).set k (v.getD x 0) := by
      simp [List.getD_eq_getElem?_getD, h1, h2]
    rw [e, getD_set _ _ _ _ _ (by rw [h.row hx]; exact hk)]

/-- What is subtracted from the data: the fixed columns, added one after the other. -/
def fixedSumR (rd : K → Ext K) (F : ℕ → Bool) (R P : ℕ → Ext K) : ℕ → Ext K
  | 0 => 0
  | i + 1 => if F i then rnd rd (fixedSumR rd F R P i + rnd rd (R i * P i)) else fixedSumR rd F R P i

/-- `linear_fit_fixed` in IEEE arithmetic passes the columns of the free entries to the solver, and the data without the
fixed entries. -/
theorem linearFitFixedR_returns {rd : K → Ext K} {ls : ℕ → List (List (Ext K)) → List (Ext K) → Py (List (Ext K))}
    {R : List (List (Ext K))} {Q P : List (Ext K)} {fixed : List Bool} (hR : Shape R Q.length P.length)
    (hf : fixed.length = P.length) (Ψ : List (Ext K) → Prop)
    (hls : ∀ Rfree b, Shape Rfree Q.length (corank (fun i => fixed.getD i false) P.length) → b.length = Q.length →
      (∀ j < P.length, fixed.getD j false = false → ∀ r < Q.length,
        at2 Rfree r (corank (fun i => fixed.getD i false) j) 0 = at2 R r j 0) →
      (∀ r < Q.length, b.getD r 0 = rnd rd (Q.getD r 0
        - fixedSumR rd (fun i => fixed.getD i false) (fun j => at2 R r j 0) (fun j => P.getD j 0) P.length)) →
      Returns (ls (corank (fun i => fixed.getD i false) P.length) Rfree b) fun y =>
        y.length = corank (fun i => fixed.getD i false) P.length ∧ Ψ y) :
    Returns (linearFitFixedR rd ls R Q P fixed) fun x => x.length = P.length ∧
      (∀ i < P.length, fixed.getD i false = true → x.getD i 0 = P.getD i 0) ∧
      ((∀ i < P.length, fixed.getD i false = true) ∨ ∃ y, Ψ y ∧ ∀ i < P.length, fixed.getD i false = false →
        x.getD i 0 = y.getD (corank (fun i => fixed.getD i false) i) 0) := by
  obtain ⟨n, hn⟩ : ∃ n, P.length = n := ⟨_, rfl⟩
  obtain ⟨m, hm⟩ : ∃ m, Q.length = m := ⟨_, rfl⟩
  set F : ℕ → Bool := fun i => fixed.getD i false with hF
  have hget : ∀ i : ℕ, i < n → pyGet fixed (i : ℤ) = .ok (F i) := fun i hi =>
    pyGet_nat _ _ _ _ rfl (by omega)
  have hgetP : ∀ i : ℕ, i < n → pyGet P (i : ℤ) = .ok (P.getD i 0) := fun i hi =>
    pyGet_nat _ _ _ _ rfl (by omega)
  unfold linearFitFixedR
  rw [hn, hm] at hR hls ⊢
  refine Returns.bind (Returns.forN (fun i (c : ℕ) => c = rank F i) (by omega) rfl ?_) ?_
  · rintro i c - hi rfl
    rw [hget i hi, ok_bind]
    refine Returns.ok ?_
    conv_rhs => unfold rank
  rintro _ rfl
  have hsum := rank_add_corank F n
  split
  · rename_i hall
    refine Returns.ok ⟨hn, fun i _ _ => rfl, Or.inl fun i hi => ?_⟩
    by_contra hne
    have hlt := corank_lt F hi (Bool.eq_false_iff.2 hne)
    omega
  have hfree : n - rank F n = corank F n := by omega
  dsimp only
  rw [hfree]
  refine Returns.bind (Returns.forN (fun i (st : List (List (Ext K)) × List (List (Ext K)) × List (Ext K) × ℕ × ℕ) =>
      Shape st.1 m (corank F n) ∧ Shape st.2.1 m (rank F n) ∧ st.2.2.1.length = m ∧
      st.2.2.2.1 = rank F i ∧ st.2.2.2.2 = corank F i ∧
      (∀ j < i, F j = false → ∀ r < m, at2 st.1 r (corank F j) 0 = at2 R r j 0) ∧
      ∀ r < m, st.2.2.1.getD r 0 = fixedSumR rd F (fun j => at2 R r j 0) (fun j => P.getD j 0) i)
    (by omega) ?_ ?_) ?_
  · refine ⟨shape_replicate _ _ _, shape_replicate _ _ _, by simp, rfl, rfl,
      fun j hj => absurd hj (by omega), fun r hr => ?_⟩
    simp [List.getD_eq_getElem?_getD, hr, fixedSumR]
  · rintro i ⟨Rfree, Rfixed, Qfixed, j, k⟩ - hi ⟨h1, h2, h3, h4, h5, h6, h7⟩
    dsimp only at h1 h2 h3 h4 h5 h6 h7 ⊢
    subst h4 h5
    rw [hget i hi, ok_bind, columnE_nat hR i i rfl hi, ok_bind]
    have hcl : (R.map fun row => row.getD i 0).length = m := by simp [hR.1]
    by_cases hFi : F i = true
    · rw [if_pos hFi]
      obtain ⟨m', e, hs, -⟩ := setColumnE_nat h2 (rank F i : ℤ) (rank F i) _ rfl (rank_lt F hi hFi) hcl
      rw [e, ok_bind, hgetP i hi, ok_bind]
      unfold vaddE
      rw [if_pos (by rw [h3]; simp [hR.1]), ok_bind]
      refine Returns.ok ⟨h1, hs, ?_, ?_, ?_, ?_, ?_⟩
      · simp [h3, hR.1]
      · conv_rhs => unfold rank
        rw [if_pos hFi]
      · conv_rhs => unfold corank
        rw [if_pos hFi]
      · intro j hj hFj r hr
        rcases Nat.lt_succ_iff_lt_or_eq.1 hj with hj | rfl
        · exact h6 j hj hFj r hr
        · rw [hFi] at hFj; cases hFj
      · intro r hr
        rw [fixedSumR, ← h7 r hr, if_pos hFi, ← getD_map_rowE R r i]
        have l1 : r < Qfixed.length := by omega
        have l2 : r < R.length := by rw [hR.1]; exact hr
        simp [List.getD_eq_getElem?_getD, l1, l2]
    · rw [if_neg hFi]
      have hFi' : F i = false := by simpa using hFi
      obtain ⟨m', e, hs, hat⟩ := setColumnE_nat h1 (corank F i : ℤ) (corank F i) _ rfl
        (corank_lt F hi hFi') hcl
      rw [e, ok_bind]
      refine Returns.ok ⟨hs, h2, h3, ?_, ?_, ?_, ?_⟩
      · conv_rhs => unfold rank
        rw [if_neg hFi]
      · conv_rhs => unfold corank
        rw [if_neg hFi]
      · intro j hj hFj r hr
        rw [hat r hr]
        rcases Nat.lt_succ_iff_lt_or_eq.1 hj with hj | rfl
        · have := corank_lt F hj hFj
          rw [if_neg (by omega)]
          exact h6 j hj hFj r hr
        · rw [if_pos rfl, getD_map_rowE]
      · intro r hr
        rw [fixedSumR, ← h7 r hr, if_neg hFi]
  rintro ⟨Rfree, Rfixed, Qfixed, j, k⟩ ⟨h1, -, h3, -, -, h6, h7⟩
  dsimp only at h1 h3 h6 h7 ⊢
  unfold vsubE
  rw [if_pos (by rw [hm, h3]), ok_bind]
  set b := (List.zipWith (· - ·) Q Qfixed).map (rnd rd) with hb
  have hbl : b.length = m := by simp [hb, hm, h3]
  have hbr : ∀ r < m, b.getD r 0 = rnd rd (Q.getD r 0
      - fixedSumR rd F (fun j => at2 R r j 0) (fun j => P.getD j 0) n) := by
    intro r hr
    rw [← h7 r hr]
    have l1 : r < Q.length := by omega
    have l2 : r < Qfixed.length := by omega
    simp [hb, List.getD_eq_getElem?_getD, l1, l2]
  refine Returns.bind (hls Rfree b h1 hbl h6 hbr) ?_
  rintro y ⟨hyl, hy⟩
  refine Returns.bind (Returns.forN (fun i (st : List (Ext K) × ℕ) =>
      st.1.length = n ∧ st.2 = corank F i ∧
      ∀ j < i, st.1.getD j 0 = if F j then P.getD j 0 else y.getD (corank F j) 0) (by omega) ?_ ?_) ?_
  · exact ⟨by simp, rfl, fun j hj => absurd hj (by omega)⟩
  · rintro i ⟨full, j⟩ - hi ⟨g1, g2, g3⟩
    dsimp only at g1 g2 g3 ⊢
    subst g2
    rw [hget i hi, ok_bind]
    by_cases hFi : F i = true
    · rw [if_pos hFi, hgetP i hi, ok_bind, pySet_nat _ _ i _ rfl (by omega), ok_bind]
      refine Returns.ok ⟨by simp [g1], ?_, fun j hj => ?_⟩
      · conv_rhs => unfold corank
        rw [if_pos hFi]
      · rw [getD_set _ _ _ _ _ (by omega)]
        by_cases h : j = i
        · subst h; rw [if_pos rfl, if_pos hFi]
        · rw [if_neg h]; exact g3 j (by omega)
    · have hFi' : F i = false := by simpa using hFi
      rw [if_neg hFi, pyGet_nat y _ (corank F i) 0 rfl (by rw [hyl]; exact corank_lt F hi hFi'),
        ok_bind, pySet_nat _ _ i _ rfl (by omega), ok_bind]
      refine Returns.ok ⟨by simp [g1], ?_, fun j hj => ?_⟩
      · conv_rhs => unfold corank
        rw [if_neg hFi]
      · rw [getD_set _ _ _ _ _ (by omega)]
        by_cases h : j = i
        · subst h; rw [if_pos rfl, if_neg hFi]
        · rw [if_neg h]; exact g3 j (by omega)
  rintro ⟨full, j⟩ ⟨g1, -, g3⟩
  dsimp only at g1 g3
  refine Returns.ok ⟨g1, fun i hi hFi => ?_, Or.inr ⟨y, hy, fun i hi hFi => ?_⟩⟩
  · rw [g3 i hi, if_pos hFi]
  · rw [g3 i hi, if_neg (by rw [hF]; dsimp only; rw [hFi]; simp)]

end

end PySpline
