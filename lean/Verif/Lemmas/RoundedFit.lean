import Verif.Model.RoundedFit
import Verif.Lemmas.Rounded
import Verif.Lemmas.OneBasis
import Verif.Props.Fitting

/-!
# Error propagation in the matrix of the fits
-/

set_option linter.unusedSectionVars false

namespace PySpline

open Polynomial Spec

section
variable {K : Type} [Field K] [LinearOrder K] [IsStrictOrderedRing K]

namespace Near
variable {ρ : K} {k l : ℕ} {a b c d : K}

theorem zero_iff (h0 : 0 < ρ) (h : Near ρ k a b) : a = 0 ↔ b = 0 := by
  constructor
  · intro ha
    have h1 := h.2.1
    rw [ha] at h1
    have h2 := mul_nonneg h.1 (pow_pos h0 k).le
    rcases mul_eq_zero.1 (le_antisymm h1 h2) with h | h
    · exact h
    · exact absurd h (pow_pos h0 k).ne'
  · intro hb
    have h1 := h.2.2
    rw [hb] at h1
    have h2 := h.nonneg h0
    have h3 : a * ρ ^ k = 0 := le_antisymm h1 (mul_nonneg h2 (pow_pos h0 k).le)
    rcases mul_eq_zero.1 h3 with h | h
    · exact h
    · exact absurd h (pow_pos h0 k).ne'

theorem zero (k : ℕ) : Near ρ k (0 : K) 0 := by simp [Near]

end Near

/-- The first term of the recursion in rounded arithmetic. -/
theorem savedFl_near {ρ : K} {fl : K → K} (hf : Accurate ρ fl) {U : List K}
    (hU : Monotone (knotFn U)) {i k m : ℕ} {u : K} (hik : i + k < U.length)
    (hk : 1 ≤ k) {n0 : K} (hn0 : Near ρ m n0 (N (knotFn U) (k - 1) i u)) (iz ikz : ℤ) (h1 : iz = i)
    (h2 : ikz = (i + k : ℕ)) :
    Returns (if n0 ≠ 0 then (do
        let a ← pyGet U iz
        let b ← pyGet U ikz
        pyDivFl fl (fl (fl (u - a) * n0)) (fl (b - a)))
      else .ok 0 : Py K) fun saved =>
    Near ρ (m + 4) saved
      ((u - knotFn U i) / (knotFn U (i + k) - knotFn U i) * N (knotFn U) (k - 1) i u) := by
  have p0 := hf.pos
  have p1 := hf.le_one
  by_cases h : n0 = 0
  · rw [if_neg (by simpa using h), (hn0.zero_iff p0).1 h, mul_zero]
    exact Returns.ok (Near.zero _)
  · rw [if_pos h, pyGet_knot U _ i h1 (by omega), ok_bind, pyGet_knot U _ (i + k) h2 hik, ok_bind]
    obtain ⟨a, b⟩ := N_support hU (mt (hn0.zero_iff p0).2 h)
    have e : i + (k - 1) + 1 = i + k := by omega
    rw [e] at b
    have d0 : 0 < knotFn U (i + k) - knotFn U i := by linarith
    have n1 := (Near.refl p0 p1 0 (sub_nonneg.2 a)).fl hf
    have n2 := (Near.refl p0 p1 0 d0.le).fl hf
    have n3 := (((n1.mul p0 hn0).fl hf).div p0 n2 d0).fl hf
    unfold pyDivFl
    rw [pyDiv_ok (n2.pos p0 d0).ne', ok_bind]
    refine Returns.ok ?_
    have n4 := n3.mono p0 p1 (l := m + 4) (by omega)
    refine (congrArg (Near ρ (m + 4) _) ?_).mp n4
    ring

/-- `one_basis_function` in rounded arithmetic: the exact value up to `5 p` roundings. -/
theorem oneBasisFunctionFl_near {ρ : K} {fl : K → K} (hf : Accurate ρ fl) {U : List K}
    (hU : Monotone (knotFn U)) {p i : ℕ} (u : K) (hi : i + p + 1 < U.length) :
    Returns (oneBasisFunctionFl fl p U i u) fun x => Near ρ (5 * p) x
      (if (i = 0 ∧ u = knotFn U 0) ∨
          ((i : ℤ) = (U.length : ℤ) - p - 2 ∧ u = knotFn U (U.length - 1)) then 1
        else N (knotFn U) p i u) := by
  have p0 := hf.pos
  have p1 := hf.le_one
  unfold oneBasisFunctionFl
  set V := knotFn U with hV
  rw [pyGet_knot U 0 0 rfl (by omega), ok_bind,
    pyGet_knot U _ (U.length - 1) (by omega) (by omega), ok_bind]
  rw [← hV]
  by_cases hsp : (i = 0 ∧ u = V 0) ∨ ((i : ℤ) = (U.length : ℤ) - p - 2 ∧ u = V (U.length - 1))
  · rw [if_pos hsp, if_pos hsp]; exact Returns.ok (Near.refl p0 p1 _ zero_le_one)
  rw [if_neg hsp, if_neg hsp]
  refine Returns.bind (P := (· = knotFn U i))
    (Returns.of_eq (pyGet_knot U _ i rfl (by omega)) rfl) ?_
  rintro _ rfl
  by_cases hlo : u < knotFn U i
  · rw [if_pos hlo, N_zero_of_not_support hU (Or.inl hlo)]; exact Returns.ok (Near.zero _)
  rw [if_neg hlo, pyGet_knot U _ (i + p + 1) (by push_cast; rfl) hi, ok_bind]
  by_cases hhi : u > knotFn U (i + p + 1)
  · rw [if_pos hhi, N_zero_of_not_support hU (Or.inr hhi.le)]; exact Returns.ok (Near.zero _)
  rw [if_neg hhi]
  dsimp only
  refine Returns.bind (Returns.forN (fun j N' => N'.length = i + p + 1 ∧
    (∀ x < j, N'.getD x 0 = N V 0 (i + x) u) ∧ (∀ x, j ≤ x → N'.getD x 0 = 0)) (by omega) ?_ ?_) ?_
  · refine ⟨by simp [zeros], by intro x hx; omega, ?_⟩
    intro x _
    simp [zeros, List.getD_eq_getElem?_getD, List.getElem?_replicate]
    split <;> rfl
  · rintro j N' - hj ⟨h1, h2, h3⟩
    rw [pyGet_knot U _ (i + j) (by push_cast; rfl) (by omega), ok_bind,
      pyGet_knot U _ (i + j + 1) (by push_cast; rfl) (by omega), ok_bind]
    by_cases hc : V (i + j) ≤ u ∧ u < V (i + j + 1)
    · rw [if_pos hc, pySet_nat N' _ j _ rfl (by omega)]
      refine Returns.ok ⟨by simp [h1], ?_, ?_⟩
      · intro x hx
        rw [getD_set _ _ _ _ _ (by omega)]
        by_cases hxj : x = j
        · subst hxj; rw [if_pos rfl]; unfold N; rw [if_pos hc]
        · rw [if_neg hxj]; exact h2 x (by omega)
      · intro x hx
        rw [getD_set _ _ _ _ _ (by omega), if_neg (by omega)]; exact h3 x (by omega)
    · rw [if_neg hc]
      refine Returns.ok ⟨h1, ?_, fun x hx => h3 x (by omega)⟩
      intro x hx
      by_cases hxj : x = j
      · subst hxj; rw [h3 x le_rfl]; unfold N; rw [if_neg hc]
      · exact h2 x (by omega)
  rintro N0 ⟨hlen, hN0, -⟩
  refine Returns.bind (Returns.forN (fun k N' => N'.length = i + p + 1 ∧
    (∀ x, x + (k - 1) ≤ p → Near ρ (5 * (k - 1)) (N'.getD x 0) (N V (k - 1) (i + x) u)))
    (by omega) ?_ ?_) ?_
  · refine ⟨hlen, fun x hx => ?_⟩
    rw [hN0 x (by omega)]
    exact Near.refl p0 p1 _ (N_nonneg hU _ _ _)
  · rintro k N' hk1 hk2 ⟨h1, h2⟩
    rw [pyGet_nat N' 0 0 0 rfl (by omega), ok_bind]
    refine Returns.bind (savedFl_near hf hU (i := i) (k := k) (by omega) hk1 (h2 0 (by omega)) _ _ rfl
        (by push_cast; rfl)) ?_
    intro saved hsaved
    refine Returns.bind (Returns.forN (fun j st => st.1.length = i + p + 1 ∧
      (∀ x < j, Near ρ (5 * k) (st.1.getD x 0) (N V k (i + x) u)) ∧
      (∀ x, j ≤ x → x + (k - 1) ≤ p → Near ρ (5 * (k - 1)) (st.1.getD x 0) (N V (k - 1) (i + x) u)) ∧
      Near ρ (5 * (k - 1) + 4) st.2
        ((u - V (i + j)) / (V (i + j + k) - V (i + j)) * N V (k - 1) (i + j) u))
      (by omega) ?_ ?_) ?_
    · exact ⟨h1, by intro x hx; omega, fun x _ hx => h2 x hx, hsaved⟩
    · rintro j ⟨N', saved⟩ - hj ⟨g1, g2, g3, g4⟩
      simp only at g1 g2 g3 g4 ⊢
      have n1 := g3 (j + 1) (by omega) (by omega)
      rw [pyGet_knot U _ (i + j + 1) (by push_cast; rfl) (by omega), ok_bind,
        pyGet_knot U _ (i + j + k + 1) (by push_cast; rfl) (by omega), ok_bind,
        pyGet_nat N' _ (j + 1) 0 (by push_cast; rfl) (by omega), ok_bind, ← hV]
      obtain ⟨q, rfl⟩ : ∃ q, k = q + 1 := ⟨k - 1, by omega⟩
      simp only [Nat.add_sub_cancel] at g3 g4 n1 ⊢
      have hN : N V (q + 1) (i + j) u
          = (u - V (i + j)) / (V (i + j + (q + 1)) - V (i + j)) * N V q (i + j) u
            + (V (i + j + (q + 1) + 1) - u) / (V (i + j + (q + 1) + 1) - V (i + j + 1))
            * N V q (i + (j + 1)) u := by
        have e1 : i + j + (q + 1) = i + j + q + 1 := by omega
        have e2 : i + (j + 1) = i + j + 1 := by omega
        rw [e1, e2]
        show N V (q + 1) (i + j) u = _
        rw [N]
      by_cases hz : N'.getD (j + 1) 0 = 0
      · have hz' := (n1.zero_iff p0).1 hz
        rw [if_pos hz, pySet_nat N' _ j _ rfl (by omega), ok_bind]
        refine Returns.ok ⟨by simp [g1], ?_, ?_, ?_⟩
        · intro x hx
          show Near ρ _ ((N'.set j saved).getD x 0) _
          rw [getD_set _ _ _ _ _ (by omega)]
          by_cases hxj : x = j
          · subst hxj
            rw [if_pos rfl, hN, hz', mul_zero, add_zero]
            exact g4.mono p0 p1 (by omega)
          · rw [if_neg hxj]; exact g2 x (by omega)
        · intro x hx1 hx2
          show Near ρ _ ((N'.set j saved).getD x 0) _
          rw [getD_set _ _ _ _ _ (by omega), if_neg (by omega)]; exact g3 x (by omega) hx2
        · show Near ρ _ (0 : K) _
          rw [hz', mul_zero]; exact Near.zero _
      · rw [if_neg hz]
        obtain ⟨a, b⟩ := N_support hU (mt (n1.zero_iff p0).2 hz)
        have e1 : i + (j + 1) + q + 1 = i + j + (q + 1) + 1 := by omega
        have e2 : i + (j + 1) = i + j + 1 := by omega
        rw [e1] at b
        rw [e2] at a
        have d0 : 0 < V (i + j + (q + 1) + 1) - V (i + j + 1) := by linarith
        have n2 := (Near.refl p0 p1 0 d0.le).fl hf
        have n3 := (n1.div p0 n2 d0).fl hf
        have n4 := (Near.refl p0 p1 0 (sub_nonneg.2 b.le)).fl hf
        have n5 := (Near.refl p0 p1 0 (sub_nonneg.2 a)).fl hf
        have n6 := (n4.mul p0 n3).fl hf
        have n7 := (n5.mul p0 n3).fl hf
        unfold pyDivFl
        rw [pyDiv_ok (n2.pos p0 d0).ne', ok_bind, ok_bind, pySet_nat N' _ j _ rfl (by omega), ok_bind]
        refine Returns.ok ⟨by simp [g1], ?_, ?_, ?_⟩
        · intro x hx
          show Near ρ _ ((N'.set j _).getD x 0) _
          rw [getD_set _ _ _ _ _ (by omega)]
          by_cases hxj : x = j
          · subst hxj
            rw [if_pos rfl, hN]
            have n8 := ((g4.add (n6.mono p0 p1 (l := 5 * q + 4) (by omega))).fl hf).mono p0 p1
              (l := 5 * (q + 1)) (by omega)
            refine (congrArg (Near ρ (5 * (q + 1)) _) ?_).mp n8
            ring
          · rw [if_neg hxj]; exact g2 x (by omega)
        · intro x hx1 hx2
          show Near ρ _ ((N'.set j _).getD x 0) _
          rw [getD_set _ _ _ _ _ (by omega), if_neg (by omega)]; exact g3 x (by omega) hx2
        · have e3 : i + (j + 1) + (q + 1) = i + j + (q + 1) + 1 := by omega
          have n8 := n7.mono p0 p1 (l := 5 * q + 4) (by omega)
          refine (congrArg (Near ρ (5 * q + 4) _) ?_).mp n8
          rw [e3, e2]
          ring
    · rintro ⟨N', saved⟩ ⟨g1, g2, -, -⟩
      exact Returns.ok ⟨g1, fun x hx => g2 x (by simp at hx; omega)⟩
  rintro N' ⟨h1, h2⟩
  rw [pyGet_nat N' 0 0 0 rfl (by omega)]
  exact Returns.ok (h2 0 (by simp))

/-! ## The matrices -/

theorem curveMatrixFl_spec {fl : K → K} {c : Curve K} {data : List (List K)} {m n : ℕ} (B : ℕ → ℕ → K)
    (hd : Shape data m 4) (hn : c.ctrlpts.length = n)
    (hB : ∀ r < m, ∀ i < n, oneBasisFunctionFl fl c.degree c.kv i (at2 data r 3 0) = .ok (B r i)) :
    Returns (curveMatrixFl fl c data) fun M =>
      Shape M m n ∧ ∀ r < m, ∀ i < n, at2 M r i 0 = B r i := by
  unfold curveMatrixFl
  rw [column_last hd, ok_bind, hn, hd.1]
  dsimp only
  have hl : (data.map fun row => row.getD 3 0).length = m := by simp [hd.1]
  rw [hl]
  refine Returns.bind (Returns.forN (fun r (st : List (List K) × ℕ) => Shape st.1 m n ∧ st.2 = r ∧
    ∀ x < r, ∀ i < n, at2 st.1 x i 0 = B x i) (Nat.zero_le _) ?_ ?_) ?_
  · exact ⟨shape_replicate _ _ _, rfl, fun x hx => absurd hx (by omega)⟩
  · rintro r ⟨M, row⟩ - hr ⟨h1, h2, h3⟩
    dsimp only at h1 h2 h3 ⊢
    subst h2
    refine Returns.bind (Returns.forN (fun i (st : List (List K) × ℕ) => Shape st.1 m n ∧ st.2 = i ∧
      (∀ x < row, ∀ i < n, at2 st.1 x i 0 = B x i) ∧ ∀ j < i, at2 st.1 row j 0 = B row j)
      (Nat.zero_le _) ?_ ?_) ?_
    · exact ⟨h1, rfl, h3, fun j hj => absurd hj (by omega)⟩
    · rintro i ⟨M', col⟩ - hi ⟨g1, g2, g3, g4⟩
      dsimp only at g1 g2 g3 g4 ⊢
      subst g2
      rw [pyGet_nat _ _ row 0 rfl (by omega), ok_bind, getD_map_row data row 3, hB row hr col hi,
        ok_bind]
      obtain ⟨M'', e, hs, hat⟩ := set2_nat g1 (row : ℤ) (col : ℤ) row col (B row col) 0 rfl rfl hr hi
      rw [e, ok_bind]
      refine Returns.ok ⟨hs, rfl, fun x hx i hi => ?_, fun j hj => ?_⟩
      · rw [hat, if_neg (by omega)]; exact g3 x hx i hi
      · rw [hat]
        by_cases e : j = col
        · subst e; rw [if_pos ⟨rfl, rfl⟩]
        · rw [if_neg (by omega)]; exact g4 j (by omega)
    · rintro ⟨M', col⟩ ⟨g1, -, g3, g4⟩
      refine Returns.ok ⟨g1, rfl, fun x hx i hi => ?_⟩
      rcases Nat.lt_succ_iff_lt_or_eq.1 hx with hx | rfl
      · exact g3 x hx i hi
      · exact g4 i hi
  · rintro ⟨M, row⟩ ⟨h1, -, h3⟩
    exact Returns.ok ⟨h1, h3⟩

theorem surfaceMatrixFl_spec {fl : K → K} {s : Surface K} {data : List (List K)} {m : ℕ} (A B : ℕ → ℕ → K)
    (hd : Shape data m 5) (hn : s.ctrlpts.length = s.numU * s.numV)
    (hA : ∀ r < m, ∀ i < s.numU, oneBasisFunctionFl fl s.degreeU s.kvU i (at2 data r 3 0) = .ok (A r i))
    (hB : ∀ r < m, ∀ j < s.numV, oneBasisFunctionFl fl s.degreeV s.kvV j (at2 data r 4 0) = .ok (B r j)) :
    Returns (surfaceMatrixFl fl s data) fun M => Shape M m (s.numU * s.numV) ∧
      ∀ r < m, ∀ i < s.numU, ∀ j < s.numV, at2 M r (i * s.numV + j) 0 = fl (A r i * B r j) := by
  unfold surfaceMatrixFl
  rw [column_nat hd 3 3 rfl (by omega), ok_bind, column_nat hd 4 4 rfl (by omega), ok_bind, hn, hd.1]
  dsimp only
  have hl : (data.map fun row => row.getD 3 0).length = m := by simp [hd.1]
  have hl4 : (data.map fun row => row.getD 4 0).length = m := by simp [hd.1]
  rw [hl]
  set nu := s.numU
  set nv := s.numV
  refine Returns.bind (Returns.forN (fun r (st : List (List K) × ℕ) => Shape st.1 m (nu * nv) ∧
    st.2 = r ∧ ∀ x < r, ∀ i < nu, ∀ j < nv, at2 st.1 x (i * nv + j) 0 = fl (A x i * B x j))
    (Nat.zero_le _) ?_ ?_) ?_
  · exact ⟨shape_replicate _ _ _, rfl, fun x hx => absurd hx (by omega)⟩
  · rintro r ⟨M, row⟩ - hr ⟨h1, h2, h3⟩
    dsimp only at h1 h2 h3 ⊢
    subst h2
    refine Returns.bind (Returns.forN (fun i (st : List (List K) × ℕ) => Shape st.1 m (nu * nv) ∧
      st.2 = i * nv ∧ (∀ x < row, ∀ i < nu, ∀ j < nv, at2 st.1 x (i * nv + j) 0 = fl (A x i * B x j)) ∧
      ∀ x < i, ∀ j < nv, at2 st.1 row (x * nv + j) 0 = fl (A row x * B row j)) (Nat.zero_le _) ?_ ?_) ?_
    · exact ⟨h1, by simp, h3, fun j hj => absurd hj (by omega)⟩
    · rintro i ⟨M', col⟩ - hi ⟨g1, g2, g3, g4⟩
      dsimp only at g1 g2 g3 g4 ⊢
      subst g2
      refine Returns.mono (Returns.forN (fun j (st : List (List K) × ℕ) => Shape st.1 m (nu * nv) ∧
        st.2 = i * nv + j ∧
        (∀ x < row, ∀ i < nu, ∀ j < nv, at2 st.1 x (i * nv + j) 0 = fl (A x i * B x j)) ∧
        (∀ x < i, ∀ j < nv, at2 st.1 row (x * nv + j) 0 = fl (A row x * B row j)) ∧
        ∀ y < j, at2 st.1 row (i * nv + y) 0 = fl (A row i * B row y)) (Nat.zero_le _) ?_ ?_) ?_
      · exact ⟨g1, by simp, g3, g4, fun y hy => absurd hy (by omega)⟩
      · rintro j ⟨M'', col⟩ - hj ⟨k1, k2, k3, k4, k5⟩
        dsimp only at k1 k2 k3 k4 k5 ⊢
        subst k2
        rw [pyGet_nat _ _ row 0 rfl (by omega), ok_bind, getD_map_row data row 3, hA row hr i hi,
          ok_bind, pyGet_nat _ _ row 0 rfl (by omega), ok_bind, getD_map_row data row 4,
          hB row hr j hj, ok_bind]
        have hlt := index_lt hi hj
        obtain ⟨M3, e, hs, hat⟩ := set2_nat k1 (row : ℤ) ((i * nv + j : ℕ) : ℤ) row (i * nv + j)
          (fl (A row i * B row j)) 0 rfl rfl hr hlt
        rw [e, ok_bind]
        refine Returns.ok ⟨hs, by dsimp only; omega, fun x hx a ha b hb => ?_, fun x hx b hb => ?_,
          fun y hy => ?_⟩
        · rw [hat, if_neg (by omega)]; exact k3 x hx a ha b hb
        · rw [hat, if_neg]
          · exact k4 x hx b hb
          · rintro ⟨-, e⟩
            have := (index_eq hb hj e).1
            omega
        · rw [hat]
          by_cases e : y = j
          · subst e; rw [if_pos ⟨rfl, rfl⟩]
          · rw [if_neg (by omega)]; exact k5 y (by omega)
      · rintro ⟨M'', col⟩ ⟨k1, k2, k3, k4, k5⟩
        refine ⟨k1, by rw [k2, Nat.succ_mul], k3, fun x hx j hj => ?_⟩
        rcases Nat.lt_succ_iff_lt_or_eq.1 hx with hx | rfl
        · exact k4 x hx j hj
        · exact k5 j hj
    · rintro ⟨M', col⟩ ⟨g1, -, g3, g4⟩
      refine Returns.ok ⟨g1, rfl, fun x hx i hi j hj => ?_⟩
      rcases Nat.lt_succ_iff_lt_or_eq.1 hx with hx | rfl
      · exact g3 x hx i hi j hj
      · exact g4 i hi j hj
  · rintro ⟨M, row⟩ ⟨h1, -, h3⟩
    exact Returns.ok ⟨h1, h3⟩

/-! ## Sums -/

theorem forall₂_append_split {α β : Type} {R : α → β → Prop} {l m : List α} {bs : List β}
    (h : List.Forall₂ R (l ++ m) bs) :
    ∃ b1 b2, List.Forall₂ R l b1 ∧ List.Forall₂ R m b2 ∧ bs = b1 ++ b2 :=
  ⟨bs.take l.length, bs.drop l.length, by simpa using List.forall₂_take l.length h,
    by simpa using List.forall₂_drop l.length h, (List.take_append_drop _ _).symm⟩

theorem forall₂_perm {α β : Type} {R : α → β → Prop} {l m : List α} {bs : List β}
    (hp : l.Perm m) (h : List.Forall₂ R m bs) : ∃ bs', List.Forall₂ R l bs' ∧ bs'.Perm bs := by
  have : Relation.Comp List.Perm (List.Forall₂ R) l bs := ⟨m, hp, h⟩
  rw [← List.forall₂_comp_perm_eq_perm_comp_forall₂] at this
  exact this

theorem SumFl.exists (fl : K → K) (l : List K) : ∃ s, SumFl fl l s := by
  induction l with
  | nil => exact ⟨0, .nil⟩
  | cons x l ih =>
    by_cases hl : l = []
    · subst hl; exact ⟨x, .one x⟩
    · obtain ⟨s, hs⟩ := ih
      exact ⟨_, .add (by simp) hl (.one x) hs⟩

/-- A sum of numbers with `k` roundings each has `k + length` roundings. -/
theorem SumFl.near {ρ : K} {fl : K → K} (hf : Accurate ρ fl) {k : ℕ} {l : List K} {s : K}
    (h : SumFl fl l s) : ∀ bs, List.Forall₂ (Near ρ k) l bs → Near ρ (k + l.length) s bs.sum := by
  have p0 := hf.pos
  have p1 := hf.le_one
  have key : ∀ bs, List.Forall₂ (Near ρ k) l bs → Near ρ (k + (l.length - 1)) s bs.sum := by
    induction h with
    | nil => rintro _ ⟨⟩; exact Near.zero _
    | one a =>
      intro bs hb
      cases hb with
      | cons h1 h2 =>
        cases h2
        simpa using h1
    | @add l m s t hl hm h1 h2 i1 i2 =>
      intro bs hb
      obtain ⟨b1, b2, f1, f2, rfl⟩ := forall₂_append_split hb
      have := List.length_pos_of_ne_nil hl
      have := List.length_pos_of_ne_nil hm
      rw [List.sum_append, List.length_append]
      have n1 := (i1 _ f1).mono p0 p1 (l := k + (l.length + m.length - 2)) (by omega)
      have n2 := (i2 _ f2).mono p0 p1 (l := k + (l.length + m.length - 2)) (by omega)
      exact ((n1.add n2).fl hf).mono p0 p1 (by omega)
    | @perm l m s hp h i =>
      intro bs hb
      obtain ⟨bs', f, p⟩ := forall₂_perm hp hb
      rw [← p.sum_eq, ← hp.length_eq]
      exact i _ f
  intro bs hb
  exact (key bs hb).mono p0 p1 (by omega)

theorem CheckUnityFl.exists (fl : K → K) (M : List (List K)) (m : ℕ) : ∃ r, CheckUnityFl fl M m r := by
  have : ∃ unity : List K, List.Forall₂ (SumFl fl) M unity := by
    induction M with
    | nil => exact ⟨[], .nil⟩
    | cons x xs ih =>
      obtain ⟨l, hl⟩ := ih
      obtain ⟨s, hs⟩ := SumFl.exists fl x
      exact ⟨s :: l, .cons hs hl⟩
  obtain ⟨unity, h1⟩ := this
  obtain ⟨total, h2⟩ := SumFl.exists fl unity
  exact ⟨_, unity, total, h1, h2, rfl⟩

/-- The sum over all rows, when every entry has `k` roundings. -/
theorem checkUnityFl_near {ρ : K} {fl : K → K} (hf : Accurate ρ fl) {M : List (List K)} {m n k : ℕ}
    (hM : Shape M m n) {B : ℕ → ℕ → K} (hB : ∀ r < m, ∀ i < n, Near ρ k (at2 M r i 0) (B r i))
    {unity : List K} {total : K}
    (hu : List.Forall₂ (SumFl fl) M unity) (ht : SumFl fl unity total) :
    Near ρ (k + n + m) total (∑ r ∈ Finset.range m, ∑ i ∈ Finset.range n, B r i) := by
  have hlen : unity.length = m := by rw [← hu.length_eq, hM.1]
  have h1 : List.Forall₂ (Near ρ (k + n)) unity
      ((List.range m).map fun r => ∑ i ∈ Finset.range n, B r i) := by
    rw [List.forall₂_iff_get]
    refine ⟨by simp [hlen], fun r hr1 hr2 => ?_⟩
    have hr : r < m := by rw [← hlen]; exact hr1
    have hrM : r < M.length := by rw [hM.1]; exact hr
    have hs := (List.forall₂_iff_get.1 hu).2 r hrM hr1
    have hrow : (M.get ⟨r, hrM⟩).length = n := hM.2 _ (List.get_mem _ _)
    have e2 : ∀ i, at2 M r i 0 = (M.get ⟨r, hrM⟩).getD i 0 := by
      intro i
      simp [at2, List.getD_eq_getElem?_getD, hrM]
    have := hs.near hf ((List.range n).map (B r)) (by
      rw [List.forall₂_iff_get]
      refine ⟨by rw [hrow]; simp, fun i hi1 hi2 => ?_⟩
      have hi : i < n := by rw [← hrow]; exact hi1
      have := hB r hr i hi
      rw [e2] at this
      rw [List.getD_eq_getElem?_getD, List.getElem?_eq_getElem hi1] at this
      simpa using this)
    rw [hrow, sum_map_range] at this
    simpa using this
  have := ht.near hf _ h1
  rw [hlen, sum_map_range] at this
  exact this

end

end PySpline
