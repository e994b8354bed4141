import Verif.Lemmas.Fitting
import Verif.Props.Surface

/-!
# Auxiliary lemmas for `Props/Fitting.lean`
-/

set_option linter.unusedSectionVars false

namespace PySpline

open Spec Finset

section
variable {K : Type} [Field K] [LinearOrder K] [IsStrictOrderedRing K]

/-- **C49.** Whenever `single_fit_curve` returns: degree, knots, number of control points and the
end control points are unchanged. -/
theorem curveMatrix_of_clamped {c : Curve K} {data : List (List K)} {m n : ℕ}
    (hU : Clamped c.degree n c.kv) (hfirst : knotFn c.kv c.degree < knotFn c.kv (c.degree + 1))
    (hn : c.ctrlpts.length = n) (hd : Shape data m 4) :
    Returns (curveMatrix c data) fun M => Shape M m n ∧
      ∀ r < m, ∀ i < n, at2 M r i 0 = Nclosed (knotFn c.kv) c.degree n i (at2 data r 3 0) :=
  curveMatrix_spec _ hd hn fun _ _ _ hi => one_basis_function_cox_de_boor hU hfirst hi _

/-- The row of the matrix sums to one inside the domain and to zero outside. -/
theorem sum_Nclosed_ite {p n : ℕ} {U : List K} (hU : Clamped p n U) (u : K) :
    ∑ i ∈ range n, Nclosed (knotFn U) p n i u
      = if u < knotFn U 0 ∨ knotFn U (n + p) < u then 0 else 1 := by
  have hV := monotone_knotFn hU.mono
  have hsz := hU.size
  by_cases ho : u < knotFn U 0 ∨ knotFn U (n + p) < u
  · rw [if_pos ho]
    refine sum_eq_zero fun i hi => ?_
    by_contra hne
    obtain ⟨h1, h2⟩ := Nclosed_support hV hne
    have hi' := mem_range.1 hi
    rcases ho with h | h
    · exact absurd (h.trans_le ((hV (Nat.zero_le i)).trans h1)) (lt_irrefl _)
    · exact absurd (h.trans_le (h2.trans (hV (by omega)))) (lt_irrefl _)
  · rw [if_neg ho]
    push Not at ho
    exact sum_Nclosed hU (by rw [hU.left p le_rfl]; exact ho.1)
      (by rw [hU.right n le_rfl (by omega)]; exact ho.2)

/-- The outcome of the check when the rows of `out` sum to zero and the others to one. -/
theorem checkUnity_out {M : List (List K)} {m n : ℕ} (hs : Shape M m n) {P : ℕ → Prop}
    [DecidablePred P]
    (hrow : ∀ r < m, ∑ i ∈ range n, at2 M r i 0 = if P r then 0 else 1) :
    checkUnity M m = .error .valueError ↔
      (1 : K) / 10 ^ 8 + 1 / 10 ^ 5 * m < ((range m).filter P).card := by
  set out := (range m).filter P with hout
  have hsum : (M.map List.sum).sum = (m : K) - out.card := by
    rw [sum_eq_range, List.length_map, hs.1]
    have e : ∀ r ∈ range m, (M.map List.sum).getD r 0 = 1 - if r ∈ out then (1 : K) else 0 := by
      intro r hr
      have hr' := mem_range.1 hr
      have e1 : (M.map List.sum).getD r 0 = (M.getD r []).sum := by
        simp [List.getD_eq_getElem?_getD, hs.1, hr']
      rw [e1, sum_eq_range, hs.row hr']
      refine (hrow r hr').trans ?_
      by_cases h : P r
      · rw [if_pos h, if_pos (mem_filter.2 ⟨hr, h⟩), sub_self]
      · rw [if_neg h, if_neg fun h' => h (mem_filter.1 h').2, sub_zero]
    rw [sum_congr rfl e, sum_sub_distrib, ← sum_filter]
    have : (range m).filter (· ∈ out) = out := by
      rw [filter_mem_eq_inter, inter_eq_right, hout]
      exact filter_subset _ _
    rw [this]
    simp
  unfold checkUnity
  dsimp only
  rw [hsum]
  have : iscloseD ((m : K) - out.card) (m : K)
      = decide ((out.card : K) ≤ 1 / 10 ^ 8 + 1 / 10 ^ 5 * m) := by
    unfold iscloseD isclose atolDefault rtolDefault
    rw [show (m : K) - out.card - m = -(out.card : K) by ring, abs_neg, Nat.abs_cast, Nat.abs_cast]
  rw [this]
  by_cases h : (out.card : K) ≤ 1 / 10 ^ 8 + 1 / 10 ^ 5 * m
  · simp only [h, decide_true, not_true_eq_false, if_false, reduceCtorEq, false_iff, not_lt]
  · simp only [h, decide_false, Bool.false_eq_true, not_false_eq_true, if_true, true_iff]
    exact lt_of_not_ge h

theorem sliceTrue_length (l : List Bool) (a b : ℤ) : (sliceTrue l a b).length = l.length := by
  simp [sliceTrue]

theorem sliceTrue_getD (l : List Bool) (a b : ℤ) {i : ℕ} (hi : i < l.length) :
    (sliceTrue l a b).getD i false
      = if clipBound l.length a ≤ i ∧ i < clipBound l.length b then true else l.getD i false := by
  unfold sliceTrue
  simp [List.getD_eq_getElem?_getD, hi]

theorem index_eq {n i j i' j' : ℕ} (hj : j < n) (hj' : j' < n) (h : i * n + j = i' * n + j') :
    i = i' ∧ j = j' := by
  have hn : 0 < n := by omega
  have e1 : (i * n + j) / n = i := by
    rw [mul_comm, Nat.mul_add_div hn, Nat.div_eq_of_lt hj, add_zero]
  have e2 : (i' * n + j') / n = i' := by
    rw [mul_comm, Nat.mul_add_div hn, Nat.div_eq_of_lt hj', add_zero]
  have : i = i' := by rw [← e1, h, e2]
  subst this
  exact ⟨rfl, by omega⟩

theorem surfaceMatrix_spec {s : Surface K} {data : List (List K)} {m : ℕ} (A B : ℕ → ℕ → K)
    (hd : Shape data m 5) (hn : s.ctrlpts.length = s.numU * s.numV)
    (hA : ∀ r < m, ∀ i < s.numU, oneBasisFunction s.degreeU s.kvU i (at2 data r 3 0) = .ok (A r i))
    (hB : ∀ r < m, ∀ j < s.numV, oneBasisFunction s.degreeV s.kvV j (at2 data r 4 0) = .ok (B r j)) :
    Returns (surfaceMatrix s data) fun M => Shape M m (s.numU * s.numV) ∧
      ∀ r < m, ∀ i < s.numU, ∀ j < s.numV, at2 M r (i * s.numV + j) 0 = A r i * B r j := by
  unfold surfaceMatrix
  rw [column_nat hd 3 3 rfl (by omega), ok_bind, column_nat hd 4 4 rfl (by omega), ok_bind, hn, hd.1]
  dsimp only
  have hl : (data.map fun row => row.getD 3 0).length = m := by simp [hd.1]
  have hl4 : (data.map fun row => row.getD 4 0).length = m := by simp [hd.1]
  rw [hl]
  set nu := s.numU
  set nv := s.numV
  refine Returns.bind (Returns.forN (fun r (st : List (List K) × ℕ) => Shape st.1 m (nu * nv) ∧
    st.2 = r ∧ ∀ x < r, ∀ i < nu, ∀ j < nv, at2 st.1 x (i * nv + j) 0 = A x i * B x j)
    (Nat.zero_le _) ?_ ?_) ?_
  · exact ⟨shape_replicate _ _ _, rfl, fun x hx => absurd hx (by omega)⟩
  · rintro r ⟨M, row⟩ - hr ⟨h1, h2, h3⟩
    dsimp only at h1 h2 h3 ⊢
    subst h2
    refine Returns.bind (Returns.forN (fun i (st : List (List K) × ℕ) => Shape st.1 m (nu * nv) ∧
      st.2 = i * nv ∧ (∀ x < row, ∀ i < nu, ∀ j < nv, at2 st.1 x (i * nv + j) 0 = A x i * B x j) ∧
      ∀ x < i, ∀ j < nv, at2 st.1 row (x * nv + j) 0 = A row x * B row j) (Nat.zero_le _) ?_ ?_) ?_
    · exact ⟨h1, by simp, h3, fun j hj => absurd hj (by omega)⟩
    · rintro i ⟨M', col⟩ - hi ⟨g1, g2, g3, g4⟩
      dsimp only at g1 g2 g3 g4 ⊢
      subst g2
      refine Returns.mono (Returns.forN (fun j (st : List (List K) × ℕ) => Shape st.1 m (nu * nv) ∧
        st.2 = i * nv + j ∧
        (∀ x < row, ∀ i < nu, ∀ j < nv, at2 st.1 x (i * nv + j) 0 = A x i * B x j) ∧
        (∀ x < i, ∀ j < nv, at2 st.1 row (x * nv + j) 0 = A row x * B row j) ∧
        ∀ y < j, at2 st.1 row (i * nv + y) 0 = A row i * B row y) (Nat.zero_le _) ?_ ?_) ?_
      · exact ⟨g1, by simp, g3, g4, fun y hy => absurd hy (by omega)⟩
      · rintro j ⟨M'', col⟩ - hj ⟨k1, k2, k3, k4, k5⟩
        dsimp only at k1 k2 k3 k4 k5 ⊢
        subst k2
        rw [pyGet_nat _ _ row 0 rfl (by omega), ok_bind, getD_map_row data row 3, hA row hr i hi,
          ok_bind, pyGet_nat _ _ row 0 rfl (by omega), ok_bind, getD_map_row data row 4,
          hB row hr j hj, ok_bind]
        have hlt := index_lt hi hj
        obtain ⟨M3, e, hs, hat⟩ := set2_nat k1 (row : ℤ) ((i * nv + j : ℕ) : ℤ) row (i * nv + j)
          (A row i * B row j) 0 rfl rfl hr hlt
        rw [e, ok_bind]
        refine Returns.ok ⟨hs, by dsimp only; omega, fun x hx a ha b hb => ?_, fun x hx b hb => ?_,
          fun y hy => ?_⟩
        · rw [hat, if_neg (by omega)]; exact k3 x hx a ha b hb
        · rw [hat, if_neg]
          · exact k4 x hx b hb
          · rintro ⟨-, e⟩
            have := (index_eq hb hj e).1
            omega
        · rw [hat]
          by_cases e : y = j
          · subst e; rw [if_pos ⟨rfl, rfl⟩]
          · rw [if_neg (by omega)]; exact k5 y (by omega)
      · rintro ⟨M'', col⟩ ⟨k1, k2, k3, k4, k5⟩
        refine ⟨k1, by rw [k2, Nat.succ_mul], k3, fun x hx j hj => ?_⟩
        rcases Nat.lt_succ_iff_lt_or_eq.1 hx with hx | rfl
        · exact k4 x hx j hj
        · exact k5 j hj
    · rintro ⟨M', col⟩ ⟨g1, -, g3, g4⟩
      refine Returns.ok ⟨g1, rfl, fun x hx i hi j hj => ?_⟩
      rcases Nat.lt_succ_iff_lt_or_eq.1 hx with hx | rfl
      · exact g3 x hx i hi j hj
      · exact g4 i hi j hj
  · rintro ⟨M, row⟩ ⟨h1, -, h3⟩
    exact Returns.ok ⟨h1, h3⟩

theorem sum_grid (f : ℕ → K) (n m : ℕ) :
    ∑ t ∈ range (n * m), f t = ∑ i ∈ range n, ∑ j ∈ range m, f (i * m + j) := by
  induction n with
  | zero => simp
  | succ n ih => rw [Nat.succ_mul, sum_range_add, ih, sum_range_succ]

end

end PySpline
