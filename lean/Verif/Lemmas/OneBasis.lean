import Verif.Lemmas.BasisFunctions

/-!
# Correctness of `one_basis_function` (A2.4) and `one_basis_function_ders` (A2.5)
-/

set_option linter.unusedSectionVars false

namespace PySpline

open Polynomial Spec

variable {K : Type} [Field K] [LinearOrder K] [IsStrictOrderedRing K]

theorem N_support {V : ℕ → K} (hV : Monotone V) {q x : ℕ} {u : K} (h : N V q x u ≠ 0) :
    V x ≤ u ∧ u < V (x + q + 1) := by
  induction q generalizing x with
  | zero =>
    unfold N at h
    by_contra hc
    rw [if_neg hc] at h
    exact h rfl
  | succ q ih =>
    unfold N at h
    by_cases h1 : N V q x u = 0
    · by_cases h2 : N V q (x + 1) u = 0
      · rw [h1, h2] at h; simp at h
      · obtain ⟨a, b⟩ := ih h2
        refine ⟨(hV (by omega)).trans a, ?_⟩
        have e : x + 1 + q + 1 = x + (q + 1) + 1 := by omega
        rwa [e] at b
    · obtain ⟨a, b⟩ := ih h1
      exact ⟨a, b.trans_le (hV (by omega))⟩

theorem N_zero_of_not_support {V : ℕ → K} (hV : Monotone V) {q x : ℕ} {u : K}
    (h : u < V x ∨ V (x + q + 1) ≤ u) : N V q x u = 0 := by
  by_contra hc
  obtain ⟨a, b⟩ := N_support hV hc
  rcases h with h | h
  · exact absurd (h.trans_le a) (lt_irrefl _)
  · exact absurd (b.trans_le h) (lt_irrefl _)

/-- The first term of the recursion, as both routines compute it. -/
theorem saved_ok {U : List K} (hU : Monotone (knotFn U)) {i k : ℕ} {u : K} (hik : i + k < U.length)
    (hk : 1 ≤ k) {n0 : K} (hn0 : n0 = N (knotFn U) (k - 1) i u) (iz ikz : ℤ) (h1 : iz = i)
    (h2 : ikz = (i + k : ℕ)) :
    (if n0 ≠ 0 then (do
        let a ← pyGet U iz
        let b ← pyGet U ikz
        pyDiv ((u - a) * n0) (b - a))
      else .ok 0 : Py K)
    = .ok ((u - knotFn U i) / (knotFn U (i + k) - knotFn U i) * N (knotFn U) (k - 1) i u) := by
  by_cases h : n0 = 0
  · rw [if_neg (by simpa using h), ← hn0, h]; simp
  · rw [if_pos h, pyGet_knot U _ i h1 (by omega), ok_bind, pyGet_knot U _ (i + k) h2 hik, ok_bind]
    obtain ⟨a, b⟩ := N_support hU (by rw [← hn0]; exact h)
    have e : i + (k - 1) + 1 = i + k := by omega
    rw [e] at b
    rw [pyDiv_ok (by intro hz; linarith), hn0]
    congr 1
    ring

theorem oneBasisFunction_spec {U : List K} (hU : Monotone (knotFn U)) {p i : ℕ} (u : K)
    (hi : i + p + 1 < U.length) :
    oneBasisFunction p U i u
      = .ok (if (i = 0 ∧ u = knotFn U 0) ∨
              ((i : ℤ) = (U.length : ℤ) - p - 2 ∧ u = knotFn U (U.length - 1)) then 1
             else N (knotFn U) p i u) := by
  refine Returns.eq_ok ?_
  unfold oneBasisFunction
  set V := knotFn U with hV
  rw [pyGet_knot U 0 0 rfl (by omega), ok_bind,
    pyGet_knot U _ (U.length - 1) (by omega) (by omega), ok_bind]
  rw [← hV]
  by_cases hsp : (i = 0 ∧ u = V 0) ∨ ((i : ℤ) = (U.length : ℤ) - p - 2 ∧ u = V (U.length - 1))
  · rw [if_pos hsp, if_pos hsp]; exact Returns.ok rfl
  rw [if_neg hsp, if_neg hsp]
  refine Returns.bind (P := (· = knotFn U i))
    (Returns.of_eq (pyGet_knot U _ i rfl (by omega)) rfl) ?_
  rintro _ rfl
  by_cases hlo : u < knotFn U i
  · rw [if_pos hlo]; exact Returns.ok (N_zero_of_not_support hU (Or.inl hlo)).symm
  rw [if_neg hlo, pyGet_knot U _ (i + p + 1) (by push_cast; rfl) hi, ok_bind]
  by_cases hhi : u > knotFn U (i + p + 1)
  · rw [if_pos hhi]; exact Returns.ok (N_zero_of_not_support hU (Or.inr hhi.le)).symm
  rw [if_neg hhi]
  dsimp only
  refine Returns.bind (Returns.forN (fun j N' => N'.length = i + p + 1 ∧
    (∀ x < j, N'.getD x 0 = N V 0 (i + x) u) ∧ (∀ x, j ≤ x → N'.getD x 0 = 0)) (by omega) ?_ ?_) ?_
  · refine ⟨by simp [zeros], by intro x hx; omega, ?_⟩
    intro x _
    simp [zeros, List.getD_eq_getElem?_getD, List.getElem?_replicate]
    split <;> rfl
  · rintro j N' - hj ⟨h1, h2, h3⟩
    rw [pyGet_knot U _ (i + j) (by push_cast; rfl) (by omega), ok_bind,
      pyGet_knot U _ (i + j + 1) (by push_cast; rfl) (by omega), ok_bind]
    by_cases hc : V (i + j) ≤ u ∧ u < V (i + j + 1)
    · rw [if_pos hc, pySet_nat N' _ j _ rfl (by omega)]
      refine Returns.ok ⟨by simp [h1], ?_, ?_⟩
      · intro x hx
        rw [getD_set _ _ _ _ _ (by omega)]
        by_cases hxj : x = j
        · subst hxj; rw [if_pos rfl]; unfold N; rw [if_pos hc]
        · rw [if_neg hxj]; exact h2 x (by omega)
      · intro x hx
        rw [getD_set _ _ _ _ _ (by omega), if_neg (by omega)]; exact h3 x (by omega)
    · rw [if_neg hc]
      refine Returns.ok ⟨h1, ?_, fun x hx => h3 x (by omega)⟩
      intro x hx
      by_cases hxj : x = j
      · subst hxj; rw [h3 x le_rfl]; unfold N; rw [if_neg hc]
      · exact h2 x (by omega)
  rintro N0 ⟨hlen, hN0, -⟩
  refine Returns.bind (Returns.forN (fun k N' => N'.length = i + p + 1 ∧
    (∀ x, x + (k - 1) ≤ p → N'.getD x 0 = N V (k - 1) (i + x) u)) (by omega) ?_ ?_) ?_
  · exact ⟨hlen, fun x hx => hN0 x (by omega)⟩
  · rintro k N' hk1 hk2 ⟨h1, h2⟩
    rw [pyGet_nat N' 0 0 0 rfl (by omega), ok_bind,
      saved_ok hU (i := i) (k := k) (by omega) hk1 (by rw [h2 0 (by omega)]; rfl) _ _ rfl
        (by push_cast; rfl), ok_bind]
    refine Returns.bind (Returns.forN (fun j st => st.1.length = i + p + 1 ∧
      (∀ x < j, st.1.getD x 0 = N V k (i + x) u) ∧
      (∀ x, j ≤ x → x + (k - 1) ≤ p → st.1.getD x 0 = N V (k - 1) (i + x) u) ∧
      st.2 = (u - V (i + j)) / (V (i + j + k) - V (i + j)) * N V (k - 1) (i + j) u)
      (by omega) ?_ ?_) ?_
    · exact ⟨h1, by intro x hx; omega, fun x _ hx => h2 x hx, rfl⟩
    · rintro j ⟨N', saved⟩ - hj ⟨g1, g2, g3, g4⟩
      simp only at g1 g2 g3 g4 ⊢
      rw [pyGet_knot U _ (i + j + 1) (by push_cast; rfl) (by omega), ok_bind,
        pyGet_knot U _ (i + j + k + 1) (by push_cast; rfl) (by omega), ok_bind,
        pyGet_nat N' _ (j + 1) 0 (by push_cast; rfl) (by omega), ok_bind,
        g3 (j + 1) (by omega) (by omega), ← hV]
      obtain ⟨q, rfl⟩ : ∃ q, k = q + 1 := ⟨k - 1, by omega⟩
      simp only [Nat.add_sub_cancel] at g3 g4 ⊢
      have hN : N V (q + 1) (i + j) u
          = saved + (V (i + j + (q + 1) + 1) - u) / (V (i + j + (q + 1) + 1) - V (i + j + 1))
            * N V q (i + (j + 1)) u := by
        rw [g4]
        have e1 : i + j + (q + 1) = i + j + q + 1 := by omega
        have e2 : i + (j + 1) = i + j + 1 := by omega
        rw [e1, e2]
        show N V (q + 1) (i + j) u = _
        rw [N]
      by_cases hz : N V q (i + (j + 1)) u = 0
      · rw [if_pos hz, pySet_nat N' _ j _ rfl (by omega), ok_bind]
        refine Returns.ok ⟨by simp [g1], ?_, ?_, ?_⟩
        · intro x hx
          show (N'.set j saved).getD x 0 = _
          rw [getD_set _ _ _ _ _ (by omega)]
          by_cases hxj : x = j
          · subst hxj; rw [if_pos rfl, hN, hz]; ring
          · rw [if_neg hxj]; exact g2 x (by omega)
        · intro x hx1 hx2
          show (N'.set j saved).getD x 0 = _
          rw [getD_set _ _ _ _ _ (by omega), if_neg (by omega)]; exact g3 x (by omega) hx2
        · show (0 : K) = _
          rw [hz]; ring
      · rw [if_neg hz]
        obtain ⟨a, b⟩ := N_support hU hz
        have e1 : i + (j + 1) + q + 1 = i + j + (q + 1) + 1 := by omega
        have e2 : i + (j + 1) = i + j + 1 := by omega
        rw [e1] at b
        rw [e2] at a
        have hd : V (i + j + (q + 1) + 1) - V (i + j + 1) ≠ 0 := by
          intro h; linarith
        rw [pyDiv_ok hd, ok_bind, pySet_nat N' _ j _ rfl (by omega), ok_bind]
        refine Returns.ok ⟨by simp [g1], ?_, ?_, ?_⟩
        · intro x hx
          show (N'.set j _).getD x 0 = _
          rw [getD_set _ _ _ _ _ (by omega)]
          by_cases hxj : x = j
          · subst hxj; rw [if_pos rfl, hN]; ring
          · rw [if_neg hxj]; exact g2 x (by omega)
        · intro x hx1 hx2
          show (N'.set j _).getD x 0 = _
          rw [getD_set _ _ _ _ _ (by omega), if_neg (by omega)]; exact g3 x (by omega) hx2
        · show (u - V (i + j + 1)) * _ = _
          have e3 : i + (j + 1) + (q + 1) = i + j + (q + 1) + 1 := by omega
          rw [e3, e2]
          ring
    · rintro ⟨N', saved⟩ ⟨g1, g2, -, -⟩
      exact Returns.ok ⟨g1, fun x hx => g2 x (by simp at hx; omega)⟩
  rintro N' ⟨h1, h2⟩
  rw [pyGet_nat N' 0 0 0 rfl (by omega), h2 0 (by simp)]
  exact Returns.ok rfl

/-! ## A2.5 -/

theorem oneBasisTable_spec {U : List K} (hU : Monotone (knotFn U)) {p i : ℕ} (u : K)
    (hi : i + p + 1 < U.length) :
    Returns (oneBasisTable p U i u) fun T => Shape T (p + 1) (p + 1) ∧
      ∀ x k, x + k ≤ p → at2 T x k 0 = N (knotFn U) k (i + x) u := by
  unfold oneBasisTable
  set V := knotFn U with hV
  dsimp only
  refine Returns.bind (Returns.forN (fun j T => Shape T (p + 1) (p + 1) ∧
    (∀ x < j, at2 T x 0 0 = N V 0 (i + x) u) ∧ (∀ x, j ≤ x → x ≤ p → at2 T x 0 0 = 0))
    (by omega) ?_ ?_) ?_
  · refine ⟨shape_replicate _ _ _, by intro x hx; omega, ?_⟩
    intro x _ hx
    exact at2_replicate _ _ _ _ _ _ (by omega) (by omega)
  · rintro j T - hj ⟨h1, h2, h3⟩
    rw [pyGet_knot U _ (i + j) (by push_cast; rfl) (by omega), ok_bind,
      pyGet_knot U _ (i + j + 1) (by push_cast; rfl) (by omega), ok_bind]
    by_cases hc : V (i + j) ≤ u ∧ u < V (i + j + 1)
    · rw [if_pos hc]
      obtain ⟨m1, g1, sh1, at1⟩ := set2_nat h1 (j : ℤ) 0 j 0 (1 : K) 0 rfl rfl (by omega) (by omega)
      rw [g1]
      refine Returns.ok ⟨sh1, ?_, ?_⟩
      · intro x hx
        rw [at1]
        by_cases hxj : x = j
        · subst hxj; rw [if_pos ⟨rfl, rfl⟩]; unfold N; rw [if_pos hc]
        · rw [if_neg (by omega)]; exact h2 x (by omega)
      · intro x hx1 hx2
        rw [at1, if_neg (by omega)]; exact h3 x (by omega) hx2
    · rw [if_neg hc]
      refine Returns.ok ⟨h1, ?_, fun x hx => h3 x (by omega)⟩
      intro x hx
      by_cases hxj : x = j
      · subst hxj; rw [h3 x le_rfl (by omega)]; unfold N; rw [if_neg hc]
      · exact h2 x (by omega)
  rintro T0 ⟨hsh, hT0, -⟩
  refine (Returns.forN (fun k T => Shape T (p + 1) (p + 1) ∧
    (∀ x q, q < k → x + q ≤ p → at2 T x q 0 = N V q (i + x) u)) (by omega) ?_ ?_).mono ?_
  · refine ⟨hsh, fun x q hq hx => ?_⟩
    have : q = 0 := by omega
    subst this
    exact hT0 x (by omega)
  · rintro k T hk1 hk2 ⟨h1, h2⟩
    rw [get2_nat h1 0 _ 0 (k - 1) 0 rfl (by omega) (by omega) (by omega), ok_bind,
      saved_ok hU (i := i) (k := k) (by omega) hk1 (by rw [h2 0 (k - 1) (by omega) (by omega)]; rfl) _ _ rfl
        (by push_cast; rfl), ok_bind]
    refine Returns.bind (Returns.forN (fun j st => Shape st.1 (p + 1) (p + 1) ∧
      (∀ x < j, at2 st.1 x k 0 = N V k (i + x) u) ∧
      (∀ x q, q < k → x + q ≤ p → at2 st.1 x q 0 = N V q (i + x) u) ∧
      st.2 = (u - V (i + j)) / (V (i + j + k) - V (i + j)) * N V (k - 1) (i + j) u)
      (by omega) ?_ ?_) ?_
    · exact ⟨h1, by intro x hx; omega, h2, rfl⟩
    · rintro j ⟨T, saved⟩ - hj ⟨g1, g2, g3, g4⟩
      simp only at g1 g2 g3 g4 ⊢
      rw [pyGet_knot U _ (i + j + 1) (by push_cast; rfl) (by omega), ok_bind,
        pyGet_knot U _ (i + j + k + 1) (by push_cast; rfl) (by omega), ok_bind,
        get2_nat g1 _ _ (j + 1) (k - 1) 0 (by push_cast; rfl) (by omega) (by omega) (by omega),
        ok_bind, g3 (j + 1) (k - 1) (by omega) (by omega), ← hV]
      obtain ⟨q, rfl⟩ : ∃ q, k = q + 1 := ⟨k - 1, by omega⟩
      simp only [Nat.add_sub_cancel] at g3 g4 ⊢
      have hN : N V (q + 1) (i + j) u
          = saved + (V (i + j + (q + 1) + 1) - u) / (V (i + j + (q + 1) + 1) - V (i + j + 1))
            * N V q (i + (j + 1)) u := by
        rw [g4]
        have e1 : i + j + (q + 1) = i + j + q + 1 := by omega
        have e2 : i + (j + 1) = i + j + 1 := by omega
        rw [e1, e2]
        show N V (q + 1) (i + j) u = _
        rw [N]
      by_cases hz : N V q (i + (j + 1)) u = 0
      · rw [if_pos hz]
        obtain ⟨m1, k1, sh1, at1⟩ := set2_nat g1 (j : ℤ) ((q + 1 : ℕ) : ℤ) j (q + 1) saved 0 rfl rfl
          (by omega) (by omega)
        rw [k1, ok_bind]
        refine Returns.ok ⟨sh1, ?_, ?_, ?_⟩
        · intro x hx
          show at2 m1 x (q + 1) 0 = _
          rw [at1]
          by_cases hxj : x = j
          · subst hxj; rw [if_pos ⟨rfl, rfl⟩, hN, hz]; ring
          · rw [if_neg (by omega)]; exact g2 x (by omega)
        · intro x q' hq hx
          show at2 m1 x q' 0 = _
          rw [at1, if_neg (by omega)]; exact g3 x q' hq hx
        · show (0 : K) = _
          rw [hz]; ring
      · rw [if_neg hz]
        obtain ⟨a, b⟩ := N_support hU hz
        have e1 : i + (j + 1) + q + 1 = i + j + (q + 1) + 1 := by omega
        have e2 : i + (j + 1) = i + j + 1 := by omega
        rw [e1] at b
        rw [e2] at a
        have hd : V (i + j + (q + 1) + 1) - V (i + j + 1) ≠ 0 := by
          intro h; linarith
        rw [pyDiv_ok hd, ok_bind]
        obtain ⟨m1, k1, sh1, at1⟩ := set2_nat g1 (j : ℤ) ((q + 1 : ℕ) : ℤ) j (q + 1)
          (saved + (V (i + j + (q + 1) + 1) - u) *
            (N V q (i + (j + 1)) u / (V (i + j + (q + 1) + 1) - V (i + j + 1)))) 0 rfl rfl
          (by omega) (by omega)
        rw [k1, ok_bind]
        refine Returns.ok ⟨sh1, ?_, ?_, ?_⟩
        · intro x hx
          show at2 m1 x (q + 1) 0 = _
          rw [at1]
          by_cases hxj : x = j
          · subst hxj; rw [if_pos ⟨rfl, rfl⟩, hN]; ring
          · rw [if_neg (by omega)]; exact g2 x (by omega)
        · intro x q' hq hx
          show at2 m1 x q' 0 = _
          rw [at1, if_neg (by omega)]; exact g3 x q' hq hx
        · show (u - V (i + j + 1)) * _ = _
          have e3 : i + (j + 1) + (q + 1) = i + j + (q + 1) + 1 := by omega
          rw [e3, e2]
          ring
    · rintro ⟨T, saved⟩ ⟨g1, g2, g3, -⟩
      refine Returns.ok ⟨g1, fun x q hq hx => ?_⟩
      by_cases hqk : q = k
      · subst hqk; exact g2 x (by omega)
      · exact g3 x q (by omega) hx
  · rintro T ⟨h1, h2⟩
    exact ⟨h1, fun x k hx => h2 x k (by omega) hx⟩

/-- The derivatives satisfy the same recursion as the first derivative. -/
theorem deriv_piece_succ {V : ℕ → K} (hV : Monotone V) (k q x m : ℕ) (u : K) :
    (Spec.deriv (m + 1) (piece V k (q + 1) x)).eval u
      = ((q : K) + 1) * ((Spec.deriv m (piece V k q x)).eval u * w V q x
          - (Spec.deriv m (piece V k q (x + 1))).eval u * w V q (x + 1)) := by
  unfold Spec.deriv
  rw [Function.iterate_succ_apply, derivative_piece hV, iterate_derivative_C_mul,
    iterate_derivative_sub, iterate_derivative_C_mul, iterate_derivative_C_mul]
  simp only [eval_mul, eval_C, eval_sub]
  ring

/-- A non-zero derivative value means that the span is inside the support. -/
theorem deriv_piece_ne_zero {V : ℕ → K} (hV : Monotone V) {s q x m : ℕ} {u : K}
    (hs : V s < V (s + 1)) (h : (Spec.deriv m (piece V s q x)).eval u ≠ 0) :
    V x < V (x + q + 1) := by
  have h0 : piece V s q x ≠ 0 := by
    intro e; rw [e] at h; unfold Spec.deriv at h; simp at h
  have h1 : x ≤ s := by
    by_contra hc; exact h0 (piece_eq_zero_of_lt V s q x (by omega))
  have h2 : s ≤ x + q := by
    by_contra hc; exact h0 (piece_eq_zero_of_gt V s q x (by omega))
  exact lt_of_le_of_lt (hV h1) (lt_of_lt_of_le hs (hV (by omega)))

/-- The body of the loop over the orders in `oneBasisFunctionDers`, with `N` the table. -/
def obdStep (degree : ℕ) (U : List K) (i : ℕ) (N : List (List K)) (k : ℕ) : List K × List K → Py (List K × List K) :=
  fun (ders, ND) => do
      let ND ← forN 0 (k + 1) ND fun j ND => do
        let x ← get2 N j ((degree : ℤ) - k)
        pySet ND j x
      let ND ← forN 1 (k + 1) ND fun jj ND => do
        let nd0 ← pyGet ND 0
        let saved ← (if nd0 ≠ 0 then (do
            let b ← pyGet U ((i : ℤ) + degree - k + jj)
            let a ← pyGet U i
            pyDiv nd0 (b - a))
          else .ok 0)
        let (ND, _) ← forN 0 (k - jj + 1) (ND, saved) fun j (ND, saved) => do
          let uleft ← pyGet U ((i : ℤ) + j + 1)
          let uright ← pyGet U ((i : ℤ) + j + degree - k + jj + 1)
          let nj ← pyGet ND ((j : ℤ) + 1)
          if nj = 0 then do
            let ND ← pySet ND j (((degree : K) - k + jj) * saved)
            .ok (ND, 0)
          else do
            let temp ← pyDiv nj (uright - uleft)
            let ND ← pySet ND j (((degree : K) - k + jj) * (saved - temp))
            .ok (ND, temp)
        .ok ND
      let nd0 ← pyGet ND 0
      let ders ← pySet ders k nd0
      .ok (ders, ND)

theorem bind_ext {α β : Type} {x : Py α} {f g : α → Py β} (h : ∀ a, f a = g a) : (x >>= f) = x >>= g := by
  rw [show f = g from funext h]

/-- Inside the support `oneBasisFunctionDers` fills the table and runs through the orders. -/
theorem oneBasisFunctionDers_eq {U : List K} {p i : ℕ} {u : K} (hi : i + p + 1 < U.length) (order : ℕ)
    (hlo : ¬ u < knotFn U i) (hhi : ¬ u ≥ knotFn U (i + p + 1)) :
    oneBasisFunctionDers p U i u order = (do
      let N ← oneBasisTable p U i u
      let v ← get2 N 0 p
      let ders ← pySet (zeros (order + 1)) 0 v
      let (ders, _) ← forN 1 (order + 1) (ders, zeros (order + 1)) (obdStep p U i N)
      .ok ders) := by
  unfold oneBasisFunctionDers
  dsimp only
  rw [pyGet_knot U _ i rfl (by omega), ok_bind, if_neg hlo,
    pyGet_knot U _ (i + p + 1) (by push_cast; rfl) hi, ok_bind, if_neg hhi]
  refine bind_ext fun N => bind_ext fun v => bind_ext fun ders => ?_
  have : ∀ f g : ℕ → List K × List K → Py (List K × List K), (∀ k st, f k st = g k st) →
      forN 1 (order + 1) (ders, zeros (order + 1)) f = forN 1 (order + 1) (ders, zeros (order + 1)) g := fun f g h => by
    rw [show f = g from funext fun k => funext fun st => h k st]
  rw [this _ (obdStep p U i N) fun k st => ?_]
  obtain ⟨ders, ND⟩ := st
  unfold obdStep
  dsimp only
  rw [pyGet_knot U (i : ℤ) i rfl (by omega)]

/-- One order of derivatives, at most the degree. -/
theorem obdStep_spec {U : List K} (hU : Monotone (knotFn U)) {p i s : ℕ} {u : K} (hi : i + p + 1 < U.length)
    (h1 : knotFn U s ≤ u) (h2 : u < knotFn U (s + 1)) {order : ℕ} {T : List (List K)} (hT : Shape T (p + 1) (p + 1))
    (hTv : ∀ j k, j + k ≤ p → at2 T j k 0 = N (knotFn U) k (i + j) u) {k : ℕ} (hk1 : 1 ≤ k) (hk2 : k < order + 1)
    (hkp : k ≤ p) {ders ND : List K} (a1 : ders.length = order + 1) (a2 : ND.length = order + 1)
    (a3 : ∀ m < k, ders.getD m 0 = (Spec.deriv m (piece (knotFn U) s p i)).eval u) :
    Returns (obdStep p U i T k (ders, ND)) fun st => st.1.length = order + 1 ∧ st.2.length = order + 1 ∧
      ∀ m < k + 1, st.1.getD m 0 = (Spec.deriv m (piece (knotFn U) s p i)).eval u := by
  unfold obdStep
  set V := knotFn U with hV
  have hs : V s < V (s + 1) := h1.trans_lt h2
  -- load the column
  refine Returns.bind (Returns.forN (fun j (ND : List K) => ND.length = order + 1 ∧
    ∀ x < j, ND.getD x 0 = (piece V s (p - k) (i + x)).eval u) (by omega) ?_ ?_) ?_
  · exact ⟨a2, by intro x hx; omega⟩
  · rintro j ND - hj ⟨b1, b2⟩
    rw [get2_nat hT _ _ j (p - k) 0 rfl (by omega) (by omega) (by omega), ok_bind,
      hTv j (p - k) (by omega), pySet_nat ND _ j _ rfl (by omega)]
    refine Returns.ok ⟨by simp [b1], fun x hx => ?_⟩
    rw [getD_set _ _ _ _ _ (by omega)]
    by_cases hxj : x = j
    · subst hxj; rw [if_pos rfl, N_eq_piece hU h1 h2]
    · rw [if_neg hxj]; exact b2 x (by omega)
  rintro ND0 ⟨b1, b2⟩
  -- the table of derivatives
  refine Returns.bind (Returns.forN (fun jj (ND : List K) => ND.length = order + 1 ∧
    ∀ x, x + (jj - 1) ≤ k → ND.getD x 0
      = (Spec.deriv (jj - 1) (piece V s (p - k + (jj - 1)) (i + x))).eval u) (by omega) ?_ ?_) ?_
  · exact ⟨b1, fun x hx => b2 x (by omega)⟩
  · rintro jj ND hj1 hj2 ⟨c1, c2⟩
    obtain ⟨t, rfl⟩ : ∃ t, jj = t + 1 := ⟨jj - 1, by omega⟩
    simp only [Nat.add_sub_cancel] at c2 ⊢
    set q := p - k + t with hq
    set D : ℕ → K := fun x => (Spec.deriv t (piece V s q (i + x))).eval u with hD
    have hc2 : ∀ x, x + t ≤ k → ND.getD x 0 = D x := c2
    rw [pyGet_nat ND 0 0 0 rfl (by omega), ok_bind]
    have hsaved : (if ND.getD 0 0 ≠ 0 then (do
          let b ← pyGet U ((i : ℤ) + p - k + (t + 1 : ℕ))
          let a ← pyGet U (i : ℤ)
          pyDiv (ND.getD 0 0) (b - a))
        else .ok 0 : Py K) = .ok (D 0 * w V q (i + 0)) := by
      rw [hc2 0 (by omega)]
      by_cases h0 : D 0 = 0
      · rw [if_neg (by simpa using h0), h0]; simp
      · rw [if_pos h0, pyGet_knot U _ (i + q + 1) (by push_cast; omega) (by omega), ok_bind,
          pyGet_knot U _ i rfl (by omega), ok_bind, ← hV]
        have hlt := deriv_piece_ne_zero hU hs h0
        rw [pyDiv_ok (by intro hz; simp only [add_zero] at hlt; linarith)]
        unfold w
        simp only [add_zero]
        congr 1
        ring
    rw [hsaved, ok_bind]
    refine Returns.bind (Returns.forN (fun j st => st.1.length = order + 1 ∧
      (∀ x < j, st.1.getD x 0
        = (Spec.deriv (t + 1) (piece V s (q + 1) (i + x))).eval u) ∧
      (∀ x, j ≤ x → x + t ≤ k → st.1.getD x 0 = D x) ∧
      st.2 = D j * w V q (i + j)) (by omega) ?_ ?_) ?_
    · exact ⟨c1, by intro x hx; omega, fun x _ hx => hc2 x hx, rfl⟩
    · rintro j ⟨ND, saved⟩ - hj ⟨d1, d2, d3, d4⟩
      simp only at d1 d2 d3 d4 ⊢
      rw [pyGet_knot U _ (i + j + 1) (by push_cast; rfl) (by omega), ok_bind,
        pyGet_knot U _ (i + (j + 1) + q + 1) (by push_cast; omega) (by omega), ok_bind,
        pyGet_nat ND _ (j + 1) 0 (by push_cast; rfl) (by omega), ok_bind,
        d3 (j + 1) (by omega) (by omega), ← hV]
      have hcast : ((p : K) - k + ((t + 1 : ℕ) : K)) = (q : K) + 1 := by
        have e : ((p - k + t : ℕ) : K) = (p : K) - k + t := by
          rw [Nat.cast_add, Nat.cast_sub (by omega)]
        rw [hq, e]; push_cast; ring
      have hval : (Spec.deriv (t + 1) (piece V s (q + 1) (i + j))).eval u
          = ((q : K) + 1) * (saved - D (j + 1) * w V q (i + (j + 1))) := by
        rw [deriv_piece_succ hU, d4]; rfl
      rw [hcast]
      by_cases hz : D (j + 1) = 0
      · rw [if_pos hz, pySet_nat ND _ j _ rfl (by omega), ok_bind]
        refine Returns.ok ⟨by simp [d1], ?_, ?_, ?_⟩
        · intro x hx
          show (ND.set j _).getD x 0 = _
          rw [getD_set _ _ _ _ _ (by omega)]
          by_cases hxj : x = j
          · subst hxj; rw [if_pos rfl, hval, hz]; ring
          · rw [if_neg hxj]; exact d2 x (by omega)
        · intro x hx1 hx2
          show (ND.set j _).getD x 0 = _
          rw [getD_set _ _ _ _ _ (by omega), if_neg (by omega)]; exact d3 x (by omega) hx2
        · show (0 : K) = _
          rw [hz]; ring
      · rw [if_neg hz]
        have hlt := deriv_piece_ne_zero hU hs hz
        have e0 : i + j + 1 = i + (j + 1) := by omega
        rw [e0, pyDiv_ok (by intro h; linarith), ok_bind, pySet_nat ND _ j _ rfl (by omega),
          ok_bind]
        refine Returns.ok ⟨by simp [d1], ?_, ?_, ?_⟩
        · intro x hx
          show (ND.set j _).getD x 0 = _
          rw [getD_set _ _ _ _ _ (by omega)]
          by_cases hxj : x = j
          · subst hxj; rw [if_pos rfl, hval]; unfold w; ring
          · rw [if_neg hxj]; exact d2 x (by omega)
        · intro x hx1 hx2
          show (ND.set j _).getD x 0 = _
          rw [getD_set _ _ _ _ _ (by omega), if_neg (by omega)]; exact d3 x (by omega) hx2
        · show D (j + 1) / _ = _
          unfold w; ring
    · rintro ⟨ND, saved⟩ ⟨d1, d2, -, -⟩
      refine Returns.ok ⟨d1, fun x hx => ?_⟩
      exact d2 x (by omega)
  rintro ND ⟨c1, c2⟩
  have hc := c2 0 (by omega)
  simp only [Nat.add_sub_cancel, add_zero, show p - k + k = p by omega] at hc
  rw [pyGet_nat ND 0 0 0 rfl (by omega), ok_bind, hc, pySet_nat ders _ k _ rfl (by omega), ok_bind]
  refine Returns.ok ⟨by simp [a1], c1, fun m hm => ?_⟩
  show (ders.set k _).getD m 0 = _
  rw [getD_set _ _ _ _ _ (by omega)]
  by_cases hmk : m = k
  · subst hmk; rw [if_pos rfl]
  · rw [if_neg hmk]; exact a3 m (by omega)

theorem oneBasisFunctionDers_spec {U : List K} (hU : Monotone (knotFn U)) {p i s : ℕ} {u : K}
    (hi : i + p + 1 < U.length) (h1 : knotFn U s ≤ u) (h2 : u < knotFn U (s + 1)) {order : ℕ}
    (ho : order ≤ p) :
    Returns (oneBasisFunctionDers p U i u order) fun ders => ders.length = order + 1 ∧
      ∀ m ≤ order, ders.getD m 0 = (Spec.deriv m (piece (knotFn U) s p i)).eval u := by
  set V := knotFn U with hV
  have hs : V s < V (s + 1) := h1.trans_lt h2
  have zero_case : piece V s p i = 0 → Returns (.ok (zeros (order + 1) : List K))
      fun ders => ders.length = order + 1 ∧
      ∀ m ≤ order, ders.getD m 0 = (Spec.deriv m (piece V s p i)).eval u := by
    intro h0
    refine Returns.ok ⟨by simp [zeros], fun m hm => ?_⟩
    rw [h0]; unfold Spec.deriv
    simp [zeros, List.getD_eq_getElem?_getD, List.getElem?_replicate]
    split <;> rfl
  by_cases hlo : u < knotFn U i
  · unfold oneBasisFunctionDers
    dsimp only
    rw [pyGet_knot U _ i rfl (by omega), ok_bind, if_pos hlo]
    refine zero_case (piece_eq_zero_of_lt V s p i ?_)
    by_contra hc
    exact absurd ((hU (by omega : i ≤ s)).trans h1) (not_le.2 hlo)
  by_cases hhi : u ≥ knotFn U (i + p + 1)
  · unfold oneBasisFunctionDers
    dsimp only
    rw [pyGet_knot U _ i rfl (by omega), ok_bind, if_neg hlo,
      pyGet_knot U _ (i + p + 1) (by push_cast; rfl) hi, ok_bind, if_pos hhi]
    refine zero_case (piece_eq_zero_of_gt V s p i ?_)
    by_contra hc
    exact absurd (hhi.trans_lt h2) (not_lt.2 (hU (by omega : s + 1 ≤ i + p + 1)))
  rw [oneBasisFunctionDers_eq hi order hlo hhi]
  refine Returns.bind (oneBasisTable_spec hU u hi) ?_
  rintro T ⟨hT, hTv⟩
  rw [get2_nat hT 0 _ 0 p 0 rfl rfl (by omega) (by omega), ok_bind, hTv 0 p (by omega),
    pySet_nat _ 0 0 _ rfl (by simp [zeros]), ok_bind]
  refine Returns.bind (Returns.forN (fun k st => st.1.length = order + 1 ∧ st.2.length = order + 1 ∧
    ∀ m < k, st.1.getD m 0 = (Spec.deriv m (piece V s p i)).eval u) (by omega) ?_ ?_) ?_
  · refine ⟨by simp [zeros], by simp [zeros], fun m hm => ?_⟩
    have : m = 0 := by omega
    subst this
    show (List.set _ 0 _).getD 0 0 = _
    rw [getD_set _ _ _ _ _ (by simp [zeros]), if_pos rfl, N_eq_piece hU h1 h2]
    rfl
  · rintro k ⟨ders, ND⟩ hk1 hk2 ⟨a1, a2, a3⟩
    exact obdStep_spec hU hi h1 h2 hT hTv hk1 hk2 (by omega) a1 a2 a3
  rintro ⟨ders, ND⟩ ⟨a1, -, a3⟩
  exact Returns.ok ⟨a1, fun m hm => a3 m (by omega)⟩

/-- A loop can be split. -/
theorem forN_split {σ : Type} {a b c : ℕ} (hab : a ≤ b) (hbc : b ≤ c) (s : σ) (f : ℕ → σ → Py σ) :
    forN a c s f = forN a b s f >>= fun s' => forN b c s' f := by
  induction hn : b - a generalizing a s with
  | zero =>
    obtain rfl : a = b := by omega
    rw [forN_empty (le_refl a)]
    rfl
  | succ n ih =>
    rw [forN_succ_left (by omega), forN_succ_left (a := a) (b := b) (by omega)]
    cases f a s with
    | error e => rfl
    | ok s' =>
      rw [ok_bind, ok_bind]
      exact ih (by omega) s' (by omega)

/-- Inside the support, an order above the degree runs out of the table. -/
theorem oneBasisFunctionDers_above {U : List K} (hU : Monotone (knotFn U)) {p i s : ℕ} {u : K}
    (hi : i + p + 1 < U.length) (h1 : knotFn U s ≤ u) (h2 : u < knotFn U (s + 1)) (h3 : knotFn U i ≤ u)
    (h4 : u < knotFn U (i + p + 1)) {order : ℕ} (ho : p < order) :
    oneBasisFunctionDers p U i u order = .error .indexError := by
  rw [oneBasisFunctionDers_eq hi order (not_lt.2 h3) (not_le.2 h4)]
  obtain ⟨T, e, hT, hTv⟩ := oneBasisTable_spec hU u hi
  rw [e, ok_bind, get2_nat hT 0 _ 0 p 0 rfl rfl (by omega) (by omega), ok_bind, hTv 0 p (by omega),
    pySet_nat _ 0 0 _ rfl (by simp [zeros]), ok_bind, forN_split (b := p + 1) (by omega) (by omega)]
  have hr : Returns (forN 1 (p + 1) ((zeros (order + 1)).set 0 (N (knotFn U) p (i + 0) u), zeros (order + 1))
      (obdStep p U i T)) fun st => st.1.length = order + 1 ∧ st.2.length = order + 1 ∧
        ∀ m < p + 1, st.1.getD m 0 = (Spec.deriv m (piece (knotFn U) s p i)).eval u := by
    refine Returns.forN (fun (k : ℕ) (st : List K × List K) => st.1.length = order + 1 ∧ st.2.length = order + 1 ∧
      ∀ m < k, st.1.getD m 0 = (Spec.deriv m (piece (knotFn U) s p i)).eval u) (by omega) ?_ ?_
    · refine ⟨by simp [zeros], by simp [zeros], fun m hm => ?_⟩
      have : m = 0 := by omega
      subst this
      show (List.set _ 0 _).getD 0 0 = _
      rw [getD_set _ _ _ _ _ (by simp [zeros]), if_pos rfl, N_eq_piece hU h1 h2]
      rfl
    · rintro k ⟨ders, ND⟩ hk1 hk2 ⟨a1, a2, a3⟩
      exact obdStep_spec hU hi h1 h2 hT hTv hk1 (by omega) (by omega) a1 a2 a3
  obtain ⟨⟨ders, ND⟩, e2, a1, a2, -⟩ := hr
  simp only at a1 a2
  rw [e2, ok_bind, forN_succ_left (by omega)]
  have hcol : forN 0 (p + 1 + 1) ND (fun j ND => do
      let x ← get2 T (j : ℤ) ((p : ℤ) - (p + 1 : ℕ))
      pySet ND j x) = .error .indexError := by
    rw [forN_split (b := p + 1) (by omega) (by omega)]
    obtain ⟨ND', e3, -⟩ : Returns (forN 0 (p + 1) ND (fun j ND => do
        let x ← get2 T (j : ℤ) ((p : ℤ) - (p + 1 : ℕ))
        pySet ND j x)) fun ND => ND.length = order + 1 := by
      refine Returns.forN (fun (_ : ℕ) (ND : List K) => ND.length = order + 1) (by omega) a2 ?_
      rintro j ND - hj b1
      have hrow : pyGet T (j : ℤ) = .ok (T.getD j []) := pyGet_nat T _ j [] rfl (by rw [hT.1]; omega)
      have hlen : (T.getD j []).length = p + 1 := hT.row (by omega)
      have hlast : ∃ x, pyGet (T.getD j []) ((p : ℤ) - (p + 1 : ℕ)) = .ok x := by
        unfold pyGet pyIdx
        rw [hlen, if_neg (by push_cast; omega), if_pos (by push_cast; omega), ok_bind,
          List.getElem?_eq_getElem (by rw [hlen]; push_cast; omega)]
        exact ⟨_, rfl⟩
      obtain ⟨x, hx⟩ := hlast
      unfold get2
      rw [hrow, ok_bind, hx, ok_bind, pySet_nat ND _ j _ rfl (by omega)]
      exact Returns.ok (by simp [b1])
    rw [e3, ok_bind, forN_succ_left (by omega)]
    have : pyGet T ((p + 1 : ℕ) : ℤ) = .error .indexError := by
      unfold pyGet pyIdx
      rw [hT.1, if_neg (by omega), if_neg (by omega)]
      rfl
    unfold get2
    rw [this]
    rfl
  have : obdStep p U i T (p + 1) (ders, ND) = .error .indexError := by
    unfold obdStep
    dsimp only
    rw [hcol]
    rfl
  rw [this]
  rfl

end PySpline
