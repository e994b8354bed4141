import Verif.Lemmas.ParameterizeAux
import Verif.Lemmas.Parameterize
import Verif.Props.Surface
import Verif.Props.Geometry
import Mathlib.Tactic.IntervalCases

/-!
# Properties of the point inversion functions: C38–C46, C76, C77, C78, C79
-/

set_option linter.unusedSectionVars false

namespace PySpline

open Spec

section
variable {K : Type} [Field K] [LinearOrder K] [IsStrictOrderedRing K]

/-! ## C38, C39: the grid search -/

/-- C38: `initial_guess_curve` returns grid parameter `k / (2n - 1)`, where `k` is the first grid
index with minimal distance if some grid point is closer than `1e6`, and `0` otherwise. -/
theorem initial_guess_curve_nearest (nm : Num K) (C : CurveLike K) (point : List K)
    (hn : 0 < C.numCtrl) (Q : ℕ → List K)
    (hQ : ∀ k < 2 * C.numCtrl,
      C.singlePoint ((k : K) / (((2 * C.numCtrl : ℕ) : K) - 1)) = .ok (Q k) ∧
        point.length = (Q k).length) :
    ∃ k < 2 * C.numCtrl,
      initialGuessCurve nm C point = .ok ((k : K) / (((2 * C.numCtrl : ℕ) : K) - 1)) ∧
      ((∃ j < 2 * C.numCtrl, nm.norm (List.zipWith (· - ·) point (Q j)) < 10 ^ 6) →
        (∀ j < 2 * C.numCtrl, nm.norm (List.zipWith (· - ·) point (Q k))
          ≤ nm.norm (List.zipWith (· - ·) point (Q j))) ∧
        ∀ j < k, nm.norm (List.zipWith (· - ·) point (Q k))
          < nm.norm (List.zipWith (· - ·) point (Q j))) ∧
      ((∀ j < 2 * C.numCtrl, 10 ^ 6 ≤ nm.norm (List.zipWith (· - ·) point (Q j))) → k = 0) := by
  set dist : ℕ → K := fun k => nm.norm (List.zipWith (· - ·) point (Q k)) with hdist
  have hN : 0 < 2 * C.numCtrl := by omega
  have key : Returns (initialGuessCurve nm C point) fun u => ∃ (k : ℕ) (m : K),
      u = (k : K) / (((2 * C.numCtrl : ℕ) : K) - 1) ∧ Best dist (2 * C.numCtrl) m k := by
    unfold initialGuessCurve
    dsimp only
    rw [pyGet_grid_zero hN, ok_bind]
    refine Returns.bind (Returns.forN (fun t (st : K × K) => ∃ k : ℕ,
      st.2 = (k : K) / (((2 * C.numCtrl : ℕ) : K) - 1) ∧ Best dist t st.1 k) (by omega) ?_ ?_) ?_
    · exact ⟨0, by simp, Or.inl ⟨rfl, rfl, fun j hj => absurd hj (by omega)⟩⟩
    · rintro i ⟨m, x⟩ - hi ⟨k, hk, hb⟩
      dsimp only at hk hb ⊢
      rw [pyGet_grid hi, ok_bind, (hQ i hi).1, ok_bind, vsub_same _ _ (hQ i hi).2, ok_bind]
      split
      · rename_i hlt
        exact Returns.ok ⟨i, rfl, hb.take hlt⟩
      · rename_i hge
        exact Returns.ok ⟨k, hk, hb.keep hge⟩
    · rintro ⟨m, x⟩ ⟨k, hk, hb⟩
      exact Returns.ok ⟨k, m, hk, hb⟩
  obtain ⟨u, hu, k, m, rfl, hb⟩ := key
  exact ⟨k, hb.lt hN, hu, hb.nearest⟩

/-- C38: every grid parameter, so every result, lies in `[0, 1]`. -/
theorem initial_guess_curve_mem (nm : Num K) (C : CurveLike K) (point : List K) (u : K)
    (h : initialGuessCurve nm C point = .ok u) : 0 ≤ u ∧ u ≤ 1 := by
  obtain ⟨k, hk, rfl⟩ := initialGuessCurve_grid h
  exact grid_mem_unit hk

/-- C39: `initial_guess_surf` returns the first nearest pair of the grid in row-major order if some
grid point is closer than `1e6`, and `(0, 0)` otherwise. -/
theorem initial_guess_surf_nearest (nm : Num K) (S : SurfLike K) (point : List K)
    (hu : 0 < S.numU) (hv : 0 < S.numV) (Q : ℕ → ℕ → List K)
    (hQ : ∀ a < 2 * S.numU, ∀ b < 2 * S.numV,
      S.singlePoint ((a : K) / (((2 * S.numU : ℕ) : K) - 1)) ((b : K) / (((2 * S.numV : ℕ) : K) - 1))
        = .ok (Q a b) ∧ point.length = (Q a b).length) :
    ∃ a < 2 * S.numU, ∃ b < 2 * S.numV,
      initialGuessSurf nm S point = .ok ((a : K) / (((2 * S.numU : ℕ) : K) - 1),
        (b : K) / (((2 * S.numV : ℕ) : K) - 1)) ∧
      ((∃ i < 2 * S.numU, ∃ j < 2 * S.numV, nm.norm (List.zipWith (· - ·) point (Q i j)) < 10 ^ 6) →
        (∀ i < 2 * S.numU, ∀ j < 2 * S.numV, nm.norm (List.zipWith (· - ·) point (Q a b))
          ≤ nm.norm (List.zipWith (· - ·) point (Q i j))) ∧
        ∀ i < 2 * S.numU, ∀ j < 2 * S.numV, (i < a ∨ i = a ∧ j < b) →
          nm.norm (List.zipWith (· - ·) point (Q a b))
            < nm.norm (List.zipWith (· - ·) point (Q i j))) ∧
      ((∀ i < 2 * S.numU, ∀ j < 2 * S.numV,
        10 ^ 6 ≤ nm.norm (List.zipWith (· - ·) point (Q i j))) → a = 0 ∧ b = 0) := by
  obtain ⟨M, hM⟩ : ∃ M, M = 2 * S.numV := ⟨_, rfl⟩
  have hM0 : 0 < M := by omega
  have hN : 0 < 2 * S.numU := by omega
  set dist : ℕ → K := fun t => nm.norm (List.zipWith (· - ·) point (Q (t / M) (t % M))) with hdist
  have hflat : ∀ i j, j < M → dist (i * M + j) = nm.norm (List.zipWith (· - ·) point (Q i j)) := by
    intro i j hj
    rw [hdist]
    dsimp only
    rw [Nat.mul_comm i M, Nat.mul_add_div hM0, Nat.mul_add_mod, Nat.div_eq_of_lt hj,
      Nat.mod_eq_of_lt hj, Nat.add_zero]
  have hlt : ∀ i j, i < 2 * S.numU → j < M → i * M + j < 2 * S.numU * M := by
    intro i j hi hj
    have := Nat.mul_le_mul_right M (Nat.succ_le_of_lt hi)
    rw [Nat.succ_mul] at this
    omega
  have key : Returns (initialGuessSurf nm S point) fun uv => ∃ k m,
      uv = (((k / M : ℕ) : K) / (((2 * S.numU : ℕ) : K) - 1), ((k % M : ℕ) : K) / ((M : K) - 1)) ∧
        Best dist (2 * S.numU * M) m k := by
    unfold initialGuessSurf
    dsimp only
    rw [← hM, pyGet_grid_zero hN, ok_bind, pyGet_grid_zero hM0, ok_bind]
    refine Returns.bind (Returns.forN (fun t (st : K × K × K) => ∃ k,
      st.2 = (((k / M : ℕ) : K) / (((2 * S.numU : ℕ) : K) - 1), ((k % M : ℕ) : K) / ((M : K) - 1)) ∧
        Best dist (t * M) st.1 k) (by omega) ?_ ?_) ?_
    · exact ⟨0, by simp, Or.inl ⟨rfl, rfl, fun j hj => absurd hj (by omega)⟩⟩
    · intro i st _ hi hinv
      refine Returns.mono (Returns.forN (fun t (st : K × K × K) => ∃ k,
        st.2 = (((k / M : ℕ) : K) / (((2 * S.numU : ℕ) : K) - 1), ((k % M : ℕ) : K) / ((M : K) - 1)) ∧
          Best dist (i * M + t) st.1 k) (by omega) (by simpa using hinv) ?_)
        (by intro st' h; rwa [Nat.succ_mul i M])
      rintro j ⟨m, x⟩ - hj ⟨k, hk, hb⟩
      dsimp only at hk hb ⊢
      obtain ⟨hq, hl⟩ := hQ i hi j (hM ▸ hj)
      rw [← hM] at hq
      rw [pyGet_grid hi, ok_bind, pyGet_grid hj, ok_bind, hq, ok_bind, vsub_same _ _ hl, ok_bind]
      rw [← hflat i j hj]
      split
      · rename_i h1
        refine Returns.ok ⟨i * M + j, ?_, hb.take h1⟩
        rw [Nat.mul_comm i M, Nat.mul_add_div hM0, Nat.mul_add_mod, Nat.div_eq_of_lt hj,
          Nat.mod_eq_of_lt hj, Nat.add_zero]
      · rename_i h1
        exact Returns.ok ⟨k, hk, hb.keep h1⟩
    · rintro ⟨m, x⟩ ⟨k, hk, hb⟩
      exact Returns.ok ⟨k, m, hk, hb⟩
  obtain ⟨u, hu, k, m, rfl, hb⟩ := key
  have hk := hb.lt (Nat.mul_pos hN hM0)
  have ha : k / M < 2 * S.numU := Nat.div_lt_of_lt_mul (by rwa [Nat.mul_comm] at hk)
  have hbm : k % M < M := Nat.mod_lt _ hM0
  have hdk : nm.norm (List.zipWith (· - ·) point (Q (k / M) (k % M))) = dist k := rfl
  rw [← hM]
  refine ⟨k / M, ha, k % M, hbm, hu, ?_, ?_⟩
  · rintro ⟨i, hi, j, hj, hh⟩
    rw [← hflat i j hj] at hh
    obtain ⟨h1, h2⟩ := hb.nearest.1 ⟨_, hlt i j hi hj, hh⟩
    refine ⟨fun i' hi' j' hj' => ?_, fun i' hi' j' hj' hor => ?_⟩
    · rw [hdk, ← hflat i' j' hj']
      exact h1 _ (hlt i' j' hi' hj')
    · rw [hdk, ← hflat i' j' hj']
      refine h2 _ ?_
      have hdm := Nat.div_add_mod k M
      rw [Nat.mul_comm] at hdm
      rcases hor with hor | ⟨rfl, hor⟩
      · have := Nat.mul_le_mul_right M (Nat.succ_le_of_lt hor)
        rw [Nat.succ_mul] at this
        omega
      · omega
  · intro h
    have : k = 0 := hb.nearest.2 fun t ht => by
      have h1 : t / M < 2 * S.numU := Nat.div_lt_of_lt_mul (by rwa [Nat.mul_comm] at ht)
      exact h _ h1 _ (Nat.mod_lt _ hM0)
    subst this
    simp

/-! ## C40, C41: curve inversion stays in range and stops -/

/-- C40: `curve_inversion` returns a parameter in `[0, 1]`. -/
theorem curve_inversion_mem (fuel : ℕ) (nm : Num K) (C : CurveLike K) (point : List K)
    (eps1 eps2 : K) (maxIter : ℤ) (u : K)
    (h : curveInversion fuel nm C point eps1 eps2 maxIter = .ok u) : 0 ≤ u ∧ u ≤ 1 := by
  unfold curveInversion at h
  obtain ⟨u0, h0, h⟩ := bind_eq_ok h
  have hm := initial_guess_curve_mem nm C point u0 h0
  obtain ⟨s, hs, h⟩ := bind_eq_ok h
  obtain ⟨c1, -, h⟩ := bind_eq_ok h
  split at h
  · cases h; exact hm
  obtain ⟨c2, -, h⟩ := bind_eq_ok h
  split at h
  · cases h; exact hm
  · exact curveLoop_mem fuel 0 s u (by rw [curveInfo_u hs]; exact hm.1)
      (by rw [curveInfo_u hs]; exact hm.2) h

/-- C40: `curve_inversion` evaluates the curve only at parameters in `[0, 1]`: curves that agree
there cannot be told apart. -/
theorem curve_inversion_reads_unit_interval (fuel : ℕ) (nm : Num K) {C D : CurveLike K}
    (h : C.AgreeOnUnit D) (point : List K) (eps1 eps2 : K) (maxIter : ℤ) :
    curveInversion fuel nm C point eps1 eps2 maxIter
      = curveInversion fuel nm D point eps1 eps2 maxIter := by
  unfold curveInversion
  rw [initialGuessCurve_congr h]
  cases hg : initialGuessCurve nm D point with
  | error e => rfl
  | ok u0 =>
    obtain ⟨h0, h1⟩ := initial_guess_curve_mem nm D point u0 hg
    simp only [ok_bind]
    rw [curveInfo_congr h h0 h1, curveCond1_congr h h0 h1]
    simp only [curveLoop_congr h]

/-- C41: the loop of `curve_inversion` does at most `max(1, max_iter + 2)` iterations: with that
much fuel it does not run out, and more fuel does not change the result. -/
theorem curve_inversion_iterations (nm : Num K) {C : CurveLike K} (hC : C.Total) (point : List K)
    (eps1 eps2 : K) (maxIter : ℤ) (fuel : ℕ) (hf : maxIter + 2 ≤ fuel) (hf1 : 1 ≤ fuel) :
    curveInversion fuel nm C point eps1 eps2 maxIter ≠ .error .diverged ∧
      ∀ extra, curveInversion (fuel + extra) nm C point eps1 eps2 maxIter
        = curveInversion fuel nm C point eps1 eps2 maxIter := by
  constructor
  · unfold curveInversion
    refine bind_ne_diverged (initialGuessCurve_ne_diverged hC _) fun _ _ =>
      bind_ne_diverged (curveInfo_ne_diverged hC _) fun _ _ =>
      bind_ne_diverged (curveCond1_ne_diverged hC _ _ _) fun _ _ => ?_
    split
    · simp
    refine bind_ne_diverged (curveCond2_ne_diverged _ _ _) fun _ _ => ?_
    split
    · simp
    · exact curveLoop_ne_diverged hC fuel 0 _ (by omega) hf1
  · intro extra
    unfold curveInversion
    simp only [curveLoop_fuel (maxIter := maxIter) fuel 0 _ extra (by omega) hf1]

/-- A norm on rational vectors that is Euclidean on the coordinate axes (for the witnesses). -/
def exNum : Num ℚ where
  norm l := (l.map fun x => |x|).sum
  zeroSign _ _ := true

/-- The straight segment `u ↦ (u, 0, 0)` with its exact derivatives. -/
def exLine : CurveLike ℚ where
  numCtrl := 2
  singlePoint u := .ok [u, 0, 0]
  ders u := .ok [[u, 0, 0], [1, 0, 0], [0, 0, 0]]

example : initialGuessCurve exNum exLine [1/2, 0, 0] = .ok (1/3) := by decide +kernel

/-- A black box on which Newton's method jumps between 0 and 1 for ever. -/
def exJump : CurveLike ℚ where
  numCtrl := 1
  singlePoint _ := .ok [5, 5, 0]
  ders u := .ok [[5, 5, 0], [if u = 0 then -4 else 4, 0, 0], [0, 0, 0]]

/-- C41: the bound is attained: with `max_iter = 3` five iterations are made. -/
theorem curve_inversion_iterations_sharp :
    curveInversion 4 exNum exJump [0, 0, 0] (1/10) (1/100) 3 = .error .diverged ∧
    curveInversion 5 exNum exJump [0, 0, 0] (1/10) (1/100) 3 ≠ .error .diverged := by
  decide +kernel

/-! ## C42: what the returned parameter satisfies -/

/-- C42, the witness: the parameter returned when the new iterate passes the convergence test is the
previous iterate.  Here the next iterate hits the point exactly, and the returned parameter misses
it by `1/6`. -/
theorem curve_inversion_returns_previous :
    curveInversion 102 exNum exLine [1/2, 0, 0] (1/100000) (1/100000) 100 = .ok (1/3) ∧
    curveCond1 exNum exLine [1/2, 0, 0] (1/100000) (1/3) = .ok false ∧
    curveCond2 exNum [1/2, 0, 0] (1/100000) ⟨1/3, [1/3, 0, 0], [1, 0, 0], [0, 0, 0]⟩ = .ok false ∧
    exLine.singlePoint (1/2) = .ok [1/2, 0, 0] := by
  decide +kernel

theorem curveLoop_fails_tests {nm : Num K} {C : CurveLike K} {point : List K} {eps1 eps2 : K}
    {maxIter : ℤ} (fuel : ℕ) : ∀ (j : ℤ) (s : CurveState K) (u : K),
    curveInfo C s.u = .ok s → curveCond1 nm C point eps1 s.u = .ok false →
    curveCond2 nm point eps2 s = .ok false →
    curveLoop nm C point eps1 eps2 maxIter fuel j s = .ok u →
    curveCond1 nm C point eps1 u = .ok false ∧
      ∃ s', curveInfo C u = .ok s' ∧ curveCond2 nm point eps2 s' = .ok false := by
  induction fuel with
  | zero => intro j s u _ _ _ h; cases h
  | succ fuel ih =>
    intro j s u hs h1 h2 h
    unfold curveLoop at h
    obtain ⟨r, -, h⟩ := bind_eq_ok h
    obtain ⟨num, -, h⟩ := bind_eq_ok h
    obtain ⟨d, -, h⟩ := bind_eq_ok h
    obtain ⟨u1, -, h⟩ := bind_eq_ok h
    split at h
    · cases h; exact ⟨h1, s, hs, h2⟩
    obtain ⟨s', hs', h⟩ := bind_eq_ok h
    obtain ⟨c1, hc1, h⟩ := bind_eq_ok h
    split at h
    · cases h; exact ⟨h1, s, hs, h2⟩
    rename_i hf1
    obtain ⟨c2, hc2, h⟩ := bind_eq_ok h
    split at h
    · cases h; exact ⟨h1, s, hs, h2⟩
    rename_i hf2
    rw [Bool.not_eq_true] at hf1 hf2
    subst hf1 hf2
    have hu := curveInfo_u hs'
    rw [← hu] at hs' hc1
    split at h
    · cases h; exact ⟨hc1, s', hs', hc2⟩
    · exact ih _ _ _ hs' hc1 hc2 h

/-- C42: `curve_inversion` never returns a converged parameter that it had to search for: if the
initial guess fails both convergence tests, so does the returned parameter. -/
theorem curve_inversion_fails_tests (fuel : ℕ) (nm : Num K) (C : CurveLike K) (point : List K)
    (eps1 eps2 : K) (maxIter : ℤ) (u0 u : K) (s : CurveState K)
    (hg : initialGuessCurve nm C point = .ok u0) (hs : curveInfo C u0 = .ok s)
    (h1 : curveCond1 nm C point eps1 u0 = .ok false) (h2 : curveCond2 nm point eps2 s = .ok false)
    (h : curveInversion fuel nm C point eps1 eps2 maxIter = .ok u) :
    curveCond1 nm C point eps1 u = .ok false ∧
      ∃ s', curveInfo C u = .ok s' ∧ curveCond2 nm point eps2 s' = .ok false := by
  unfold curveInversion at h
  rw [hg, ok_bind, hs, ok_bind, h1, ok_bind, if_neg (by simp), h2, ok_bind, if_neg (by simp)] at h
  have hu := curveInfo_u hs
  rw [← hu] at hs h1
  exact curveLoop_fails_tests fuel 0 s u hs h1 h2 h

/-- C42 (the part that holds): if the initial guess passes one of the two tests, it is returned. -/
theorem curve_inversion_initial_accept (fuel : ℕ) (nm : Num K) (C : CurveLike K) (point : List K)
    (eps1 eps2 : K) (maxIter : ℤ) (u : K) (s : CurveState K)
    (hg : initialGuessCurve nm C point = .ok u) (hs : curveInfo C u = .ok s)
    (h : curveCond1 nm C point eps1 u = .ok true ∨
      curveCond1 nm C point eps1 u = .ok false ∧ curveCond2 nm point eps2 s = .ok true) :
    curveInversion fuel nm C point eps1 eps2 maxIter = .ok u := by
  unfold curveInversion
  rw [hg, ok_bind, hs, ok_bind]
  rcases h with h | ⟨h, h'⟩
  · rw [h]; rfl
  · rw [h, ok_bind, if_neg (by simp), h']; rfl

/-! ## C76: straight lines -/

/-- The black box is the straight line `A + u B` with exact derivatives on `[0, 1]`. -/
structure IsLine (C : CurveLike K) (a1 a2 a3 b1 b2 b3 : K) : Prop where
  pt : ∀ u, 0 ≤ u → u ≤ 1 → C.singlePoint u = .ok [a1 + u * b1, a2 + u * b2, a3 + u * b3]
  ders : ∀ u, 0 ≤ u → u ≤ 1 → C.ders u
    = .ok [[a1 + u * b1, a2 + u * b2, a3 + u * b3], [b1, b2, b3], [0, 0, 0]]

/-- `nm.norm` is the Euclidean norm on 3-D vectors. -/
structure Euclidean (nm : Num K) : Prop where
  nonneg : ∀ x y z, 0 ≤ nm.norm [x, y, z]
  sq : ∀ x y z, nm.norm [x, y, z] ^ 2 = x ^ 2 + y ^ 2 + z ^ 2

theorem Euclidean.zero {nm : Num K} (h : Euclidean nm) : nm.norm [0, 0, 0] = 0 := by
  have := h.sq 0 0 0
  have h2 : nm.norm [0, 0, 0] ^ 2 = 0 := by rw [this]; ring
  exact pow_eq_zero_iff (by norm_num) |>.1 h2

theorem IsLine.info {C : CurveLike K} {a1 a2 a3 b1 b2 b3 : K} (h : IsLine C a1 a2 a3 b1 b2 b3) {u : K}
    (h0 : 0 ≤ u) (h1 : u ≤ 1) : curveInfo C u
      = .ok ⟨u, [a1 + u * b1, a2 + u * b2, a3 + u * b3], [b1, b2, b3], [0, 0, 0]⟩ := by
  unfold curveInfo
  rw [h.ders u h0 h1]
  rfl

theorem IsLine.cond1 {nm : Num K} {C : CurveLike K} {a1 a2 a3 b1 b2 b3 : K}
    (h : IsLine C a1 a2 a3 b1 b2 b3) {u : K}
    (h0 : 0 ≤ u) (h1 : u ≤ 1) (p1 p2 p3 eps : K) : curveCond1 nm C [p1, p2, p3] eps u
      = .ok (decide (nm.norm [a1 + u * b1 - p1, a2 + u * b2 - p2, a3 + u * b3 - p3] ≤ eps)) := by
  unfold curveCond1
  rw [h.pt u h0 h1, ok_bind, vsub_three]
  rfl

/-- C76: on a straight line with exact derivatives `curve_inversion` always returns one of the
`2n` grid parameters of the initial guess, although the first Newton step from any point of a line
is exact: the refined parameter is computed and discarded. -/
theorem line_inversion_quantised (fuel : ℕ) {nm : Num K} (hE : Euclidean nm) {C : CurveLike K}
    (hn : 0 < C.numCtrl) {a1 a2 a3 b1 b2 b3 : K} (hC : IsLine C a1 a2 a3 b1 b2 b3)
    (hb : b1 ^ 2 + b2 ^ 2 + b3 ^ 2 ≠ 0) (p1 p2 p3 : K) {eps1 eps2 : K} (he1 : 0 ≤ eps1)
    (he2 : 0 ≤ eps2) {maxIter : ℤ} (hm : 0 ≤ maxIter) (hf : 2 ≤ fuel) :
    ∃ k < 2 * C.numCtrl, curveInversion fuel nm C [p1, p2, p3] eps1 eps2 maxIter
      = .ok ((k : K) / (((2 * C.numCtrl : ℕ) : K) - 1)) := by
  obtain ⟨fuel, rfl⟩ : ∃ f, fuel = f + 2 := ⟨fuel - 2, by omega⟩
  obtain ⟨k, hk, hg, -⟩ := initial_guess_curve_nearest nm C [p1, p2, p3] hn
    (fun k => let u := (k : K) / (((2 * C.numCtrl : ℕ) : K) - 1)
      [a1 + u * b1, a2 + u * b2, a3 + u * b3])
    (fun k hk => ⟨hC.pt _ (grid_mem_unit hk).1 (grid_mem_unit hk).2, rfl⟩)
  set u0 := (k : K) / (((2 * C.numCtrl : ℕ) : K) - 1) with hu0
  obtain ⟨h0, h1⟩ : 0 ≤ u0 ∧ u0 ≤ 1 := grid_mem_unit hk
  -- the Newton step does not depend on where it starts
  set b := nm.norm [b1, b2, b3] ^ 2 with hbdef
  have hbne : b ≠ 0 := by rw [hbdef, hE.sq]; exact hb
  set ustar := -(b1 * (a1 - p1) + b2 * (a2 - p2) + b3 * (a3 - p3)) / b with hustar
  have hstep : ∀ u : K, newtonStep nm u
      (b1 * (a1 + u * b1 - p1) + (b2 * (a2 + u * b2 - p2) + b3 * (a3 + u * b3 - p3)))
      (0 * (a1 + u * b1 - p1) + (0 * (a2 + u * b2 - p2) + 0 * (a3 + u * b3 - p3)) + b)
      = .ok (clamp01 ustar) := by
    intro u
    unfold newtonStep
    have hd : (0 * (a1 + u * b1 - p1) + (0 * (a2 + u * b2 - p2) + 0 * (a3 + u * b3 - p3)) + b) = b := by
      ring
    rw [hd, if_neg hbne]
    congr 2
    rw [hustar]
    have : u = u * b / b := by field_simp
    have hb2 : b = b1 ^ 2 + b2 ^ 2 + b3 ^ 2 := by rw [hbdef, hE.sq]
    rw [this, ← sub_div]
    congr 1
    rw [← this]
    rw [hb2]
    ring
  obtain ⟨hc0, hc1⟩ := clamp01_mem ustar
  have hret : ∀ u, (u = u0 ∨ u = 0 ∨ u = 1) → ∃ k < 2 * C.numCtrl,
      (Except.ok u : Py K) = .ok ((k : K) / (((2 * C.numCtrl : ℕ) : K) - 1)) := by
    rintro u (rfl | rfl | rfl)
    · exact ⟨k, hk, rfl⟩
    · exact ⟨0, by omega, by simp⟩
    · refine ⟨2 * C.numCtrl - 1, by omega, ?_⟩
      have h2 : ((2 * C.numCtrl - 1 : ℕ) : K) = ((2 * C.numCtrl : ℕ) : K) - 1 := by
        rw [Nat.cast_sub (by omega), Nat.cast_one]
      rw [h2, div_self]
      rw [← h2]
      exact Nat.cast_ne_zero.2 (by omega)
  have hdot : ∀ u x : K, dot [x, x, x] [a1 + u * b1 - p1, a2 + u * b2 - p2, a3 + u * b3 - p3]
      = .ok (x * (a1 + u * b1 - p1) + (x * (a2 + u * b2 - p2) + x * (a3 + u * b3 - p3))) := by
    intro u x; simp [dot]
  have hdotb : ∀ u : K, dot [b1, b2, b3] [a1 + u * b1 - p1, a2 + u * b2 - p2, a3 + u * b3 - p3]
      = .ok (b1 * (a1 + u * b1 - p1) + (b2 * (a2 + u * b2 - p2) + b3 * (a3 + u * b3 - p3))) := by
    intro u; simp [dot]
  have hsub : ∀ u : K, vsub [a1 + u * b1, a2 + u * b2, a3 + u * b3] [p1, p2, p3]
      = .ok [a1 + u * b1 - p1, a2 + u * b2 - p2, a3 + u * b3 - p3] := by
    intro u; rw [vsub_three]
  unfold curveInversion
  rw [hg, ok_bind, hC.info h0 h1, ok_bind, hC.cond1 h0 h1, ok_bind]
  split
  · exact hret _ (Or.inl rfl)
  rw [line_cond2, ok_bind]
  split
  · exact hret _ (Or.inl rfl)
  unfold curveLoop
  dsimp only
  rw [hsub, ok_bind, hdotb, ok_bind, hdot, ok_bind, hstep, ok_bind]
  split
  · exact hret _ (Or.inl rfl)
  rw [hC.info hc0 hc1, ok_bind, hC.cond1 hc0 hc1, ok_bind]
  split
  · exact hret _ (Or.inl rfl)
  rename_i hcond1
  rw [line_cond2, ok_bind]
  split
  · exact hret _ (Or.inl rfl)
  rename_i hcond2
  rw [if_neg (by omega)]
  -- both tests failed: the step was clamped
  have hclamp : clamp01 ustar = 0 ∨ clamp01 ustar = 1 := by
    by_contra hne
    push Not at hne
    have hcu : clamp01 ustar = ustar := by
      unfold clamp01 at hne ⊢
      split
      · rename_i h; rw [if_pos h] at hne; exact absurd rfl hne.1
      split
      · rename_i h1 h2; rw [if_neg h1, if_pos h2] at hne; exact absurd rfl hne.2
      · rfl
    have hzero : b1 * (a1 + clamp01 ustar * b1 - p1) + (b2 * (a2 + clamp01 ustar * b2 - p2)
        + b3 * (a3 + clamp01 ustar * b3 - p3)) = 0 := by
      have hb2 : b = b1 ^ 2 + b2 ^ 2 + b3 ^ 2 := by rw [hbdef, hE.sq]
      have : b1 * (a1 + clamp01 ustar * b1 - p1) + (b2 * (a2 + clamp01 ustar * b2 - p2)
        + b3 * (a3 + clamp01 ustar * b3 - p3))
        = (b1 * (a1 - p1) + b2 * (a2 - p2) + b3 * (a3 - p3)) + ustar * b := by
        rw [hcu, hb2]; ring
      rw [this, hustar, div_mul_cancel₀ _ hbne]
      ring
    rw [hzero, abs_zero] at hcond2
    apply hcond2
    unfold ratioLe
    rw [if_neg, zero_div]
    · simpa using he2
    · refine mul_ne_zero (fun h => hbne (by rw [hbdef, h]; ring)) fun h => hcond1 ?_
      simpa [h] using he1
  unfold curveLoop
  dsimp only
  rw [hsub, ok_bind, hdotb, ok_bind, hdot, ok_bind, hstep, ok_bind, if_pos]
  · exact hret _ (Or.inr hclamp)
  · simpa [hE.zero] using he1

example : curveInversion 102 exNum exLine [9/20, 0, 0] (1/100000) (1/100000) 100 = .ok (1/3) := by
  decide +kernel

/-! ## C77: the committed curve class -/

/-- C77: `curve_inversion` never returns a parameter for a `BSplineCurve` of the committed class
(its `derivatives` always raises). -/
theorem curve_inversion_bspline_raises (fuel : ℕ) (nm : Num K) (norm : List K → K) (c : Curve K)
    (point : List K) (eps1 eps2 : K) (maxIter : ℤ) :
    Raises (curveInversion fuel nm (c.like norm) point eps1 eps2 maxIter) := by
  unfold curveInversion
  refine Raises.of_bind fun u => Raises.bind_left ?_
  unfold curveInfo
  exact Raises.bind_left (curve_derivatives_raises norm c u 2 false)

/-- C77: so `parameterize_curve` raises for every non-empty data array. -/
theorem parameterize_curve_bspline_raises (nm : Num K) (norm : List K → K) (c : Curve K)
    (data : List (List K)) (hd : data ≠ []) :
    Raises (parameterizeCurve nm (c.like norm) data) := by
  obtain ⟨p, ps, rfl⟩ := List.exists_cons_of_ne_nil hd
  unfold parameterizeCurve
  refine Raises.bind_left ?_
  unfold mapPy
  exact Raises.bind_left (Raises.bind_left (curve_inversion_bspline_raises _ _ _ _ _ _ _ _))

/-! ## C43, C78, C79: surface inversion -/

/-- C43: `surface_inversion` returns a pair in the unit square. -/
theorem surface_inversion_mem (fuel : ℕ) (nm : Num K) (S : SurfLike K) (point : List K)
    (eps1 eps2 : K) (maxIter : ℤ) (uv : K × K)
    (h : surfaceInversion fuel nm S point eps1 eps2 maxIter = .ok uv) :
    (0 ≤ uv.1 ∧ uv.1 ≤ 1) ∧ 0 ≤ uv.2 ∧ uv.2 ≤ 1 := by
  unfold surfaceInversion at h
  obtain ⟨⟨u0, v0⟩, h0, h⟩ := bind_eq_ok h
  have hm : (0 ≤ u0 ∧ u0 ≤ 1) ∧ 0 ≤ v0 ∧ v0 ≤ 1 := by
    obtain ⟨⟨k, hk, e⟩, l, hl, e'⟩ := initialGuessSurf_grid h0
    dsimp only at e e'
    rw [e, e']
    exact ⟨grid_mem_unit hk, grid_mem_unit hl⟩
  dsimp only at h
  obtain ⟨s, hs, h⟩ := bind_eq_ok h
  obtain ⟨c1, -, h⟩ := bind_eq_ok h
  split at h
  · cases h; exact hm
  obtain ⟨c2, -, h⟩ := bind_eq_ok h
  split at h
  · cases h; exact hm
  · exact surfLoop_mem fuel 0 _ _ _ _ h

/-- C43: `surface_inversion` evaluates the surface only in the unit square. -/
theorem surface_inversion_reads_unit_square (fuel : ℕ) (nm : Num K) {S T : SurfLike K}
    (h : S.AgreeOnUnit T) (point : List K) (eps1 eps2 : K) (maxIter : ℤ) :
    surfaceInversion fuel nm S point eps1 eps2 maxIter
      = surfaceInversion fuel nm T point eps1 eps2 maxIter := by
  unfold surfaceInversion
  rw [initialGuessSurf_congr h.numU h.numV h.pt]
  cases hg : initialGuessSurf nm T point with
  | error e => rfl
  | ok uv =>
    obtain ⟨u0, v0⟩ := uv
    obtain ⟨⟨k, hk, e⟩, l, hl, e'⟩ := initialGuessSurf_grid hg
    dsimp only at e e'
    have hu := grid_mem_unit (K := K) hk
    have hv := grid_mem_unit (K := K) hl
    rw [← e] at hu
    rw [← e'] at hv
    have hp := h.pt u0 v0 hu.1 hu.2 hv.1 hv.2
    simp only [ok_bind]
    rw [surfInfo_congr (h.ders u0 v0 hu.1 hu.2 hv.1 hv.2), surfCond1_congr hp]
    simp only [surfCond2_congr hp, surfLoop_congr h point eps1 eps2 maxIter fuel 0 u0 v0 _ hu.1 hu.2
      hv.1 hv.2]

/-- C43: the loop of `surface_inversion` does at most `max(1, max_iter + 1)` iterations. -/
theorem surface_inversion_iterations (nm : Num K) {S : SurfLike K} (hS : S.Total) (point : List K)
    (eps1 eps2 : K) (maxIter : ℤ) (fuel : ℕ) (hf : maxIter + 1 ≤ fuel) (hf1 : 1 ≤ fuel) :
    surfaceInversion fuel nm S point eps1 eps2 maxIter ≠ .error .diverged ∧
      ∀ extra, surfaceInversion (fuel + extra) nm S point eps1 eps2 maxIter
        = surfaceInversion fuel nm S point eps1 eps2 maxIter := by
  constructor
  · unfold surfaceInversion
    refine bind_ne_diverged (initialGuessSurf_ne_diverged hS _) ?_
    rintro ⟨u0, v0⟩ -
    dsimp only
    refine bind_ne_diverged (surfInfo_ne_diverged hS _ _) fun _ _ =>
      bind_ne_diverged (surfCond1_ne_diverged hS _ _ _ _) fun _ _ => ?_
    split
    · simp
    refine bind_ne_diverged (surfCond2_ne_diverged hS _ _ _ _ _) fun _ _ => ?_
    split
    · simp
    · exact surfLoop_ne_diverged hS fuel 0 _ _ _ (by omega) hf1
  · intro extra
    unfold surfaceInversion
    simp only [surfLoop_fuel (maxIter := maxIter) fuel 0 _ _ _ extra (by omega) hf1]

/-- A black-box surface in three dimensions whose methods return arrays of the right shape on the
unit square. -/
structure SurfLike.Good (S : SurfLike K) : Prop where
  pt : ∀ u v, 0 ≤ u → u ≤ 1 → 0 ≤ v → v ≤ 1 → ∃ q, S.singlePoint u v = .ok q ∧ q.length = 3
  ders : ∀ u v, 0 ≤ u → u ≤ 1 → 0 ≤ v → v ≤ 1 → ∃ rows, S.ders u v = .ok rows ∧ Shape rows 9 3

theorem SurfLike.Good.info {S : SurfLike K} (h : S.Good) {u v : K} (h1 : 0 ≤ u) (h2 : u ≤ 1)
    (h3 : 0 ≤ v) (h4 : v ≤ 1) : ∃ d, surfInfo S u v = .ok d ∧ d.du.length = 3 ∧ d.dv.length = 3 := by
  obtain ⟨rows, hr, hs⟩ := h.ders u v h1 h2 h3 h4
  unfold surfInfo
  rw [hr, ok_bind, pyGet_nat _ 3 3 [] rfl (by rw [hs.1]; omega), ok_bind,
    pyGet_nat _ 1 1 [] rfl (by rw [hs.1]; omega), ok_bind,
    pyGet_nat _ 6 6 [] rfl (by rw [hs.1]; omega), ok_bind,
    pyGet_nat _ 2 2 [] rfl (by rw [hs.1]; omega), ok_bind,
    pyGet_nat _ 4 4 [] rfl (by rw [hs.1]; omega), ok_bind]
  exact ⟨_, rfl, hs.row (by omega), hs.row (by omega)⟩

theorem SurfLike.Good.cond1 {nm : Num K} {S : SurfLike K} (h : S.Good) {u v : K} (h1 : 0 ≤ u)
    (h2 : u ≤ 1) (h3 : 0 ≤ v) (h4 : v ≤ 1) {p : List K} (hp : p.length = 3) (e : K) :
    ∃ b, surfCond1 nm S p e u v = .ok b := by
  obtain ⟨q, hq, hl⟩ := h.pt u v h1 h2 h3 h4
  unfold surfCond1
  rw [hq, ok_bind, vsub_same _ _ (hl.trans hp.symm)]
  exact ⟨_, rfl⟩

theorem SurfLike.Good.cond2 {nm : Num K} {S : SurfLike K} (h : S.Good) {u v : K} (h1 : 0 ≤ u)
    (h2 : u ≤ 1) (h3 : 0 ≤ v) (h4 : v ≤ 1) {p : List K} (hp : p.length = 3) (e : K) {d : SurfDers K}
    (hd : d.du.length = 3) (hd' : d.dv.length = 3) : ∃ b, surfCond2 nm S p e u v d = .ok b := by
  obtain ⟨q, hq, hl⟩ := h.pt u v h1 h2 h3 h4
  unfold surfCond2
  rw [hq, ok_bind, vsub_same _ _ (hl.trans hp.symm), ok_bind]
  have : (List.zipWith (· - ·) q p).length = 3 := by simp [hl, hp]
  unfold dot
  rw [if_pos (hd.trans this.symm), if_pos (hd'.trans this.symm)]
  exact ⟨_, rfl⟩

/-- C78: the derivatives used by `surface_inversion` lag one step behind: with `max_iter = 1` both
Newton steps use the derivatives at the initial guess, so two surfaces with the same points whose
derivatives agree only at the initial guess get the same result. -/
theorem surface_inversion_stale_derivatives (fuel : ℕ) (nm : Num K) {S T : SurfLike K}
    (hS : S.Good) (hT : T.Good) (hU : S.numU = T.numU) (hV : S.numV = T.numV)
    (hpt : ∀ u v, 0 ≤ u → u ≤ 1 → 0 ≤ v → v ≤ 1 → S.singlePoint u v = T.singlePoint u v)
    {point : List K} (hp : point.length = 3)
    (hd : ∀ u v, initialGuessSurf nm S point = .ok (u, v) → S.ders u v = T.ders u v)
    (eps1 eps2 : K) :
    surfaceInversion fuel nm S point eps1 eps2 1 = surfaceInversion fuel nm T point eps1 eps2 1 := by
  unfold surfaceInversion
  rw [← initialGuessSurf_congr hU hV hpt]
  cases hg : initialGuessSurf nm S point with
  | error e => rfl
  | ok uv =>
    obtain ⟨u0, v0⟩ := uv
    obtain ⟨⟨k, hk, e⟩, l, hl, e'⟩ := initialGuessSurf_grid hg
    dsimp only at e e'
    have hu := grid_mem_unit (K := K) hk
    have hv := grid_mem_unit (K := K) hl
    rw [← e] at hu
    rw [← e'] at hv
    have hp0 := hpt u0 v0 hu.1 hu.2 hv.1 hv.2
    have hd0 := hd u0 v0 hg
    simp only [ok_bind]
    rw [surfInfo_congr hd0, surfCond1_congr hp0]
    simp only [surfCond2_congr hp0]
    obtain ⟨d, hinfo, -, -⟩ := hT.info hu.1 hu.2 hv.1 hv.2
    rw [hinfo, ok_bind, ok_bind]
    cases hc1 : surfCond1 nm T point eps1 u0 v0 with
    | error e => rfl
    | ok c1 =>
      cases hc2 : surfCond2 nm T point eps2 u0 v0 d with
      | error e => rfl
      | ok c2 =>
        simp only [ok_bind]
        suffices H : surfLoop nm S point eps1 eps2 1 fuel 0 u0 v0 d
            = surfLoop nm T point eps1 eps2 1 fuel 0 u0 v0 d by rw [H]
        cases fuel with
        | zero => rfl
        | succ fuel =>
          unfold surfLoop
          rw [surfStep_congr hp0, surfInfo_congr hd0, hinfo]
          cases hn : surfStep nm T point u0 v0 d with
          | error e => rfl
          | ok uv =>
            obtain ⟨⟨h1, h2⟩, h3, h4⟩ := surfStep_mem hn
            obtain ⟨u1, v1⟩ := uv
            have hp1 := hpt u1 v1 h1 h2 h3 h4
            simp only [ok_bind]
            rw [surfCond1_congr hp1]
            simp only [surfCond2_congr hp1]
            suffices H : surfLoop nm S point eps1 eps2 1 fuel (0 + 1) u1 v1 d
                = surfLoop nm T point eps1 eps2 1 fuel (0 + 1) u1 v1 d by rw [H]
            cases fuel with
            | zero => rfl
            | succ fuel =>
              unfold surfLoop
              rw [surfStep_congr hp1]
              cases hn : surfStep nm T point u1 v1 d with
              | error e => rfl
              | ok uv =>
                obtain ⟨⟨g1, g2⟩, g3, g4⟩ := surfStep_mem hn
                obtain ⟨u2, v2⟩ := uv
                have hp2 := hpt u2 v2 g1 g2 g3 g4
                obtain ⟨dS, hiS, hS1, hS2⟩ := hS.info h1 h2 h3 h4
                obtain ⟨dT, hiT, hT1, hT2⟩ := hT.info h1 h2 h3 h4
                obtain ⟨cS, hcS⟩ := hS.cond2 (nm := nm) g1 g2 g3 g4 hp eps2 hS1 hS2
                obtain ⟨cT, hcT⟩ := hT.cond2 (nm := nm) g1 g2 g3 g4 hp eps2 hT1 hT2
                simp only [ok_bind]
                rw [hiS, hiT, ok_bind, ok_bind, surfCond1_congr hp2, hcS, hcT, ok_bind, ok_bind]
                simp only [show (0 : ℤ) + 1 ≥ 1 by omega, if_true, ite_self]

/-- C79: for a `BSplineSurface` with both degrees at least 2 the five rows taken from
`derivatives(u, v, 2, 2)` are the partial derivatives they are named after. -/
theorem surface_rows_degree_two (norm : List K → K) {s : Surface K} (hs : SurfaceOk s) {u v : K}
    (hu : 0 ≤ u ∧ u ≤ 1) (hv : 0 ≤ v ∧ v ≤ 1) (ru : Regular s.degreeU s.numU s.kvU u)
    (rv : Regular s.degreeV s.numV s.kvV v) (hdu : 2 ≤ s.degreeU) (hdv : 2 ≤ s.degreeV) :
    ∃ m k, knotFn s.kvU m ≤ u ∧ u ≤ knotFn s.kvU (m + 1) ∧
      knotFn s.kvV k ≤ v ∧ v ≤ knotFn s.kvV (k + 1) ∧
      knotFn s.kvU m < knotFn s.kvU (m + 1) ∧ knotFn s.kvV k < knotFn s.kvV (k + 1) ∧
      let D : ℕ → ℕ → List K := fun a b => (List.range 3).map fun c =>
        patchDeriv (knotFn s.kvU) m s.degreeU s.numU (knotFn s.kvV) k s.degreeV s.numV
          (coord s.ctrlpts c) a b u v
      surfInfo (s.like norm) u v = .ok ⟨D 1 0, D 0 1, D 2 0, D 0 2, D 1 1⟩ := by
  obtain ⟨m, k, h1, h2, h3, h4, h5, h6, h⟩ := surface_derivatives_layout norm hs hu hv ru rv 2 2
  refine ⟨m, k, h1, h2, h3, h4, h5, h6, ?_⟩
  obtain ⟨rows, hr, hl, hrow⟩ := h false
  rw [Nat.min_eq_left hdu, Nat.min_eq_left hdv] at hl
  rw [Nat.min_eq_left hdu, Nat.min_eq_left hdv] at hrow
  have hsc : ∀ (b : Bool) (l : List K), scaledRow norm false b l = l := by
    intro b l; simp [scaledRow]
  simp only [hsc] at hrow
  unfold surfInfo Surface.like
  dsimp only
  rw [hr, ok_bind, pyGet_nat _ 3 3 [] rfl (by omega), ok_bind,
    pyGet_nat _ 1 1 [] rfl (by omega), ok_bind, pyGet_nat _ 6 6 [] rfl (by omega), ok_bind,
    pyGet_nat _ 2 2 [] rfl (by omega), ok_bind, pyGet_nat _ 4 4 [] rfl (by omega), ok_bind]
  rw [show (3 : ℕ) = 1 * (2 + 1) + 0 by norm_num, hrow 1 (by omega) 0 (by omega)]
  have e1 := hrow 0 (by omega) 1 (by omega)
  have e2 := hrow 0 (by omega) 2 (by omega)
  have e4 := hrow 1 (by omega) 1 (by omega)
  have e6 := hrow 2 (by omega) 0 (by omega)
  rw [show 0 * (2 + 1) + 1 = 1 by rfl] at e1
  rw [show 0 * (2 + 1) + 2 = 2 by rfl] at e2
  rw [show 1 * (2 + 1) + 1 = 4 by rfl] at e4
  rw [show 2 * (2 + 1) + 0 = 6 by rfl] at e6
  rw [e1, e2, e4, e6]

/-- C79: with a degree below 2 `derivatives` returns at most six rows and reading row 6 raises
`IndexError`: no point can be inverted on such a surface. -/
theorem surface_rows_degree_one (norm : List K → K) {s : Surface K} (hs : SurfaceOk s) {u v : K}
    (hu : 0 ≤ u ∧ u ≤ 1) (hv : 0 ≤ v ∧ v ≤ 1) (ru : Regular s.degreeU s.numU s.kvU u)
    (rv : Regular s.degreeV s.numV s.kvV v) (hd : s.degreeU < 2 ∨ s.degreeV < 2) :
    surfInfo (s.like norm) u v = .error .indexError := by
  obtain ⟨m, k, -, -, -, -, -, -, h⟩ := surface_derivatives_layout norm hs hu hv ru rv 2 2
  obtain ⟨rows, hr, hl, -⟩ := h false
  have hlen : rows.length ≤ 6 := by
    rw [hl]
    rcases hd with hd | hd
    · calc _ ≤ 2 * 3 := Nat.mul_le_mul (by omega) (by omega)
        _ = 6 := rfl
    · calc _ ≤ 3 * 2 := Nat.mul_le_mul (by omega) (by omega)
        _ = 6 := rfl
  unfold surfInfo Surface.like
  dsimp only
  rw [hr, ok_bind]
  have hget : ∀ i : ℤ, 0 ≤ i → pyGet rows i = .error .indexError ∨ ∃ x, pyGet rows i = .ok x := by
    intro i hi
    by_cases h : i < rows.length
    · exact Or.inr ⟨_, pyGet_nat _ i i.toNat [] (by omega) (by omega)⟩
    · left
      unfold pyGet pyIdx
      rw [if_neg (by omega), if_neg (by omega)]
      rfl
  rcases hget 3 (by omega) with h3 | ⟨x, h3⟩
  · rw [h3]; rfl
  rw [h3, ok_bind]
  rcases hget 1 (by omega) with h3 | ⟨x, h3⟩
  · rw [h3]; rfl
  rw [h3, ok_bind]
  have h6 : pyGet rows 6 = .error .indexError := by
    unfold pyGet pyIdx
    rw [if_neg (by omega), if_neg (by omega)]
    rfl
  rw [h6]
  rfl

/-- A flat patch for the examples. -/
def exFlat : SurfLike ℚ where
  numU := 1
  numV := 1
  singlePoint u v := .ok [u, v, 0]
  ders u v := .ok [[u, v, 0], [0, 1, 0], [0, 0, 0], [1, 0, 0], [0, 0, 0], [0, 0, 0],
    [0, 0, 0], [0, 0, 0], [0, 0, 0]]

example : surfaceInversion 101 exNum exFlat [1/3, 1/4, 0] (1/100000) (1/100000) 100
    = .ok (1/3, 1/4) := by decide +kernel
example : surfaceInversion 101 exNum exFlat [1/3, 2, 0] (1/100000) (1/100000) 100
    = .ok (1/3, 1) := by decide +kernel

/-- The default tolerances are sharp: the start value is kept at distance `10⁻⁵` or cosine `10⁻⁵`, not beyond. -/
theorem surface_inversion_default_tolerances :
    surfaceInversionD exNum exFlat [1/100000, 0, 0] = .ok (0, 0) ∧
    surfaceInversionD exNum exFlat [11/1000000, 0, 0] = .ok (11/1000000, 0) ∧
    surfaceInversionD exNum exFlat [1/4, 0, 99999/4] = .ok (0, 0) ∧
    surfaceInversionD exNum exFlat [1/4, 0, 24999] = .ok (1/4, 0) := by
  decide +kernel

/-- A curve on which every Newton step towards the origin adds 1/1000. -/
def exSlow : CurveLike ℚ where
  numCtrl := 1
  singlePoint _ := .ok [1, 0, 0]
  ders _ := .ok [[1, 0, 0], [-1, 0, 0], [999, 0, 0]]

/-- The surface with the same steps in the first direction. -/
def exSlowSurf : SurfLike ℚ where
  numU := 1
  numV := 1
  singlePoint _ _ := .ok [1, 0, 0]
  ders _ _ := .ok [[1, 0, 0], [0, 1, 0], [0, 0, 0], [-1, 0, 0], [0, 0, 0], [0, 0, 0], [999, 0, 0], [0, 0, 0], [0, 0, 0]]

/-- C41, C43: with the default limit of 100 `curve_inversion` makes up to 102 Newton steps, `surface_inversion` up to
101. -/
theorem inversion_default_iterations :
    curveInversionD exNum exSlow [0, 0, 0] = .ok (102/1000) ∧
    surfaceInversionD exNum exSlowSurf [0, 0, 0] = .ok (101/1000, 0) := by
  decide +kernel

/-! ## C44–C46: parameterizing data -/

/-- C44: the result of `parameterize_curve` has one row per data point, the point followed by its
inversion parameter; these rows are rearranged so that the parameters ascend. -/
theorem parameterize_curve_rows (nm : Num K) (C : CurveLike K) (data rows : List (List K))
    (h : parameterizeCurve nm C data = .ok rows) :
    ∃ us, mapPy (curveInversionD nm C) data = .ok us ∧
      rows.Perm (List.zipWith (fun p u => p ++ [u]) data us) ∧
      rows.Pairwise (fun a b => a.getD 3 0 ≤ b.getD 3 0) ∧ Shape rows data.length 4 := by
  unfold parameterizeCurve at h
  obtain ⟨rs, hrs, h⟩ := bind_eq_ok h
  split at h
  · rename_i hall
    cases h
    obtain ⟨us, hus, rfl⟩ := mapPy_bind_ok hrs
    have hl : us.length = data.length := by
      clear hall hrs h
      induction data generalizing us with
      | nil => cases hus; rfl
      | cons x xs ih =>
        unfold mapPy at hus
        obtain ⟨r, hr, hus⟩ := bind_eq_ok hus
        obtain ⟨rs, hrs, hus⟩ := bind_eq_ok hus
        cases hus
        simp [ih _ hrs]
    refine ⟨us, hus, npSortRows_perm _ _, (npSortRows_sorted _ _).imp key_head_le, ?_, ?_⟩
    · rw [(npSortRows_perm _ _).length_eq]; simp [hl]
    · intro row hrow
      have := (npSortRows_perm _ _).mem_iff.1 hrow
      simpa using List.all_eq_true.1 hall row this
  · cases h

/-- C45: the result of `parameterize_curve` does not depend on the order of the data points. -/
theorem parameterize_curve_perm (nm : Num K) (C : CurveLike K) {data data' rows : List (List K)}
    (hp : data.Perm data') (h : parameterizeCurve nm C data = .ok rows) :
    parameterizeCurve nm C data' = .ok rows := by
  unfold parameterizeCurve at h ⊢
  obtain ⟨rs, hrs, h⟩ := bind_eq_ok h
  obtain ⟨rs', hrs', hp'⟩ := mapPy_perm hp hrs
  rw [hrs', ok_bind]
  split at h
  · rename_i hall
    cases h
    have hl : ∀ r ∈ rs, r.length = 4 := fun r hr => by simpa using List.all_eq_true.1 hall r hr
    rw [if_pos]
    · rw [npSortRows_congr (n := 4) ?_ hl hp']
      intro i hi
      interval_cases i <;> simp
    · exact List.all_eq_true.2 fun r hr => by simpa using hl r (hp'.mem_iff.2 hr)
  · cases h

/-- C46: as C44 for surfaces: one row per data point, ordered by `(u, v)`. -/
theorem parameterize_surface_rows (nm : Num K) (S : SurfLike K) (data rows : List (List K))
    (h : parameterizeSurface nm S data = .ok rows) :
    ∃ uvs, mapPy (surfaceInversionD nm S) data = .ok uvs ∧
      rows.Perm (List.zipWith (fun p (uv : K × K) => p ++ [uv.1, uv.2]) data uvs) ∧
      rows.Pairwise (fun a b => a.getD 3 0 < b.getD 3 0 ∨
        a.getD 3 0 = b.getD 3 0 ∧ a.getD 4 0 ≤ b.getD 4 0) ∧ Shape rows data.length 5 := by
  unfold parameterizeSurface at h
  obtain ⟨rs, hrs, h⟩ := bind_eq_ok h
  split at h
  · rename_i hall
    cases h
    obtain ⟨us, hus, rfl⟩ := mapPy_bind_ok (g := fun p (uv : K × K) => p ++ [uv.1, uv.2]) hrs
    have hl : us.length = data.length := by
      clear hall hrs h
      induction data generalizing us with
      | nil => cases hus; rfl
      | cons x xs ih =>
        unfold mapPy at hus
        obtain ⟨r, hr, hus⟩ := bind_eq_ok hus
        obtain ⟨rs, hrs, hus⟩ := bind_eq_ok hus
        cases hus
        simp [ih _ hrs]
    refine ⟨us, hus, npSortRows_perm _ _, (npSortRows_sorted _ _).imp ?_, ?_, ?_⟩
    · intro a b hab
      have h1 := key_head_le hab
      rcases h1.lt_or_eq with h1 | h1
      · exact Or.inl h1
      · refine Or.inr ⟨h1, ?_⟩
        by_contra hlt
        refine absurd hab (not_le.2 ?_)
        unfold sortKey
        simp only [List.map_cons]
        rw [h1]
        exact List.Lex.cons (List.Lex.rel (not_le.1 hlt))
    · rw [(npSortRows_perm _ _).length_eq]; simp [hl]
    · intro row hrow
      have := (npSortRows_perm _ _).mem_iff.1 hrow
      simpa using List.all_eq_true.1 hall row this
  · cases h

/-- C46: the result of `parameterize_surface` does not depend on the order of the data points. -/
theorem parameterize_surface_perm (nm : Num K) (S : SurfLike K) {data data' rows : List (List K)}
    (hp : data.Perm data') (h : parameterizeSurface nm S data = .ok rows) :
    parameterizeSurface nm S data' = .ok rows := by
  unfold parameterizeSurface at h ⊢
  obtain ⟨rs, hrs, h⟩ := bind_eq_ok h
  obtain ⟨rs', hrs', hp'⟩ := mapPy_perm hp hrs
  rw [hrs', ok_bind]
  split at h
  · rename_i hall
    cases h
    have hl : ∀ r ∈ rs, r.length = 5 := fun r hr => by simpa using List.all_eq_true.1 hall r hr
    rw [if_pos]
    · rw [npSortRows_congr (n := 5) ?_ hl hp']
      intro i hi
      interval_cases i <;> simp
    · exact List.all_eq_true.2 fun r hr => by simpa using hl r (hp'.mem_iff.2 hr)
  · cases h

example : parameterizeCurve exNum exLine [[2/3, 0, 0], [1/2, 0, 0], [0, 1, 0], [1/3, 0, 0]]
    = .ok [[0, 1, 0, 0], [1/3, 0, 0, 1/3], [1/2, 0, 0, 1/3], [2/3, 0, 0, 2/3]] := by decide +kernel
example : parameterizeSurface exNum exFlat [[1/3, 1/2, 0], [1/4, 3/4, 0], [1/3, 1/4, 0]]
    = .ok [[1/4, 3/4, 0, 1/4, 3/4], [1/3, 1/4, 0, 1/3, 1/4], [1/3, 1/2, 0, 1/3, 1/2]] := by
  decide +kernel

end

end PySpline
