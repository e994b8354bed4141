import Verif.Lemmas.RoundedSurfaceFit
import Verif.Props.RoundedSolve
import Verif.Props.Ruled

/-!
# C175: the initial surface and `fit_surface` in rounded arithmetic
-/

set_option linter.unusedSectionVars false

namespace PySpline

open Spec Finset

section
variable {K : Type} [Field K] [LinearOrder K] [IsStrictOrderedRing K]

/-! ## Without rounding -/

theorem ruledNetFl_id (top bottom : List (List K)) (n m : ℕ) : ruledNetFl id top bottom n m = ruledNet top bottom n m := by
  unfold ruledNetFl ruledNet
  simp only [List.map_id, id]

theorem ruledSurfaceFl_id (t b : Option (Fitted K)) (q m : Option ℤ) :
    ruledSurfaceFl id t b q m = ruledSurface t b q m := by
  unfold ruledSurfaceFl ruledSurface
  simp only [ruledNetFl_id, generateUniformFl_id]

theorem FitSurfaceFl_id (env : FitEnv K) (s : Surface K) (data top bottom : List (List K)) (r : Py (Surface K)) :
    FitSurfaceFl id env.lstsq (surfaceInversionD env.num (env.surfLike s)) s data top bottom r
      ↔ r = fitSurface env s data top bottom := by
  have e : parameterizeSurfaceWith (surfaceInversionD env.num (env.surfLike s)) data
      = parameterizeSurface env.num (env.surfLike s) data := rfl
  unfold FitSurfaceFl fitSurface
  rw [e]
  cases parameterizeSurface env.num (env.surfLike s) data with
  | error e => exact Iff.rfl
  | ok rows =>
    dsimp only
    rw [ok_bind]
    split
    · exact Iff.rfl
    · exact SingleFitSurfaceFl_id _ _ _ _

/-! ## The initial surface -/

/-- **C175.** The initial surface in any arithmetic that rounds monotonically, symmetrically and keeps one: between two
fitted boundaries of the same degree and size, with coordinates that are machine numbers, its bottom control points are
exactly those of the bottom boundary; its top control points are `fl (b + fl (t - b))`, which are those of the top boundary
where the difference is a machine number; along every line from bottom to top each coordinate is monotone; and where the two
boundaries have a common control point, the whole line is exactly that point. -/
theorem ruled_surface_rounded {fl : K → K} (hr : Rounding fl) {t b : Fitted K} {p n q m : ℕ}
    (td : t.degree = some (p : ℤ)) (bd : b.degree = some (p : ℤ)) (tn : t.numCtrl = some (n : ℤ))
    (bn : b.numCtrl = some (n : ℤ)) (ht : Shape t.fitCurve.ctrlpts n 3) (hb : Shape b.fitCurve.ctrlpts n 3) (hm : 2 ≤ m)
    (hbf : ∀ k < 3, ∀ i < n, fl (coord b.fitCurve.ctrlpts k i) = coord b.fitCurve.ctrlpts k i)
    (htf : ∀ k < 3, ∀ i < n, fl (coord t.fitCurve.ctrlpts k i) = coord t.fitCurve.ctrlpts k i) {V : List K}
    (hV : generateUniformFl fl q m = .ok V) :
    ∃ P, ruledSurfaceFl fl (some t) (some b) (some (q : ℤ)) (some (m : ℤ)) = .ok ⟨p, q, n, m, P, b.fitCurve.kv, V⟩ ∧
      Shape P (n * m) 3 ∧ ∀ k < 3, ∀ i < n,
        coord P k (i * m) = coord b.fitCurve.ctrlpts k i ∧
        coord P k (i * m + (m - 1))
          = fl (coord b.fitCurve.ctrlpts k i + fl (coord t.fitCurve.ctrlpts k i - coord b.fitCurve.ctrlpts k i)) ∧
        (fl (coord t.fitCurve.ctrlpts k i - coord b.fitCurve.ctrlpts k i)
            = coord t.fitCurve.ctrlpts k i - coord b.fitCurve.ctrlpts k i →
          coord P k (i * m + (m - 1)) = coord t.fitCurve.ctrlpts k i) ∧
        (coord t.fitCurve.ctrlpts k i = coord b.fitCurve.ctrlpts k i →
          ∀ j < m, coord P k (i * m + j) = coord b.fitCurve.ctrlpts k i) ∧
        ∀ j j', j ≤ j' → j' < m →
          (coord b.fitCurve.ctrlpts k i ≤ coord t.fitCurve.ctrlpts k i → coord P k (i * m + j) ≤ coord P k (i * m + j')) ∧
          (coord t.fitCurve.ctrlpts k i ≤ coord b.fitCurve.ctrlpts k i → coord P k (i * m + j') ≤ coord P k (i * m + j)) := by
  obtain ⟨P, h1, h2, h3⟩ := ruledSurfaceFl_eq fl td bd tn bn ht hb hm hV
  refine ⟨P, h1, h2, fun k hk i hi => ?_⟩
  obtain ⟨l1, l2, l3, l4⟩ := ruledFl_line hr (coord b.fitCurve.ctrlpts k i) (coord t.fitCurve.ctrlpts k i) hm
  have e0 := h3 k hk i hi 0 (by omega)
  have e1 := h3 k hk i hi (m - 1) (by omega)
  rw [add_zero] at e0
  refine ⟨e0.trans (l1 (hbf k hk i hi)), e1.trans l2, fun h => ?_, fun h j hj => ?_, fun j j' hjj hj' => ?_⟩
  · rw [e1, l2, h, add_sub_cancel, htf k hk i hi]
  · rw [h3 k hk i hi j hj]; exact l3 (hbf k hk i hi) h j
  · rw [h3 k hk i hi j (by omega), h3 k hk i hi j' hj']
    exact l4 j j' hjj

/-! ## `fit_surface` -/

/-- **C175.** Whatever the arithmetic, the solver and the inversion do: whenever `fit_surface` returns, the result has the
degrees, sizes and knots of the initial surface and exactly its boundary control points; the parameterized data of the two
boundaries do not matter. -/
theorem fit_surface_rounded_keeps {fl : K → K} {ls : ℕ → List (List K) → List K → List K} {inv : List K → Py (K × K)}
    {s s' : Surface K} {data top bottom : List (List K)} (h : FitSurfaceFl fl ls inv s data top bottom (.ok s'))
    (hu : 0 < s.numU) (hv : 0 < s.numV) (hn : s.ctrlpts.length = s.numU * s.numV) :
    (∃ P, s' = { s with ctrlpts := P } ∧ Shape P (s.numU * s.numV) 3 ∧ ∀ k < 3, ∀ i < s.numU, ∀ j < s.numV,
      OnBoundary s i j → coord P k (i * s.numV + j) = coord s.ctrlpts k (i * s.numV + j)) ∧
    FitSurfaceFl fl ls inv s data [] [] (.ok s') := by
  unfold FitSurfaceFl at h ⊢
  cases hp : parameterizeSurfaceWith inv data with
  | error e => rw [hp] at h; cases h
  | ok rows =>
    rw [hp] at h
    dsimp only at h ⊢
    by_cases hc : (rows ++ appendColumn top 1 ++ appendColumn bottom 0).all fun row => row.length = 5
    · rw [if_neg (by rw [hc]; simp)] at h
      refine ⟨singleFitSurfaceFl_ok h hu hv hn, ?_⟩
      rw [if_neg]
      · exact h
      · rw [not_not]
        simp only [appendColumn, List.map_nil, List.append_nil]
        rw [List.all_append, List.all_append, Bool.and_eq_true, Bool.and_eq_true] at hc
        exact hc.1.1
    · rw [if_pos hc] at h
      cases h

end

/-! ## Double precision -/

/-- **C175.** In double precision the initial surface exists for up to `2^50` control points across; it is clamped in both
directions with distinct knots across; its knots along the boundaries are those of the bottom boundary; and every control
point is within `M 2^-50` of the exact one, `M` a bound of the coordinates.  A top control point is exact in each coordinate
in which bottom and top differ at most by a factor of two. -/
theorem ruled_surface_double {t b : Fitted ℚ} {p n q m : ℕ} (td : t.degree = some (p : ℤ)) (bd : b.degree = some (p : ℤ))
    (tn : t.numCtrl = some (n : ℤ)) (bn : b.numCtrl = some (n : ℤ)) (ht : Shape t.fitCurve.ctrlpts n 3)
    (hb : Shape b.fitCurve.ctrlpts n 3) (hbf : ∀ k < 3, ∀ i < n, fl64 (coord b.fitCurve.ctrlpts k i) = coord b.fitCurve.ctrlpts k i)
    (htf : ∀ k < 3, ∀ i < n, fl64 (coord t.fitCurve.ctrlpts k i) = coord t.fitCurve.ctrlpts k i) (hq : q < m) (hq1 : 1 ≤ q)
    (hm : m ≤ 2 ^ 50) {M : ℚ}
    (hM : ∀ k < 3, ∀ i < n, |coord b.fitCurve.ctrlpts k i| ≤ M ∧ |coord t.fitCurve.ctrlpts k i| ≤ M) :
    ∃ P V, ruledSurfaceFl fl64 (some t) (some b) (some (q : ℤ)) (some (m : ℤ)) = .ok ⟨p, q, n, m, P, b.fitCurve.kv, V⟩ ∧
      Shape P (n * m) 3 ∧ Clamped q m V ∧ DistinctInterior q m V ∧ knotFn V 0 = 0 ∧ knotFn V (m + q) = 1 ∧
      ∀ k < 3, ∀ i < n,
        coord P k (i * m) = coord b.fitCurve.ctrlpts k i ∧
        (∀ j < m, |coord P k (i * m + j) - (coord b.fitCurve.ctrlpts k i
            + (j : ℚ) / ((m : ℚ) - 1) * (coord t.fitCurve.ctrlpts k i - coord b.fitCurve.ctrlpts k i))| ≤ M / 2 ^ 50) ∧
        (0 < coord b.fitCurve.ctrlpts k i → coord b.fitCurve.ctrlpts k i ≤ 2 * coord t.fitCurve.ctrlpts k i →
          coord t.fitCurve.ctrlpts k i ≤ 2 * coord b.fitCurve.ctrlpts k i →
          coord P k (i * m + (m - 1)) = coord t.fitCurve.ctrlpts k i) ∧
        (coord b.fitCurve.ctrlpts k i < 0 → 2 * coord t.fitCurve.ctrlpts k i ≤ coord b.fitCurve.ctrlpts k i →
          2 * coord b.fitCurve.ctrlpts k i ≤ coord t.fitCurve.ctrlpts k i →
          coord P k (i * m + (m - 1)) = coord t.fitCurve.ctrlpts k i) := by
  obtain ⟨V, hV, -, vc, vd, v0, v1, -, -⟩ := generate_uniform_double hq hm
  obtain ⟨P, h1, h2, h3⟩ := ruled_surface_rounded rounding_fl64 td bd tn bn ht hb (by omega) hbf htf hV
  obtain ⟨P', h1', -, h3'⟩ := ruledSurfaceFl_eq fl64 td bd tn bn ht hb (m := m) (by omega) hV
  rw [h1] at h1'
  cases h1'
  refine ⟨P, V, h1, h2, vc, vd, v0, v1, fun k hk i hi => ?_⟩
  obtain ⟨a1, a2, a3, -, -⟩ := h3 k hk i hi
  refine ⟨a1, fun j hj => ?_, fun h0 h1 h2 => a3 ?_, fun h0 h1 h2 => a3 ?_⟩
  · rw [h3' k hk i hi j hj]
    exact ruledFl_error (hM k hk i hi).1 (hM k hk i hi).2 hj (by omega)
  · exact fl64_sterbenz (htf k hk i hi) (hbf k hk i hi) h0 h1 h2
  · have := fl64_sterbenz (x := -coord t.fitCurve.ctrlpts k i) (y := -coord b.fitCurve.ctrlpts k i)
      (by rw [fl64_neg, htf k hk i hi]) (by rw [fl64_neg, hbf k hk i hi]) (by linarith) (by linarith) (by linarith)
    rw [show -coord t.fitCurve.ctrlpts k i - -coord b.fitCurve.ctrlpts k i
      = -(coord t.fitCurve.ctrlpts k i - coord b.fitCurve.ctrlpts k i) by ring, fl64_neg] at this
    linarith

/-- **C175.** `fit_surface` in double precision returns, without an exception, on every clamped surface over `[0, 1]²`,
whatever vectors of the right length the solver returns and whichever parameters in `[0, 1]` the inversion returns; the
result has exactly the boundary of the initial surface, and it is `single_fit_surface` of the sorted data. -/
theorem fit_surface_double {ls : ℕ → List (List ℚ) → List ℚ → List ℚ}
    (hlen : ∀ n A b, A.length = b.length → (∀ row ∈ A, row.length = n) → (ls n A b).length = n)
    {inv : List ℚ → Py (ℚ × ℚ)} {s : Surface ℚ} {data top bottom : List (List ℚ)} (hs : ClampedSurface s)
    (fu : knotFn s.kvU s.degreeU < knotFn s.kvU (s.degreeU + 1))
    (fv : knotFn s.kvV s.degreeV < knotFn s.kvV (s.degreeV + 1)) (u0 : knotFn s.kvU s.degreeU = 0)
    (u1 : knotFn s.kvU s.numU = 1) (v0 : knotFn s.kvV s.degreeV = 0) (v1 : knotFn s.kvV s.numV = 1)
    (h3 : ∀ pt ∈ data, pt.length = 3) (htop : ∀ row ∈ top, row.length = 4) (hbot : ∀ row ∈ bottom, row.length = 4)
    (hinv : ∀ pt ∈ data, ∃ x, inv pt = .ok x ∧ (0 ≤ x.1 ∧ x.1 ≤ 1) ∧ 0 ≤ x.2 ∧ x.2 ≤ 1)
    (hsize : 5 * s.degreeU + 5 * s.degreeV + 1 + s.numU * s.numV + data.length ≤ 10 ^ 10) :
    (∃ res, FitSurfaceFl fl64 ls inv s data top bottom res) ∧
    ∃ rows, parameterizeSurfaceWith inv data = .ok rows ∧ Shape rows data.length 5 ∧
      ∀ res, FitSurfaceFl fl64 ls inv s data top bottom res →
        SingleFitSurfaceFl fl64 ls s (npSortRows [3, 4, 0, 1, 2] rows) res ∧
        ∃ P, res = .ok { s with ctrlpts := P } ∧ Shape P (s.numU * s.numV) 3 ∧ ∀ k < 3, ∀ i < s.numU, ∀ j < s.numV,
          OnBoundary s i j → coord P k (i * s.numV + j) = coord s.ctrlpts k (i * s.numV + j) := by
  obtain ⟨rows, hrows, hsh, hran⟩ := parameterizeSurfaceWith_range h3 hinv
  obtain ⟨hsh', hsort⟩ := npSortRows_shape [3, 4, 0, 1, 2] hsh
  have hran' : ∀ r < data.length, (0 ≤ at2 (npSortRows [3, 4, 0, 1, 2] rows) r 3 0 ∧
      at2 (npSortRows [3, 4, 0, 1, 2] rows) r 3 0 ≤ 1) ∧ 0 ≤ at2 (npSortRows [3, 4, 0, 1, 2] rows) r 4 0 ∧
      at2 (npSortRows [3, 4, 0, 1, 2] rows) r 4 0 ≤ 1 := fun r hr => by
    obtain ⟨q, hq, e⟩ := hsort r hr
    unfold at2
    rw [e]
    exact hran q hq
  have hc : (rows ++ appendColumn top 1 ++ appendColumn bottom 0).all fun row => row.length = 5 := by
    refine List.all_eq_true.2 fun row hrow => ?_
    rw [decide_eq_true_iff]
    rcases List.mem_append.1 hrow with h | h
    · rcases List.mem_append.1 h with h | h
      · exact hsh.2 row h
      · obtain ⟨x, hx, rfl⟩ := List.mem_map.1 h
        simp [htop x hx]
    · obtain ⟨x, hx, rfl⟩ := List.mem_map.1 h
      simp [hbot x hx]
  obtain ⟨⟨res, hres⟩, hall⟩ := singleFitSurface_double_returns hlen hs fu fv hsh'
    (fun r hr => by rw [u0, u1]; exact (hran' r hr).1) (fun r hr => by rw [v0, v1]; exact (hran' r hr).2) hsize
  have hiff : ∀ res, FitSurfaceFl fl64 ls inv s data top bottom res ↔
      SingleFitSurfaceFl fl64 ls s (npSortRows [3, 4, 0, 1, 2] rows) res := fun res => by
    unfold FitSurfaceFl
    rw [hrows]
    dsimp only
    rw [if_neg (by rw [hc]; simp)]
  exact ⟨⟨res, (hiff res).2 hres⟩, rows, hrows, hsh, fun res h => ⟨(hiff res).1 h, hall res ((hiff res).1 h)⟩⟩

/-- **C175.** The fit of an interior problem in double precision, from fitted boundaries over `[0, 1]` to the fitted surface:
the initial surface and the fit exist, whatever the solver and the inversion return; the bottom edge of the fitted surface
has exactly the control points of the bottom boundary, and its top edge has those of the top boundary up to `M 2^-50`. -/
theorem interior_fit_double {ls : ℕ → List (List ℚ) → List ℚ → List ℚ}
    (hlen : ∀ n A b, A.length = b.length → (∀ row ∈ A, row.length = n) → (ls n A b).length = n)
    {inv : Surface ℚ → List ℚ → Py (ℚ × ℚ)} {t b : Fitted ℚ} {p n q m : ℕ} (td : t.degree = some (p : ℤ))
    (bd : b.degree = some (p : ℤ)) (tn : t.numCtrl = some (n : ℤ)) (bn : b.numCtrl = some (n : ℤ))
    (ht : Shape t.fitCurve.ctrlpts n 3) (hb : Shape b.fitCurve.ctrlpts n 3)
    (hbf : ∀ k < 3, ∀ i < n, fl64 (coord b.fitCurve.ctrlpts k i) = coord b.fitCurve.ctrlpts k i)
    (htf : ∀ k < 3, ∀ i < n, fl64 (coord t.fitCurve.ctrlpts k i) = coord t.fitCurve.ctrlpts k i) (hp1 : 1 ≤ p)
    (hU : Clamped p n b.fitCurve.kv) (hU0 : knotFn b.fitCurve.kv 0 = 0) (hU1 : knotFn b.fitCurve.kv (n + p) = 1)
    (hfirst : knotFn b.fitCurve.kv p < knotFn b.fitCurve.kv (p + 1)) (hq : q < m) (hq1 : 1 ≤ q) (hm : m ≤ 2 ^ 50)
    {data top bottom : List (List ℚ)} (h3 : ∀ pt ∈ data, pt.length = 3) (htop : ∀ row ∈ top, row.length = 4)
    (hbot : ∀ row ∈ bottom, row.length = 4)
    (hinv : ∀ S, ClampedSurface S → ∀ pt ∈ data, ∃ x, inv S pt = .ok x ∧ (0 ≤ x.1 ∧ x.1 ≤ 1) ∧ 0 ≤ x.2 ∧ x.2 ≤ 1)
    (hsize : 5 * p + 5 * q + 1 + n * m + data.length ≤ 10 ^ 10) {M : ℚ}
    (hM : ∀ k < 3, ∀ i < n, |coord b.fitCurve.ctrlpts k i| ≤ M ∧ |coord t.fitCurve.ctrlpts k i| ≤ M) :
    ∃ S, ruledSurfaceFl fl64 (some t) (some b) (some (q : ℤ)) (some (m : ℤ)) = .ok S ∧ ClampedSurface S ∧
      (∃ res, FitSurfaceFl fl64 ls (inv S) S data top bottom res) ∧
      ∀ res, FitSurfaceFl fl64 ls (inv S) S data top bottom res →
        ∃ P, res = .ok { S with ctrlpts := P } ∧ Shape P (n * m) 3 ∧ ∀ k < 3, ∀ i < n,
          coord P k (i * m) = coord b.fitCurve.ctrlpts k i ∧
          |coord P k (i * m + (m - 1)) - coord t.fitCurve.ctrlpts k i| ≤ M / 2 ^ 50 := by
  obtain ⟨P, V, h1, h2, vc, vd, v0, v1, hP⟩ := ruled_surface_double td bd tn bn ht hb hbf htf hq hq1 hm hM
  have hsz := hU.size
  have hS : ClampedSurface (⟨p, q, n, m, P, b.fitCurve.kv, V⟩ : Surface ℚ) := ⟨hU, vc, hp1, hq1, h2⟩
  obtain ⟨hex, rows, -, -, hall⟩ := fit_surface_double (top := top) (bottom := bottom) hlen
    (inv := inv ⟨p, q, n, m, P, b.fitCurve.kv, V⟩) (data := data) hS hfirst
    (vd q le_rfl hq) ((hU.left p le_rfl).trans hU0) ((hU.right n le_rfl (by omega)).trans hU1)
    ((vc.left q le_rfl).trans v0) ((vc.right m le_rfl (by omega)).trans v1) h3 htop hbot (hinv _ hS) hsize
  refine ⟨_, h1, hS, hex, fun res hres => ?_⟩
  obtain ⟨-, Q, rfl, hQ, hQb⟩ := hall res hres
  refine ⟨Q, rfl, hQ, fun k hk i hi => ⟨?_, ?_⟩⟩
  · have := hQb k hk i hi 0 (by show 0 < m; omega) (Or.inr (Or.inr (Or.inl rfl)))
    dsimp only at this
    rw [add_zero] at this
    rw [this]
    exact (hP k hk i hi).1
  · have := hQb k hk i hi (m - 1) (by show m - 1 < m; omega)
      (Or.inr (Or.inr (Or.inr (by show m - 1 + 1 = m; omega))))
    dsimp only at this
    rw [this]
    have he := (hP k hk i hi).2.1 (m - 1) (by omega)
    have hm1 : (m : ℚ) - 1 ≠ 0 := by
      have : (2 : ℚ) ≤ m := by exact_mod_cast (by omega : 2 ≤ m)
      linarith
    rwa [Nat.cast_sub (by omega), Nat.cast_one, div_self hm1, one_mul, add_sub_cancel] at he

/-! ## The top edge can be wrong -/

/-- Boundaries over which a coordinate goes from one to `2^-60`. -/
def exSteepBottom : Fitted ℚ := ⟨some 1, some 2, ⟨1, [[0, 0, 1], [1, 0, 1]], [0, 0, 1, 1]⟩, none⟩
def exSteepTop : Fitted ℚ := ⟨some 1, some 2, ⟨1, [[0, 1, 1 / 2 ^ 60], [1, 1, 1 / 2 ^ 60]], [0, 0, 1, 1]⟩, none⟩

/-- **C175.** The top edge of the initial surface need not be the top boundary, although all coordinates are doubles: here the
boundary is at height `2^-60` and the edge at height zero.  Without rounding it is at the right height. -/
theorem ruled_surface_double_top_inexact :
    (∀ row ∈ exSteepTop.fitCurve.ctrlpts ++ exSteepBottom.fitCurve.ctrlpts, row.map fl64 = row) ∧
    (ruledSurfaceFl fl64 (some exSteepTop) (some exSteepBottom) (some 1) (some 3)).map (·.ctrlpts)
      = .ok [[0, 0, 1], [0, 1/2, 1/2], [0, 1, 0], [1, 0, 1], [1, 1/2, 1/2], [1, 1, 0]] ∧
    (ruledSurface (some exSteepTop) (some exSteepBottom) (some 1) (some 3)).map (fun s => s.ctrlpts.getD 2 [])
      = .ok [0, 1, 1 / 2 ^ 60] := by
  decide +kernel

/-! ## Concrete cases -/

/-- C175: the interior problem of `Props/Ruled.lean`, with a solver that returns zeros and an inversion that returns one
point. -/
example : ∃ S, ruledSurfaceFl fl64 (some exTop) (some exBottom) (some ((1 : ℕ) : ℤ)) (some ((3 : ℕ) : ℤ)) = .ok S ∧
    ClampedSurface S ∧
    (∃ res, FitSurfaceFl fl64 (fun n _ _ => List.replicate n 0) (fun _ => .ok (1/2, 1/4)) S [[1, 1, 1], [2, 1, 1]] []
      [[0, 0, 0, 0], [3, 0, 1, 1]] res) ∧
    ∀ res, FitSurfaceFl fl64 (fun n _ _ => List.replicate n 0) (fun _ => .ok (1/2, 1/4)) S [[1, 1, 1], [2, 1, 1]] []
      [[0, 0, 0, 0], [3, 0, 1, 1]] res →
      ∃ P, res = .ok { S with ctrlpts := P } ∧ Shape P (4 * 3) 3 ∧ ∀ k < 3, ∀ i < 4,
        coord P k (i * 3) = coord exBottom.fitCurve.ctrlpts k i ∧
        |coord P k (i * 3 + (3 - 1)) - coord exTop.fitCurve.ctrlpts k i| ≤ 4 / 2 ^ 50 := by
  have hU : Clamped 2 4 exBottom.fitCurve.kv :=
    ⟨⟨by decide +kernel, by decide +kernel, by decide⟩, by intro i hi; interval_cases i <;> decide +kernel,
      by intro i h1 h2; interval_cases i <;> decide +kernel⟩
  refine interior_fit_double (ls := fun n _ _ => List.replicate n 0) (inv := fun _ _ => .ok (1/2, 1/4)) (p := 2)
    (by intros; simp) (t := exTop) (b := exBottom) rfl rfl rfl rfl
    ⟨by decide, by decide⟩ ⟨by decide, by decide⟩ (by decide +kernel) (by decide +kernel) (by omega) hU (by decide +kernel)
    (by decide +kernel) (by decide +kernel) (by omega) (by omega) (by norm_num)
    (by decide) (by decide) (by decide) (fun S _ pt _ => ⟨_, rfl, by norm_num, by norm_num⟩) (by norm_num) (by decide +kernel)

/-- C175: in double precision the initial surface of `Props/Ruled.lean` with four control points across; a third of the way
is rounded, the edges are not. -/
example : (ruledSurfaceFl fl64 (some exTop) (some exBottom) (some 1) (some 4)).map
      (fun s => (s.ctrlpts.getD 0 [], s.ctrlpts.getD 1 [], s.ctrlpts.getD 3 []))
    = .ok ([0, 0, 0], [0, 6004799503160661 / 9007199254740992, 0], [0, 2, 0]) := by decide +kernel

/-- C175: Sterbenz' bound applies, and does not, in the two coordinates of a boundary. -/
example : fl64 (3 / 2 - 1) = 3 / 2 - 1 ∧ fl64 ((1 / 2 ^ 60 : ℚ) - 1) = -1 := by decide +kernel

end PySpline
