import Verif.Lemmas.IeeeSurfaceFit
import Verif.Props.IeeeKnotFit
import Verif.Props.RoundedSurfaceFit

/-!
# C191: the initial surface and `fit_surface` in IEEE arithmetic
-/

set_option linter.unusedSectionVars false
set_option exponentiation.threshold 1100

namespace PySpline

open Spec Ext Finset

section
variable {K : Type} [Field K] [LinearOrder K] [IsStrictOrderedRing K]

/-- **C191.** Whatever the arithmetic, the solver and the inversion do: whenever `fit_surface` returns, the result has the
degrees, sizes and knots of the initial surface and exactly its boundary control points, also where they are infinities or
NaN; the parameterized data of the two boundaries do not matter. -/
theorem fit_surface_ieee_keeps {rd : K → Ext K} {ls : ℕ → List (List (Ext K)) → List (Ext K) → Py (List (Ext K))}
    {inv : List (Ext K) → Py (Ext K × Ext K)} {s s' : Surface (Ext K)} {data top bottom : List (List (Ext K))}
    (h : FitSurfaceR rd ls inv s data top bottom (.ok s')) (hu : 0 < s.numU) (hv : 0 < s.numV)
    (hn : s.ctrlpts.length = s.numU * s.numV) :
    ((∃ P, s' = { s with ctrlpts := P }) ∧ Shape s'.ctrlpts (s.numU * s.numV) 3 ∧
      ∀ i < s.numU, ∀ j < s.numV, i = 0 ∨ i + 1 = s.numU ∨ j = 0 ∨ j + 1 = s.numV → ∀ k < 3,
        at2 s'.ctrlpts (i * s.numV + j) k 0 = at2 s.ctrlpts (i * s.numV + j) k 0) ∧
    FitSurfaceR rd ls inv s data [] [] (.ok s') := by
  unfold FitSurfaceR at h ⊢
  cases hp : parameterizeSurfaceWithE inv data with
  | error e => rw [hp] at h; cases h
  | ok rows =>
    rw [hp] at h
    dsimp only at h ⊢
    split at h
    · cases h
    rename_i hc
    rw [not_not, List.all_append, List.all_append, Bool.and_eq_true, Bool.and_eq_true] at hc
    refine ⟨single_fit_surface_ieee_keeps hn hu hv h, ?_⟩
    rw [if_neg]
    · exact h
    · rw [not_not]
      simp only [List.map_nil, List.append_nil]
      exact hc.1.1

/-- **C191.** Where a row of a boundary has the wrong length, `np.vstack` raises a `ValueError` before anything is fitted, unless
the data could not be parameterized. -/
theorem fit_surface_ieee_raises {rd : K → Ext K} {ls : ℕ → List (List (Ext K)) → List (Ext K) → Py (List (Ext K))}
    {inv : List (Ext K) → Py (Ext K × Ext K)} {s : Surface (Ext K)} {data top bottom : List (List (Ext K))}
    {row : List (Ext K)} (hrow : row ∈ top ++ bottom) (hl : row.length ≠ 4) {r : Py (Surface (Ext K))}
    (h : FitSurfaceR rd ls inv s data top bottom r) :
    r = .error .valueError ∨ ∃ e, r = .error e ∧ parameterizeSurfaceWithE inv data = .error e := by
  unfold FitSurfaceR at h
  cases hp : parameterizeSurfaceWithE inv data with
  | error e => rw [hp] at h; exact Or.inr ⟨e, h, rfl⟩
  | ok rows =>
    rw [hp] at h
    dsimp only at h
    rw [if_pos] at h
    · exact Or.inl h
    intro hc
    rw [List.all_eq_true] at hc
    rcases List.mem_append.1 hrow with hr | hr
    · have := hc (row ++ [1]) (List.mem_append_left _ (List.mem_append_right _ (List.mem_map.2 ⟨row, hr, rfl⟩)))
      simp at this
      exact hl this
    · have := hc (row ++ [0]) (List.mem_append_right _ (List.mem_map.2 ⟨row, hr, rfl⟩))
      simp at this
      exact hl this

end

/-! ## Double precision -/

/-- **C191.** The initial surface of `set_init_surface` in double precision with overflow and underflow, between two fitted
boundaries of the same degree and size with doubles of size at most `M`, `2^-1000 ≤ M ≤ 2^1019`: nothing overflows, every
control point is a double, the bottom edge is exactly the bottom boundary, where the boundaries have a common coordinate the
whole line has it, and every coordinate is within `X 2^-47` of the exact one, `X ≥ 2^-1000` a bound for the two ends of the
line.  The knots across are a clamped vector of doubles, those along are the knots of the bottom boundary. -/
theorem ruled_surface_binary64 {t b : Fitted ℚ} {p n q m : ℕ} (td : t.degree = some (p : ℤ)) (bd : b.degree = some (p : ℤ))
    (tn : t.numCtrl = some (n : ℤ)) (bn : b.numCtrl = some (n : ℤ)) (ht : Shape t.fitCurve.ctrlpts n 3)
    (hb : Shape b.fitCurve.ctrlpts n 3) {M : ℚ} (hM0 : 1 / 2 ^ 1000 ≤ M) (hM1 : M ≤ 2 ^ 1019)
    (hbst : StoredCurve bin64 M b.fitCurve) (htst : StoredCurve bin64 M t.fitCurve) (hq : q < m) (hq1 : 1 ≤ q)
    (hm : m ≤ 2 ^ 49) :
    ∃ P V, ruledSurfaceR bin64 (some t.lift) (some b.lift) (some (q : ℤ)) (some (m : ℤ))
        = .ok (Surface.lift ⟨p, q, n, m, P, b.fitCurve.kv, V⟩) ∧
      Shape P (n * m) 3 ∧ generateUniformFl fl64 q m = .ok V ∧ Clamped q m V ∧ DistinctInterior q m V ∧
      StoredSurface bin64 (2 * M) ⟨p, q, n, m, P, b.fitCurve.kv, V⟩ ∧ ∀ k < 3, ∀ i < n,
        coord P k (i * m) = coord b.fitCurve.ctrlpts k i ∧
        (coord t.fitCurve.ctrlpts k i = coord b.fitCurve.ctrlpts k i →
          ∀ j < m, coord P k (i * m + j) = coord b.fitCurve.ctrlpts k i) ∧
        ∀ j < m, ∀ X, 1 / 2 ^ 1000 ≤ X → X ≤ 2 ^ 1019 → |coord b.fitCurve.ctrlpts k i| ≤ X →
          |coord t.fitCurve.ctrlpts k i| ≤ X → |coord P k (i * m + j) - (coord b.fitCurve.ctrlpts k i
            + (j : ℚ) / ((m : ℚ) - 1) * (coord t.fitCurve.ctrlpts k i - coord b.fitCurve.ctrlpts k i))| ≤ X / 2 ^ 47 := by
  have cb : ∀ k < 3, ∀ i < n, _ := fun k hk i hi => coord_of_forall_mem hb hbst.pts hk hi
  have ct : ∀ k < 3, ∀ i < n, _ := fun k hk i hi => coord_of_forall_mem ht htst.pts hk hi
  obtain ⟨P, V, h1, h2, hV, hVs, h3⟩ := ruledSurfaceR_bin64 td bd tn bn ht hb hM0 hM1 (fun k hk i hi => (cb k hk i hi).2)
    (fun k hk i hi => (ct k hk i hi).2) hq hq1 hm
  obtain ⟨V', hV', -, vc, vd, -⟩ := generate_uniform_double hq (le_trans hm (by norm_num))
  rw [hV] at hV'
  cases hV'
  have hM : 0 < M := lt_of_lt_of_le (by positivity) hM0
  refine ⟨P, V, h1, h2, hV, vc, vd, ⟨hbst.knots, hVs, forall_mem_of_coord (Φ := fun x => bin64 x = fin x ∧ |x| ≤ 2 * M) h2
    fun k hk x hx => ?_⟩, fun k hk i hi => ⟨?_, fun h j hj => ?_, fun j hj => (h3 k hk i hi j hj).2.1⟩⟩
  · have x1 : x / m < n := Nat.div_lt_of_lt_mul (by rw [mul_comm]; exact hx)
    have x2 : x % m < m := Nat.mod_lt _ (by omega)
    obtain ⟨a1, a2, -⟩ := h3 k hk _ x1 _ x2
    rw [Nat.div_add_mod'] at a1 a2
    refine ⟨a1, ?_⟩
    have a2 := a2 M hM0 hM1 (cb k hk _ x1).2 (ct k hk _ x1).2
    have hb' := abs_le.1 (cb k hk _ x1).2
    have ht' := abs_le.1 (ct k hk _ x1).2
    generalize coord b.fitCurve.ctrlpts k (x / m) = β at a2 hb'
    generalize coord t.fitCurve.ctrlpts k (x / m) = τ at a2 ht'
    have hmK : (2 : ℚ) ≤ m := by exact_mod_cast (by omega : 2 ≤ m)
    have hj : ((x % m : ℕ) : ℚ) + 1 ≤ m := by exact_mod_cast x2
    have hr0 : (0 : ℚ) ≤ ((x % m : ℕ) : ℚ) / ((m : ℚ) - 1) := div_nonneg (Nat.cast_nonneg _) (by linarith)
    have hr1 : ((x % m : ℕ) : ℚ) / ((m : ℚ) - 1) ≤ 1 := by rw [div_le_one (by linarith)]; linarith
    generalize ((x % m : ℕ) : ℚ) / ((m : ℚ) - 1) = r at a2 hr0 hr1
    generalize coord P k x = w at a2
    have q1 := mul_le_mul_of_nonneg_left hb'.1 (sub_nonneg.2 hr1)
    have q2 := mul_le_mul_of_nonneg_left hb'.2 (sub_nonneg.2 hr1)
    have q3 := mul_le_mul_of_nonneg_left ht'.1 hr0
    have q4 := mul_le_mul_of_nonneg_left ht'.2 hr0
    have hM47 : M / 2 ^ 47 ≤ M := div_le_self hM.le (by norm_num)
    rw [abs_le] at a2 ⊢
    constructor <;> linarith
  · have := (h3 k hk i hi 0 (by omega)).2.2 (Or.inl rfl) (cb k hk i hi).1
    rwa [add_zero] at this
  · exact (h3 k hk i hi j hj).2.2 (Or.inr h) (cb k hk i hi).1

/-- **C191.** `fit_surface` in double precision with overflow and underflow, on a clamped surface over `[0, 1]²` of degrees at
most seven with doubles, knots at least `2^-1000` apart, and data and boundary control points of size at most `B`,
`2^-1000 ≤ B ≤ 2^1019`.  If the solver returns doubles of size at most `B` and the inversion parameters in `[0, 1]`, unless
they raise an exception of the class `E`: every run ends with an exception of that class or with a surface without infinities
and NaN; its control points are doubles of size at most `B`, degrees, knots and boundary control points are those of the
input. -/
theorem fit_surface_binary64 {E : Err → Prop} {B : ℚ} (hB0 : 1 / 2 ^ 1000 ≤ B) (hB1 : B ≤ 2 ^ 1019)
    {ls : ℕ → List (List (Ext ℚ)) → List (Ext ℚ) → Py (List (Ext ℚ))} (hls : TameSolver bin64 (2 ^ 1023) B E ls)
    {inv : List (Ext ℚ) → Py (Ext ℚ × Ext ℚ)} {X : ℚ} {s : Surface ℚ} {data : List (List ℚ)} {top bottom : List (List (Ext ℚ))}
    (hs : ClampedSurface s) (hpu : s.degreeU ≤ 7) (hpv : s.degreeV ≤ 7)
    (fu : knotFn s.kvU s.degreeU < knotFn s.kvU (s.degreeU + 1)) (fv : knotFn s.kvV s.degreeV < knotFn s.kvV (s.degreeV + 1))
    (u0 : knotFn s.kvU 0 = 0) (u1 : knotFn s.kvU (s.numU + s.degreeU) = 1) (v0 : knotFn s.kvV 0 = 0)
    (v1 : knotFn s.kvV (s.numV + s.degreeV) = 1) (hst : StoredSurface bin64 X s)
    (hδu : ∀ x ∈ s.kvU, ∀ y ∈ s.kvU, x < y → 1 / 2 ^ 1000 ≤ y - x)
    (hδv : ∀ x ∈ s.kvV, ∀ y ∈ s.kvV, x < y → 1 / 2 ^ 1000 ≤ y - x)
    (hbd : ∀ k < 3, ∀ i < s.numU, ∀ j < s.numV, OnBoundary s i j → |coord s.ctrlpts k (i * s.numV + j)| ≤ B)
    (h3 : ∀ pt ∈ data, pt.length = 3) (hdata : ∀ pt ∈ data, ∀ x ∈ pt, bin64 x = fin x ∧ |x| ≤ B)
    (htop : ∀ row ∈ top, row.length = 4) (hbot : ∀ row ∈ bottom, row.length = 4)
    (hinv : ∀ pt ∈ data, (∃ e, E e ∧ inv (lift1 pt) = .error e) ∨
      ∃ u v, inv (lift1 pt) = .ok (fin u, fin v) ∧ (bin64 u = fin u ∧ 0 ≤ u ∧ u ≤ 1) ∧ bin64 v = fin v ∧ 0 ≤ v ∧ v ≤ 1)
    (hsize : 5 * s.degreeU + 5 * s.degreeV + 1 + s.numU * s.numV + data.length ≤ 10 ^ 8) :
    (∃ res, FitSurfaceR bin64 ls inv s.lift (lift2 data) top bottom res) ∧
    ∀ res, FitSurfaceR bin64 ls inv s.lift (lift2 data) top bottom res → (∃ e, E e ∧ res = .error e) ∨
      ∃ P, res = .ok (Surface.lift { s with ctrlpts := P }) ∧ Shape P (s.numU * s.numV) 3 ∧
        StoredSurface bin64 B { s with ctrlpts := P } ∧ ∀ k < 3, ∀ i < s.numU, ∀ j < s.numV, OnBoundary s i j →
          coord P k (i * s.numV + j) = coord s.ctrlpts k (i * s.numV + j) := by
  have hsu := hs.cu.size
  have hsv := hs.cv.size
  rcases parameterizeSurfaceWithE_finite (E := E) h3 hdata hinv with ⟨e, he, hp⟩ | ⟨rows, hp, hsh, hran, hrs, hrB⟩
  · refine ⟨⟨.error e, ?_⟩, fun res hres => Or.inl ⟨e, he, ?_⟩⟩
    · unfold FitSurfaceR; rw [hp]
    · unfold FitSurfaceR at hres; rw [hp] at hres; exact hres
  have hc : (lift2 rows ++ (top.map fun row => row ++ [1]) ++ bottom.map fun row => row ++ [0]).all
      fun row => row.length = 5 := by
    refine List.all_eq_true.2 fun row hrow => ?_
    rw [decide_eq_true_iff]
    rcases List.mem_append.1 hrow with h | h
    · rcases List.mem_append.1 h with h | h
      · obtain ⟨x, hx, rfl⟩ := List.mem_map.1 h
        rw [List.length_map]; exact hsh.2 x hx
      · obtain ⟨x, hx, rfl⟩ := List.mem_map.1 h
        simp [htop x hx]
    · obtain ⟨x, hx, rfl⟩ := List.mem_map.1 h
      simp [hbot x hx]
  have hiff : ∀ res, FitSurfaceR bin64 ls inv s.lift (lift2 data) top bottom res ↔
      SingleFitSurfaceR bin64 ls s.lift (lift2 (npSortRows [3, 4, 0, 1, 2] rows)) res := fun res => by
    unfold FitSurfaceR
    rw [hp]
    dsimp only
    rw [if_neg (by rw [hc]; simp), npSortRowsE_lift]
  obtain ⟨hsh', hsort⟩ := npSortRows_shape [3, 4, 0, 1, 2] hsh
  have hat : ∀ r < data.length, ∃ q < data.length, ∀ k, at2 (npSortRows [3, 4, 0, 1, 2] rows) r k 0 = at2 rows q k 0 :=
    fun r hr => by
      obtain ⟨q, hq, e⟩ := hsort r hr
      exact ⟨q, hq, fun k => by unfold at2; rw [e]⟩
  have e1 : (1 : ℚ) ≤ 2 ^ 1000 := one_le_pow₀ (by norm_num)
  obtain ⟨hex, hall⟩ := singleFitSurfaceR_finite hls hs hpu hpv fu fv hsh' hst.knotsU hst.knotsV hδu hδv
    (by rw [u0, u1, sub_zero]; exact e1) (by rw [v0, v1, sub_zero]; exact e1)
    (fun r hr => by
      obtain ⟨q, hq, e⟩ := hat r hr
      rw [e, hs.cu.left _ le_rfl, hs.cu.right _ le_rfl (by omega), u0, u1]
      exact (hran q hq).1)
    (fun r hr => by
      obtain ⟨q, hq, e⟩ := hat r hr
      rw [e, hs.cv.left _ le_rfl, hs.cv.right _ le_rfl (by omega), v0, v1]
      exact (hran q hq).2)
    (fun k hk r hr => by
      obtain ⟨q, hq, e⟩ := hat r hr
      rw [e]; exact hrs k hk q hq)
    (fun k hk => ⟨fun r hr => by
      obtain ⟨q, hq, e⟩ := hat r hr
      rw [e]; exact hrB k hk q hq, fun i hi j hj hb =>
        ⟨(coord_of_forall_mem hs.shape hst.pts hk (index_lt hi hj)).1, hbd k hk i hi j hj hb⟩⟩)
    hB0 (by
      calc 8 * B ≤ 2 ^ 3 * 2 ^ 1019 := by linarith
        _ ≤ 2 ^ 4 * 2 ^ 1019 := by gcongr; norm_num
        _ = 2 ^ 1023 := by rw [← pow_add]) hsize
  refine ⟨hex.imp fun res h => (hiff res).2 h, fun res hres => (hall res ((hiff res).1 hres)).imp id ?_⟩
  rintro ⟨P, hr, hP, hk⟩
  exact ⟨P, hr, hP, ⟨hst.knotsU, hst.knotsV, forall_mem_of_coord (Φ := fun x => bin64 x = fin x ∧ |x| ≤ B) hP
    fun k hk3 i hi => (hk k hk3).2 i hi⟩, fun k hk3 => (hk k hk3).1⟩

/-- **C191.** The same for any solver whatsoever, unless on the way it raises or returns something else than as many doubles of
size at most `B` as there are unknowns, or the inversion raises. -/
theorem fit_surface_binary64_any_solver (e : Err) {B : ℚ} (hB0 : 1 / 2 ^ 1000 ≤ B) (hB1 : B ≤ 2 ^ 1019)
    {ls : ℕ → List (List (Ext ℚ)) → List (Ext ℚ) → Py (List (Ext ℚ))}
    {inv : List (Ext ℚ) → Py (Ext ℚ × Ext ℚ)} {X : ℚ} {s : Surface ℚ} {data : List (List ℚ)} {top bottom : List (List (Ext ℚ))}
    (hs : ClampedSurface s) (hpu : s.degreeU ≤ 7) (hpv : s.degreeV ≤ 7)
    (fu : knotFn s.kvU s.degreeU < knotFn s.kvU (s.degreeU + 1)) (fv : knotFn s.kvV s.degreeV < knotFn s.kvV (s.degreeV + 1))
    (u0 : knotFn s.kvU 0 = 0) (u1 : knotFn s.kvU (s.numU + s.degreeU) = 1) (v0 : knotFn s.kvV 0 = 0)
    (v1 : knotFn s.kvV (s.numV + s.degreeV) = 1) (hst : StoredSurface bin64 X s)
    (hδu : ∀ x ∈ s.kvU, ∀ y ∈ s.kvU, x < y → 1 / 2 ^ 1000 ≤ y - x)
    (hδv : ∀ x ∈ s.kvV, ∀ y ∈ s.kvV, x < y → 1 / 2 ^ 1000 ≤ y - x)
    (hbd : ∀ k < 3, ∀ i < s.numU, ∀ j < s.numV, OnBoundary s i j → |coord s.ctrlpts k (i * s.numV + j)| ≤ B)
    (h3 : ∀ pt ∈ data, pt.length = 3) (hdata : ∀ pt ∈ data, ∀ x ∈ pt, bin64 x = fin x ∧ |x| ≤ B)
    (htop : ∀ row ∈ top, row.length = 4) (hbot : ∀ row ∈ bottom, row.length = 4)
    (hinv : ∀ pt ∈ data, (∃ e', inv (lift1 pt) = .error e') ∨
      ∃ u v, inv (lift1 pt) = .ok (fin u, fin v) ∧ (bin64 u = fin u ∧ 0 ≤ u ∧ u ≤ 1) ∧ bin64 v = fin v ∧ 0 ≤ v ∧ v ≤ 1)
    (hsize : 5 * s.degreeU + 5 * s.degreeV + 1 + s.numU * s.numV + data.length ≤ 10 ^ 8) {res : Py (Surface (Ext ℚ))}
    (hres : FitSurfaceR bin64 ls inv s.lift (lift2 data) top bottom res) :
    FitSurfaceR bin64 (guarded bin64 B e ls) inv s.lift (lift2 data) top bottom (.error e) ∨
      (∃ pt ∈ data, ∃ e', inv (lift1 pt) = .error e' ∧ res = .error e') ∨
      ∃ P, res = .ok (Surface.lift { s with ctrlpts := P }) ∧ Shape P (s.numU * s.numV) 3 ∧
        StoredSurface bin64 B { s with ctrlpts := P } ∧ ∀ k < 3, ∀ i < s.numU, ∀ j < s.numV, OnBoundary s i j →
          coord P k (i * s.numV + j) = coord s.ctrlpts k (i * s.numV + j) := by
  obtain ⟨-, hall⟩ := fit_surface_binary64 (E := fun e' => e' = e ∨ ∃ pt ∈ data, inv (lift1 pt) = .error e') hB0 hB1
    ((guarded_tame bin64 (2 ^ 1023) B e ls).mono fun e' h => Or.inl h) hs hpu hpv fu fv u0 u1 v0 v1 hst hδu hδv hbd h3 hdata
    htop hbot (fun pt hpt => (hinv pt hpt).imp (fun ⟨e', h⟩ => ⟨e', Or.inr ⟨pt, hpt, h⟩, h⟩) id) hsize
  rcases fitSurfaceR_guarded (X := B) e hres with hg | hg
  · rcases hall res hg with ⟨e', rfl | ⟨pt, hpt, h⟩, rfl⟩ | hgood
    · exact Or.inl hg
    · exact Or.inr (Or.inl ⟨pt, hpt, e', h, rfl⟩)
    · exact Or.inr (Or.inr hgood)
  · exact Or.inl hg

/-- **C191.** The fit of an interior problem in double precision with overflow and underflow, from fitted boundaries over
`[0, 1]` with doubles of size at most `M` to the fitted surface: the initial surface has no infinities and no NaN, and every
run of `fit_surface` ends with an exception of the class `E` that the solver or the inversion raised, or with a surface of
doubles whose bottom edge has exactly the control points of the bottom boundary and whose top edge has those of the top
boundary up to `M 2^-47`. -/
theorem interior_fit_binary64 {E : Err → Prop} {M B : ℚ} (hM0 : 1 / 2 ^ 1000 ≤ M) (hMB : 2 * M ≤ B) (hB1 : B ≤ 2 ^ 1019)
    {ls : ℕ → List (List (Ext ℚ)) → List (Ext ℚ) → Py (List (Ext ℚ))} (hls : TameSolver bin64 (2 ^ 1023) B E ls)
    {inv : Surface (Ext ℚ) → List (Ext ℚ) → Py (Ext ℚ × Ext ℚ)} {t b : Fitted ℚ} {p n q m : ℕ} (td : t.degree = some (p : ℤ))
    (bd : b.degree = some (p : ℤ)) (tn : t.numCtrl = some (n : ℤ)) (bn : b.numCtrl = some (n : ℤ))
    (ht : Shape t.fitCurve.ctrlpts n 3) (hb : Shape b.fitCurve.ctrlpts n 3)
    (hbst : StoredCurve bin64 M b.fitCurve) (htst : StoredCurve bin64 M t.fitCurve) (hp1 : 1 ≤ p) (hp7 : p ≤ 7)
    (hU : Clamped p n b.fitCurve.kv) (hU0 : knotFn b.fitCurve.kv 0 = 0) (hU1 : knotFn b.fitCurve.kv (n + p) = 1)
    (hfirst : knotFn b.fitCurve.kv p < knotFn b.fitCurve.kv (p + 1))
    (hδ : ∀ x ∈ b.fitCurve.kv, ∀ y ∈ b.fitCurve.kv, x < y → 1 / 2 ^ 1000 ≤ y - x) (hq : q < m) (hq1 : 1 ≤ q) (hq7 : q ≤ 7)
    {data : List (List ℚ)} {top bottom : List (List (Ext ℚ))} (h3 : ∀ pt ∈ data, pt.length = 3)
    (hdata : ∀ pt ∈ data, ∀ x ∈ pt, bin64 x = fin x ∧ |x| ≤ B) (htop : ∀ row ∈ top, row.length = 4)
    (hbot : ∀ row ∈ bottom, row.length = 4)
    (hinv : ∀ S, ClampedSurface S → StoredSurface bin64 B S → ∀ pt ∈ data,
      (∃ e, E e ∧ inv S.lift (lift1 pt) = .error e) ∨ ∃ u v, inv S.lift (lift1 pt) = .ok (fin u, fin v) ∧
        (bin64 u = fin u ∧ 0 ≤ u ∧ u ≤ 1) ∧ bin64 v = fin v ∧ 0 ≤ v ∧ v ≤ 1)
    (hsize : 5 * p + 5 * q + 1 + n * m + data.length ≤ 10 ^ 8) :
    ∃ S, ruledSurfaceR bin64 (some t.lift) (some b.lift) (some (q : ℤ)) (some (m : ℤ)) = .ok (Surface.lift S) ∧
      ClampedSurface S ∧ StoredSurface bin64 (2 * M) S ∧
      (∃ res, FitSurfaceR bin64 ls (inv S.lift) S.lift (lift2 data) top bottom res) ∧
      ∀ res, FitSurfaceR bin64 ls (inv S.lift) S.lift (lift2 data) top bottom res → (∃ e, E e ∧ res = .error e) ∨
        ∃ P, res = .ok (Surface.lift { S with ctrlpts := P }) ∧ Shape P (n * m) 3 ∧
          StoredSurface bin64 B { S with ctrlpts := P } ∧ ∀ k < 3, ∀ i < n,
            coord P k (i * m) = coord b.fitCurve.ctrlpts k i ∧
            |coord P k (i * m + (m - 1)) - coord t.fitCurve.ctrlpts k i| ≤ M / 2 ^ 47 := by
  have hM : 0 < M := lt_of_lt_of_le (by positivity) hM0
  have hsz := hU.size
  have hm' : m ≤ 10 ^ 8 := by
    have : 1 * m ≤ n * m := Nat.mul_le_mul_right m (by omega)
    omega
  have hM1 : M ≤ 2 ^ 1019 := by linarith
  obtain ⟨P, V, h1, h2, hV, vc, vd, hst, hP⟩ := ruled_surface_binary64 td bd tn bn ht hb hM0 hM1 hbst htst hq hq1
    (hm'.trans (by norm_num))
  obtain ⟨V', hV', -, -, -, v0, v1, -⟩ := generate_uniform_double hq (hm'.trans (by norm_num))
  rw [hV] at hV'
  cases hV'
  have hS : ClampedSurface (⟨p, q, n, m, P, b.fitCurve.kv, V⟩ : Surface ℚ) := ⟨hU, vc, hp1, hq1, h2⟩
  have hstB : StoredSurface bin64 B (⟨p, q, n, m, P, b.fitCurve.kv, V⟩ : Surface ℚ) := ⟨hst.knotsU, hst.knotsV,
    fun row hr x hx => ⟨(hst.pts row hr x hx).1, (hst.pts row hr x hx).2.trans hMB⟩⟩
  obtain ⟨hex, hall⟩ := fit_surface_binary64 (top := top) (bottom := bottom) (by linarith) hB1 hls
    (inv := inv (Surface.lift ⟨p, q, n, m, P, b.fitCurve.kv, V⟩)) (data := data) hS hp7 hq7 hfirst
    (vd q le_rfl hq) hU0 hU1 v0 v1 hst hδ (uniform_double_sep hq (hm'.trans (by norm_num)) hV)
    (fun k hk i hi j hj _ => (coord_of_forall_mem h2 hstB.pts hk (index_lt hi hj)).2) h3 hdata htop hbot (hinv _ hS hstB) hsize
  refine ⟨_, h1, hS, hst, hex, fun res hres => (hall res hres).imp id ?_⟩
  rintro ⟨Q, hr, hQ, hQst, hQb⟩
  refine ⟨Q, hr, hQ, hQst, fun k hk i hi => ⟨?_, ?_⟩⟩
  · have := hQb k hk i hi 0 (by show 0 < m; omega) (Or.inr (Or.inr (Or.inl rfl)))
    dsimp only at this
    rw [add_zero] at this
    rw [this]
    exact (hP k hk i hi).1
  · have := hQb k hk i hi (m - 1) (by show m - 1 < m; omega)
      (Or.inr (Or.inr (Or.inr (by show m - 1 + 1 = m; omega))))
    dsimp only at this
    rw [this]
    have he := (hP k hk i hi).2.2 (m - 1) (by omega) M hM0 hM1 (coord_of_forall_mem hb hbst.pts hk hi).2
      (coord_of_forall_mem ht htst.pts hk hi).2
    have hm1 : (m : ℚ) - 1 ≠ 0 := by
      have : (2 : ℚ) ≤ m := by exact_mod_cast (by omega : 2 ≤ m)
      linarith
    rwa [Nat.cast_sub (by omega), Nat.cast_one, div_self hm1, one_mul, add_sub_cancel] at he

/-! ## Overflow -/

/-- Boundaries `2^1024` apart in one coordinate, which no double is. -/
def exFarBottom : Fitted ℚ := ⟨some 1, some 2, ⟨1, [[0, 0, -(2 ^ 1023)], [1, 0, 1]], [0, 0, 1, 1]⟩, none⟩
def exFarTop : Fitted ℚ := ⟨some 1, some 2, ⟨1, [[0, 1, 2 ^ 1023], [1, 1, 1]], [0, 0, 1, 1]⟩, none⟩

/-- **C191.** Without the bound on the boundaries the difference overflows although all coordinates are doubles: the first
control point across is then NaN, the others are infinite, and the edge of the surface is not the bottom boundary. -/
theorem ruled_surface_binary64_overflow :
    (∀ row ∈ exFarTop.fitCurve.ctrlpts ++ exFarBottom.fitCurve.ctrlpts, ∀ x ∈ row, bin64 x = fin x) ∧
    (ruledSurfaceR bin64 (some exFarTop.lift) (some exFarBottom.lift) (some 1) (some 3)).map (·.ctrlpts)
      = .ok [[0, 0, nan], [0, fin (1/2), inf false], [0, 1, inf false], [1, 0, 1], [1, fin (1/2), 1], [1, 1, 1]] := by
  decide +kernel

/-! ## Concrete cases -/

/-- C191: one control point across is a division by zero, which raises since it is one of Python integers. -/
example : ruledSurfaceR bin64 (some exTop.lift) (some exBottom.lift) (some 0) (some 1) = .error .nonfinite := by
  decide +kernel

/-- C191: in double precision the initial surface of `Props/Ruled.lean` with four control points across. -/
example : (ruledSurfaceR bin64 (some exTop.lift) (some exBottom.lift) (some 1) (some 4)).map
      (fun s => (s.ctrlpts.getD 0 [], s.ctrlpts.getD 1 [], s.ctrlpts.getD 3 [], s.kvV))
    = .ok ([0, 0, 0], [0, fin (6004799503160661 / 9007199254740992), 0], [0, fin 2, 0],
      [0, 0, fin (6004799503160661 / 18014398509481984), fin (6004799503160661 / 9007199254740992), 1, 1]) := by
  decide +kernel

/-- C191: a boundary difference that underflows is not lost: subnormal doubles are exact. -/
example : (ruledR bin64 0 (fin (2 / 2 ^ 1074)) 3 1, ruledR bin64 0 (fin (1 / 2 ^ 1074)) 3 1)
    = (fin (1 / 2 ^ 1074), fin 0) := by decide +kernel

theorem exTop_stored : StoredCurve bin64 4 exTop.fitCurve := ⟨by decide +kernel, by decide +kernel⟩
theorem exBottom_stored : StoredCurve bin64 4 exBottom.fitCurve := ⟨by decide +kernel, by decide +kernel⟩

theorem exZeroSolver_tame8 : TameSolver bin64 (2 ^ 1023) 8 (fun _ => False) exZeroSolver := fun n A b _ _ _ _ =>
  Or.inr ⟨List.replicate n 0, by rw [List.map_replicate]; rfl, List.length_replicate, fun y hy => by
    rw [List.eq_of_mem_replicate hy]
    exact ⟨by decide +kernel, by norm_num⟩⟩

/-- C191: the interior problem of `Props/Ruled.lean`, with a solver that returns zeros and an inversion that returns one
point. -/
example : ∃ S, ruledSurfaceR bin64 (some exTop.lift) (some exBottom.lift) (some ((1 : ℕ) : ℤ)) (some ((3 : ℕ) : ℤ))
      = .ok (Surface.lift S) ∧
    (∃ res, FitSurfaceR bin64 exZeroSolver (fun _ => .ok (fin (1/2), fin (1/4))) S.lift (lift2 [[1, 1, 1], [2, 1, 1]]) []
      [[0, 0, 0, 0], [fin 3, 0, 1, 1]] res) ∧
    ∀ res, FitSurfaceR bin64 exZeroSolver (fun _ => .ok (fin (1/2), fin (1/4))) S.lift (lift2 [[1, 1, 1], [2, 1, 1]]) []
      [[0, 0, 0, 0], [fin 3, 0, 1, 1]] res →
      ∃ P, res = .ok (Surface.lift { S with ctrlpts := P }) ∧ Shape P (4 * 3) 3 ∧
        StoredSurface bin64 8 { S with ctrlpts := P } ∧ ∀ k < 3, ∀ i < 4,
          coord P k (i * 3) = coord exBottom.fitCurve.ctrlpts k i ∧
          |coord P k (i * 3 + (3 - 1)) - coord exTop.fitCurve.ctrlpts k i| ≤ 4 / 2 ^ 47 := by
  have hU : Clamped 2 4 exBottom.fitCurve.kv :=
    ⟨⟨by decide +kernel, by decide +kernel, by decide⟩, by intro i hi; interval_cases i <;> decide +kernel,
      by intro i h1 h2; interval_cases i <;> decide +kernel⟩
  obtain ⟨S, h1, -, -, h2, h3⟩ := interior_fit_binary64 (E := fun _ => False) (M := 4) (B := 8)
    (inv := fun _ _ => .ok (fin (1/2), fin (1/4))) (p := 2) (n := 4) (q := 1) (m := 3) (data := [[1, 1, 1], [2, 1, 1]])
    (top := []) (bottom := [[0, 0, 0, 0], [fin 3, 0, 1, 1]]) (by decide +kernel) (by norm_num) (by decide +kernel)
    exZeroSolver_tame8 (t := exTop) (b := exBottom) rfl rfl rfl rfl ⟨by decide, by decide⟩ ⟨by decide, by decide⟩
    exBottom_stored exTop_stored (by norm_num) (by norm_num) hU (by decide +kernel)
    (by decide +kernel) (by decide +kernel) (by decide +kernel) (by omega) (by omega) (by norm_num)
    (by decide) (by decide +kernel) (by decide) (by decide)
    (fun S _ _ pt _ => Or.inr ⟨1/2, 1/4, rfl, by decide +kernel, by decide +kernel⟩) (by norm_num)
  refine ⟨S, h1, h2, fun res hres => ?_⟩
  rcases h3 res hres with ⟨e, he, -⟩ | h
  · exact he.elim
  · exact h

/-- C191: a row of a boundary that is too short raises. -/
example {rd : ℚ → Ext ℚ} {ls : ℕ → List (List (Ext ℚ)) → List (Ext ℚ) → Py (List (Ext ℚ))}
    {inv : List (Ext ℚ) → Py (Ext ℚ × Ext ℚ)} {s : Surface (Ext ℚ)} {r : Py (Surface (Ext ℚ))}
    (h : FitSurfaceR rd ls inv s [] [[0, 0, 0, 1]] [[0, 0, 0]] r) : r = .error .valueError :=
  (fit_surface_ieee_raises (row := [0, 0, 0]) (by simp) (by decide) h).elim id fun ⟨_, _, he⟩ => by cases he

end PySpline
