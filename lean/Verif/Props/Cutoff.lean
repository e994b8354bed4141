import Verif.Lemmas.Bezier
import Verif.Lemmas.CutoffBackward
import Verif.Lemmas.CutoffFit
import Verif.Lemmas.CutoffReal
import Verif.Props.Fitting

/-!
# C185: what `single_fit_curve` and `single_fit_surface` compute with the cutoff of `np.linalg.lstsq`
-/

set_option linter.unusedSectionVars false

namespace PySpline

open Spec Finset

variable {K : Type} [Field K] [LinearOrder K] [IsStrictOrderedRing K]

theorem sqResid_eq_resid {A : List (List K)} {b : List K} (n : ℕ) (h : A.length = b.length) (x : ℕ → K) :
    sqResid A n x b = resid (fun r i => at2 A r i 0) A.length n (fun r => b.getD r 0) x := by
  rw [h]
  rfl

/-- **C185.** Without a cutoff the solver is the one that the other properties assume: a least-squares solution of least
norm. -/
theorem cutoff_zero_minNorm {ls : ℕ → List (List K) → List K → List K} (h : IsCutoffLstsq 0 ls) : IsMinNormLstsq ls := by
  have hval : ∀ n A b, A.length = b.length → (∀ row ∈ A, row.length = n) → ∃ v,
      SingularBasis (fun r i => at2 A r i 0) A.length n v ∧ ∀ k < n, (ls n A b).getD k 0
        = cutoffSolution 0 (fun r i => at2 A r i 0) A.length n v (fun r => b.getD r 0) k := by
    intro n A b h1 h2
    obtain ⟨v, hv, hx⟩ := h.value n A b h1 h2
    rw [zero_mul] at hx
    exact ⟨v, hv, hx⟩
  have hopt : ∀ n A b, A.length = b.length → (∀ row ∈ A, row.length = n) → ∀ x : ℕ → K,
      sqResid A n (fun i => (ls n A b).getD i 0) b ≤ sqResid A n x b := by
    intro n A b h1 h2 x
    obtain ⟨v, hv, hx⟩ := hval n A b h1 h2
    rw [sqResid_eq_resid n h1, sqResid_eq_resid n h1, resid_congr hx]
    refine hv.cutoff_optimal _ (fun i hi => ?_) x
    rcases (energy_nonneg (fun r i => at2 A r i 0) A.length n (v i)).eq_or_lt with hz | hz
    · exact Or.inl hz.symm
    · exact Or.inr fun j _ => by rw [zero_pow two_ne_zero, zero_mul]; exact hz
  refine ⟨⟨h.length, hopt⟩, fun n A b h1 h2 x hx => ?_⟩
  obtain ⟨v, hv, hval⟩ := hval n A b h1 h2
  rw [sum_congr rfl fun i hi => by rw [hval i (mem_range.1 hi)]]
  refine hv.cutoff_small _ x fun z => ?_
  have := hx.trans (hopt n A b h1 h2 z)
  rwa [sqResid_eq_resid n h1, sqResid_eq_resid n h1] at this

/-- **C185.** Over the reals there is such a solver for every cutoff. -/
theorem exists_cutoff_lstsq (ε : ℝ) : ∃ ls, IsCutoffLstsq ε ls := exists_isCutoffLstsq ε

/-! ## Curves -/

theorem single_fit_curve_cutoffFit {ε : K} {ls : ℕ → List (List K) → List K → List K} (hls : IsCutoffLstsq ε ls)
    {c : Curve K} {data : List (List K)} {m n : ℕ}
    (hU : Clamped c.degree n c.kv) (hfirst : knotFn c.kv c.degree < knotFn c.kv (c.degree + 1))
    (hP : Shape c.ctrlpts n 3) (hd : Shape data m 4)
    (hdom : ∀ r < m, knotFn c.kv c.degree ≤ at2 data r 3 0 ∧ at2 data r 3 0 ≤ knotFn c.kv n) :
    ∃ c', singleFitCurve ls c data = .ok c' ∧ c'.degree = c.degree ∧ c'.kv = c.kv ∧ Shape c'.ctrlpts n 3 ∧
      ∀ k < 3, CutoffFit (ε * (max m (n - 2) : ℕ)) (fun i => decide (i = 0 ∨ i + 1 = n))
        (fun r i => Nclosed (knotFn c.kv) c.degree n i (at2 data r 3 0)) m n (fun r => at2 data r k 0)
        (coord c.ctrlpts k) (coord c'.ctrlpts k) := by
  have hsz := hU.size
  obtain ⟨M, hM, hs, hv, hun⟩ := single_fit_curve_unity hU hfirst hP.1 hd hdom
  obtain ⟨f, hf, hfl, hfv⟩ := curveMask_eq (n := n) (by omega)
  obtain ⟨new, hnew, hns, hC⟩ := fitColumns_returns (ls := ls) (M := M) (fixed := f) hd (by omega) hP fun k _ =>
    linearFitFixed_cutoff hls (R := M) (Q := data.map fun row => row.getD k 0)
      (P := c.ctrlpts.map fun row => row.getD k 0) (fixed := f) (by simp [hd.1]) (by simp [hP.1]) hs hfl
  refine ⟨{ c with ctrlpts := new }, ?_, rfl, rfl, hns, fun k hk => ?_⟩
  · unfold singleFitCurve
    rw [hM, ok_bind, hun, ok_bind, hP.1, hf, ok_bind, hnew, ok_bind]
  · obtain ⟨x, hx, hxe⟩ := hC k hk
    rw [corank_interior hfv] at hx
    refine hx.congr hfv hv (fun r _ => getD_map_row data r k) (fun i _ => getD_map_row c.ctrlpts i k) fun i hi =>
      (hxe i hi).symm

theorem curve_matVec (V : ℕ → K) (p n : ℕ) (data : List (List K)) (z : ℕ → K) (r : ℕ) :
    matVec (fun r i => Nclosed V p n i (at2 data r 3 0)) n z r = curve V p n z (at2 data r 3 0) := by
  unfold matVec curve
  exact sum_congr rfl fun i _ => mul_comm _ _

/-- **C185.** With the cutoff the fit is not much worse than any curve with the same ends: if that curve has distance at
most `d` from the data, the distance of the fit is at most `d` plus `ε` times the number of equations or unknowns times
the root of the number of data points times the length of the vector of inner control points. -/
theorem single_fit_curve_cutoff {ε : K} {ls : ℕ → List (List K) → List K → List K} (hls : IsCutoffLstsq ε ls)
    {c : Curve K} {data : List (List K)} {m n : ℕ}
    (hU : Clamped c.degree n c.kv) (hfirst : knotFn c.kv c.degree < knotFn c.kv (c.degree + 1))
    (hP : Shape c.ctrlpts n 3) (hd : Shape data m 4)
    (hdom : ∀ r < m, knotFn c.kv c.degree ≤ at2 data r 3 0 ∧ at2 data r 3 0 ≤ knotFn c.kv n) :
    ∃ c', singleFitCurve ls c data = .ok c' ∧ c'.degree = c.degree ∧ c'.kv = c.kv ∧ Shape c'.ctrlpts n 3 ∧
      (∀ k < 3, coord c'.ctrlpts k 0 = coord c.ctrlpts k 0 ∧
        coord c'.ctrlpts k (n - 1) = coord c.ctrlpts k (n - 1)) ∧
      ∀ k < 3, ∀ (z : ℕ → K) (d e : K), z 0 = coord c.ctrlpts k 0 → z (n - 1) = coord c.ctrlpts k (n - 1) →
        0 ≤ d → 0 ≤ e →
        ∑ r ∈ range m, (curve (knotFn c.kv) c.degree n z (at2 data r 3 0) - at2 data r k 0) ^ 2 ≤ d ^ 2 →
        (ε * (max m (n - 2) : ℕ)) ^ 2 * m * ∑ i ∈ Ico 1 (n - 1), z i ^ 2 ≤ e ^ 2 →
        ∑ r ∈ range m, (curve (knotFn c.kv) c.degree n (coord c'.ctrlpts k) (at2 data r 3 0) - at2 data r k 0) ^ 2
          ≤ (d + e) ^ 2 := by
  have hsz := hU.size
  obtain ⟨c', hc', h1, h2, h3, hC⟩ := single_fit_curve_cutoffFit hls hU hfirst hP hd hdom
  refine ⟨c', hc', h1, h2, h3, fun k hk => ⟨(hC k hk).fixed 0 (by omega) (by simp),
    (hC k hk).fixed (n - 1) (by omega) (by simp; omega)⟩, fun k hk z d e z0 z1 hd0 he0 hz hze => ?_⟩
  have hG := energy_le_of_weights (R := fun r i => Nclosed (knotFn c.kv) c.degree n i (at2 data r 3 0)) (m := m) (n := n)
    (fun r _ i _ => Nclosed_nonneg (monotone_knotFn hU.mono) _ _ _ _)
    (fun r hr => sum_Nclosed hU (hdom r hr).1 (hdom r hr).2)
  have := (hC k hk).near m z d e (fun y _ => hG y) (fun i hi hfi => ?_) hd0 he0
  · unfold resid at this
    simp only [curve_matVec] at this
    rw [sum_interior (fun i => z i ^ 2)] at this
    exact this hz hze
  · rcases of_decide_eq_true hfi with rfl | h
    · exact z0
    · rw [show i = n - 1 by omega]; exact z1

/-- **C185.** With the cutoff the fit is optimal, as C51 says, if the design matrix is not too badly conditioned. -/
theorem single_fit_curve_cutoff_exact {ε : K} {ls : ℕ → List (List K) → List K → List K} (hls : IsCutoffLstsq ε ls)
    {c : Curve K} {data : List (List K)} {m n : ℕ}
    (hU : Clamped c.degree n c.kv) (hfirst : knotFn c.kv c.degree < knotFn c.kv (c.degree + 1))
    (hP : Shape c.ctrlpts n 3) (hd : Shape data m 4)
    (hdom : ∀ r < m, knotFn c.kv c.degree ≤ at2 data r 3 0 ∧ at2 data r 3 0 ≤ knotFn c.kv n) {γ : K}
    (hγ : ∀ y : ℕ → K, y 0 = 0 → y (n - 1) = 0 → γ * ∑ i ∈ range n, y i ^ 2
      ≤ ∑ r ∈ range m, curve (knotFn c.kv) c.degree n y (at2 data r 3 0) ^ 2)
    (hlt : (ε * (max m (n - 2) : ℕ)) ^ 2 * m < γ) :
    ∃ c', singleFitCurve ls c data = .ok c' ∧
      ∀ k < 3, ∀ z : ℕ → K, z 0 = coord c.ctrlpts k 0 → z (n - 1) = coord c.ctrlpts k (n - 1) →
        ∑ r ∈ range m, (curve (knotFn c.kv) c.degree n (coord c'.ctrlpts k) (at2 data r 3 0) - at2 data r k 0) ^ 2
          ≤ ∑ r ∈ range m, (curve (knotFn c.kv) c.degree n z (at2 data r 3 0) - at2 data r k 0) ^ 2 := by
  have hsz := hU.size
  obtain ⟨c', hc', -, -, -, hC⟩ := single_fit_curve_cutoffFit hls hU hfirst hP hd hdom
  refine ⟨c', hc', fun k hk z z0 z1 => ?_⟩
  have hends : ∀ (w g : ℕ → K), w 0 = g 0 → w (n - 1) = g (n - 1) → ∀ i < n, decide (i = 0 ∨ i + 1 = n) = true →
      w i = g i := by
    intro w g w0 w1 i hi hfi
    rcases of_decide_eq_true hfi with rfl | h
    · exact w0
    · rw [show i = n - 1 by omega]; exact w1
  have hG := energy_le_of_weights (R := fun r i => Nclosed (knotFn c.kv) c.degree n i (at2 data r 3 0)) (m := m) (n := n)
    (fun r _ i _ => Nclosed_nonneg (monotone_knotFn hU.mono) _ _ _ _)
    (fun r hr => sum_Nclosed hU (hdom r hr).1 (hdom r hr).2)
  have := (hC k hk).exact γ m (fun y _ => hG y) (fun y hy => ?_) hlt z (hends z _ z0 z1)
  · unfold resid at this
    simpa only [curve_matVec] using this
  · unfold energy
    simp only [curve_matVec]
    exact hγ y (hy 0 (by omega) (by simp)) (hy (n - 1) (by omega) (by simp; omega))

/-- **C185.** With the cutoff the inner control points are bounded by the data, whatever their parameters: for every curve
with inner control points `y` and ends at the origin. -/
theorem single_fit_curve_cutoff_bounded {ε : K} {ls : ℕ → List (List K) → List K → List K} (hls : IsCutoffLstsq ε ls)
    {c : Curve K} {data : List (List K)} {m n : ℕ}
    (hU : Clamped c.degree n c.kv) (hfirst : knotFn c.kv c.degree < knotFn c.kv (c.degree + 1))
    (hP : Shape c.ctrlpts n 3) (hd : Shape data m 4)
    (hdom : ∀ r < m, knotFn c.kv c.degree ≤ at2 data r 3 0 ∧ at2 data r 3 0 ≤ knotFn c.kv n) :
    ∃ c', singleFitCurve ls c data = .ok c' ∧ ∀ k < 3, ∀ y : ℕ → K, y 0 = 0 → y (n - 1) = 0 →
      (ε * (max m (n - 2) : ℕ)) ^ 2 * (∑ r ∈ range m, curve (knotFn c.kv) c.degree n y (at2 data r 3 0) ^ 2)
          * ∑ i ∈ Ico 1 (n - 1), coord c'.ctrlpts k i ^ 2
        ≤ (∑ r ∈ range m, (curve (knotFn c.kv) c.degree n
            (fun i => if i = 0 ∨ i + 1 = n then coord c.ctrlpts k i else 0) (at2 data r 3 0) - at2 data r k 0) ^ 2)
          * ∑ i ∈ range n, y i ^ 2 := by
  have hsz := hU.size
  obtain ⟨c', hc', -, -, -, hC⟩ := single_fit_curve_cutoffFit hls hU hfirst hP hd hdom
  refine ⟨c', hc', fun k hk y y0 y1 => ?_⟩
  have := (hC k hk).bound y fun i hi hfi => by
    rcases of_decide_eq_true hfi with rfl | h
    · exact y0
    · rw [show i = n - 1 by omega]; exact y1
  unfold resid energy at this
  simp only [curve_matVec] at this
  rw [sum_interior (fun i => coord c'.ctrlpts k i ^ 2)] at this
  simpa only [decide_eq_true_eq] using this

/-! ## Surfaces -/

theorem surface_matVec (U V : ℕ → K) (p q nu nv : ℕ) (data : List (List K)) (z : ℕ → K) (r : ℕ) (hv : 0 < nv) :
    matVec (fun r t => Nclosed U p nu (t / nv) (at2 data r 3 0) * Nclosed V q nv (t % nv) (at2 data r 4 0)) (nu * nv) z r
      = surface U p nu V q nv z (at2 data r 3 0) (at2 data r 4 0) := by
  unfold matVec surface
  rw [sum_grid]
  refine sum_congr rfl fun i _ => sum_congr rfl fun j hj => ?_
  have hj := mem_range.1 hj
  dsimp only
  rw [show (i * nv + j) / nv = i by rw [mul_comm, Nat.mul_add_div hv, Nat.div_eq_of_lt hj, add_zero],
    show (i * nv + j) % nv = j by rw [mul_comm, Nat.mul_add_mod, Nat.mod_eq_of_lt hj]]
  ring

/-- **C185.** The same for surfaces. -/
theorem single_fit_surface_cutoff {ε : K} {ls : ℕ → List (List K) → List K → List K} (hls : IsCutoffLstsq ε ls)
    {s : Surface K} {data : List (List K)} {m : ℕ} (hs : ClampedSurface s)
    (fu : knotFn s.kvU s.degreeU < knotFn s.kvU (s.degreeU + 1))
    (fv : knotFn s.kvV s.degreeV < knotFn s.kvV (s.degreeV + 1)) (hd : Shape data m 5)
    (hu : ∀ r < m, knotFn s.kvU s.degreeU ≤ at2 data r 3 0 ∧ at2 data r 3 0 ≤ knotFn s.kvU s.numU)
    (hv : ∀ r < m, knotFn s.kvV s.degreeV ≤ at2 data r 4 0 ∧ at2 data r 4 0 ≤ knotFn s.kvV s.numV) :
    ∃ s', singleFitSurface ls s data = .ok s' ∧ s' = { s with ctrlpts := s'.ctrlpts } ∧
      ∀ k < 3, (∀ i < s.numU, ∀ j < s.numV, i = 0 ∨ i + 1 = s.numU ∨ j = 0 ∨ j + 1 = s.numV →
          coord s'.ctrlpts k (i * s.numV + j) = coord s.ctrlpts k (i * s.numV + j)) ∧
        ∀ (z : ℕ → K) (d e : K),
        (∀ i < s.numU, ∀ j < s.numV, i = 0 ∨ i + 1 = s.numU ∨ j = 0 ∨ j + 1 = s.numV →
          z (i * s.numV + j) = coord s.ctrlpts k (i * s.numV + j)) → 0 ≤ d → 0 ≤ e →
        ∑ r ∈ range m, (surface (knotFn s.kvU) s.degreeU s.numU (knotFn s.kvV) s.degreeV s.numV
            z (at2 data r 3 0) (at2 data r 4 0) - at2 data r k 0) ^ 2 ≤ d ^ 2 →
        (ε * (max m ((s.numU - 2) * (s.numV - 2)) : ℕ)) ^ 2 * m
          * ∑ i ∈ Ico 1 (s.numU - 1), ∑ j ∈ Ico 1 (s.numV - 1), z (i * s.numV + j) ^ 2 ≤ e ^ 2 →
        ∑ r ∈ range m, (surface (knotFn s.kvU) s.degreeU s.numU (knotFn s.kvV) s.degreeV s.numV
            (coord s'.ctrlpts k) (at2 data r 3 0) (at2 data r 4 0) - at2 data r k 0) ^ 2 ≤ (d + e) ^ 2 := by
  have su := hs.cu.size
  have sv := hs.cv.size
  have hv0 : 0 < s.numV := by omega
  obtain ⟨M, hM, hMs, hMv⟩ := surfaceMatrix_spec (s := s) (data := data) (m := m)
    (fun r i => Nclosed (knotFn s.kvU) s.degreeU s.numU i (at2 data r 3 0))
    (fun r j => Nclosed (knotFn s.kvV) s.degreeV s.numV j (at2 data r 4 0)) hd hs.shape.1
    (fun _ _ _ hi => one_basis_function_cox_de_boor hs.cu fu hi _)
    (fun _ _ _ hj => one_basis_function_cox_de_boor hs.cv fv hj _)
  have h1 : ∀ r < m, ∑ t ∈ range (s.numU * s.numV), at2 M r t 0 = 1 := by
    intro r hr
    rw [sum_grid]
    have : ∀ i ∈ range s.numU, ∑ j ∈ range s.numV, at2 M r (i * s.numV + j) 0
        = Nclosed (knotFn s.kvU) s.degreeU s.numU i (at2 data r 3 0) := by
      intro i hi
      rw [sum_congr rfl fun j hj => hMv r hr i (mem_range.1 hi) j (mem_range.1 hj), ← mul_sum,
        sum_Nclosed hs.cv (hv r hr).1 (hv r hr).2, mul_one]
    rw [sum_congr rfl this, sum_Nclosed hs.cu (hu r hr).1 (hu r hr).2]
  have hun : checkUnity M m = .ok () := checkUnity_ok hMs h1
  obtain ⟨f, hf, hfl, hfv⟩ := surface_mask_boundary (nu := s.numU) (nv := s.numV) (by omega) (by omega)
  have hsplit : ∀ t < s.numU * s.numV, t / s.numV * s.numV + t % s.numV = t ∧ t / s.numV < s.numU ∧ t % s.numV < s.numV :=
    fun t ht => ⟨Nat.div_add_mod' t s.numV, Nat.div_lt_of_lt_mul (by rw [mul_comm]; exact ht), Nat.mod_lt _ hv0⟩
  have hM' : ∀ r < m, ∀ t < s.numU * s.numV, at2 M r t 0 = Nclosed (knotFn s.kvU) s.degreeU s.numU (t / s.numV) (at2 data r 3 0)
      * Nclosed (knotFn s.kvV) s.degreeV s.numV (t % s.numV) (at2 data r 4 0) := by
    intro r hr t ht
    obtain ⟨e1, e2, e3⟩ := hsplit t ht
    rw [← hMv r hr _ e2 _ e3, e1]
  obtain ⟨new, hnew, hns, hC⟩ := fitColumns_returns (ls := ls) (M := M) (fixed := f) hd (by omega) hs.shape fun k _ =>
    linearFitFixed_cutoff hls (R := M) (Q := data.map fun row => row.getD k 0)
      (P := s.ctrlpts.map fun row => row.getD k 0) (fixed := f) (by simp [hd.1]) (by simp [hs.shape.1]) hMs hfl
  refine ⟨{ s with ctrlpts := new }, ?_, rfl, fun k hk => ?_⟩
  · unfold singleFitSurface
    rw [hM, ok_bind, hd.1, hun, ok_bind, hs.shape.1, hf, ok_bind, hnew, ok_bind]
  obtain ⟨x, hx, hxe⟩ := hC k hk
  rw [corank_interior_grid hfv] at hx
  have hx := hx.congr (fun _ _ => rfl) hM' (fun r _ => getD_map_row data r k) (fun i _ => getD_map_row s.ctrlpts i k)
    fun i hi => (hxe i hi).symm
  refine ⟨fun i hi j hj hb => hx.fixed _ (index_lt hi hj) (by rw [hfv i hi j hj]; exact decide_eq_true hb),
    fun z d e hz hd0 he0 hzd hze => ?_⟩
  have := hx.near m z d e (fun y _ => energy_le_of_weights (fun r _ t _ => mul_nonneg
      (Nclosed_nonneg (monotone_knotFn hs.cu.mono) _ _ _ _) (Nclosed_nonneg (monotone_knotFn hs.cv.mono) _ _ _ _))
    (fun r hr => by rw [← h1 r hr]; exact sum_congr rfl fun t ht => (hM' r hr t (mem_range.1 ht)).symm) y)
    (fun t ht hft => ?_) hd0 he0
  · unfold resid at this
    simp only [surface_matVec _ _ _ _ _ _ _ _ _ hv0] at this
    rw [sum_interior_grid (fun t => z t ^ 2) _ _ hfv] at this
    exact this hzd hze
  · obtain ⟨e1, e2, e3⟩ := hsplit t ht
    have h3 := hfv _ e2 _ e3
    rw [e1, hft] at h3
    have := hz _ e2 _ e3 (of_decide_eq_true h3.symm)
    rwa [e1] at this

/-! ## Rounded arithmetic -/

/-- **C185.** For problems with at most `N` data points and control points a solver with the cutoff `ε` is one of the
backward stable solvers (with `ε N`) that the properties of fits in rounded arithmetic assume. -/
theorem single_fit_cutoff_backward {ε : K} (hε : 0 ≤ ε) {ls : ℕ → List (List K) → List K → List K}
    (hls : IsCutoffLstsq ε ls) (N : ℕ) : ∃ ls', BackwardStable (ε * N) ls' ∧ ∀ (fl : K → K) (data : List (List K)),
      data.length ≤ N →
      (∀ c : Curve K, c.ctrlpts.length ≤ N → ∀ r, SingleFitCurveFl fl ls c data r ↔ SingleFitCurveFl fl ls' c data r) ∧
      ∀ s : Surface K, s.ctrlpts.length ≤ N → ∀ r, SingleFitSurfaceFl fl ls s data r ↔ SingleFitSurfaceFl fl ls' s data r := by
  obtain ⟨ls', h', heq⟩ := hls.backward hε N
  refine ⟨ls', h', fun fl data hd => ⟨fun c hc r => ?_, fun s hs r => ?_⟩⟩
  · exact SingleFitCurveFl_solver fun k A b h1 h2 => (heq k A b (by omega) (by omega)).symm
  · exact SingleFitSurfaceFl_solver fun k A b h1 h2 => (heq k A b (by omega) (by omega)).symm

/-! ## The cutoff matters -/

/-- A cubic Bézier curve with large control points, and its points for the parameters `2⁻⁶⁰` and `1/2`. -/
noncomputable def exCutCurve : Curve ℝ := ⟨3, [[0, 0, 0], [2 ^ 60, 0, 0], [-2 ^ 60, 0, 0], [0, 0, 0]], [0, 0, 0, 0, 1, 1, 1, 1]⟩
noncomputable def exCutData : List (List ℝ) :=
  [[3 * (1 - 1 / 2 ^ 60) * (1 - 2 / 2 ^ 60), 0, 0, 1 / 2 ^ 60], [0, 0, 0, 1 / 2]]

theorem exCut_clamped : Clamped 3 4 exCutCurve.kv where
  len := rfl
  mono := by simp [exCutCurve]
  size := by decide
  left := by intro i hi; interval_cases i <;> rfl
  right := by intro i h1 h2; interval_cases i <;> rfl

theorem exCut_curve (z : ℕ → ℝ) {u : ℝ} (h0 : 0 ≤ u) (h1 : u ≤ 1) : curve (knotFn exCutCurve.kv) 3 4 z u
    = z 0 * (1 - u) ^ 3 + z 1 * (3 * u * (1 - u) ^ 2) + z 2 * (3 * u ^ 2 * (1 - u)) + z 3 * u ^ 3 := by
  unfold curve
  have := fun (i : ℕ) (hi : i ≤ 3) => Nclosed_bernstein exCut_clamped rfl rfl h0 h1 hi
  simp only [sum_range_succ, sum_range_zero, zero_add]
  rw [this 0 (by omega), this 1 (by omega), this 2 (by omega), this 3 (by omega)]
  norm_num [Nat.choose]

/-- **C185.** With the cutoff of double precision C51 fails: the curve passes through the data, and the fit leaves them. -/
theorem single_fit_curve_cutoff_worse {ls : ℕ → List (List ℝ) → List ℝ → List ℝ} (hls : IsCutoffLstsq (1 / 2 ^ 52) ls) :
    ∃ c', singleFitCurve ls exCutCurve exCutData = .ok c' ∧
      ∑ r ∈ range 2, (curve (knotFn exCutCurve.kv) 3 4 (coord exCutCurve.ctrlpts 0) (at2 exCutData r 3 0)
        - at2 exCutData r 0 0) ^ 2 = 0 ∧
      4 < ∑ r ∈ range 2, (curve (knotFn exCutCurve.kv) 3 4 (coord c'.ctrlpts 0) (at2 exCutData r 3 0)
        - at2 exCutData r 0 0) ^ 2 := by
  have hP : Shape exCutCurve.ctrlpts 4 3 := ⟨rfl, by simp [exCutCurve]⟩
  have hd : Shape exCutData 2 4 := ⟨rfl, by simp [exCutData]⟩
  have hk : knotFn exCutCurve.kv 3 = 0 ∧ knotFn exCutCurve.kv 4 = 1 := ⟨rfl, rfl⟩
  have u0 : at2 exCutData 0 3 0 = 1 / 2 ^ 60 := rfl
  have u1 : at2 exCutData 1 3 0 = 1 / 2 := rfl
  have q0 : at2 exCutData 0 0 0 = 3 * (1 - 1 / 2 ^ 60) * (1 - 2 / 2 ^ 60) := rfl
  have q1 : at2 exCutData 1 0 0 = 0 := rfl
  have hfirst : knotFn exCutCurve.kv exCutCurve.degree < knotFn exCutCurve.kv (exCutCurve.degree + 1) := by
    show knotFn exCutCurve.kv 3 < knotFn exCutCurve.kv 4
    rw [hk.1, hk.2]; norm_num
  have hdom : ∀ r < 2, knotFn exCutCurve.kv exCutCurve.degree ≤ at2 exCutData r 3 0 ∧
      at2 exCutData r 3 0 ≤ knotFn exCutCurve.kv 4 := by
    intro r hr
    show knotFn exCutCurve.kv 3 ≤ _ ∧ _
    rw [hk.1, hk.2]
    interval_cases r
    · rw [u0]; norm_num
    · rw [u1]; norm_num
  obtain ⟨c', hc', -, -, -, hends, -⟩ := single_fit_curve_cutoff hls exCut_clamped hfirst hP hd hdom
  obtain ⟨c'', hc'', hb⟩ := single_fit_curve_cutoff_bounded hls exCut_clamped hfirst hP hd hdom
  rw [hc'] at hc''
  cases hc''
  have p0 : coord exCutCurve.ctrlpts 0 0 = 0 := rfl
  have p1 : coord exCutCurve.ctrlpts 0 1 = 2 ^ 60 := rfl
  have p2 : coord exCutCurve.ctrlpts 0 2 = -2 ^ 60 := rfl
  have p3 : coord exCutCurve.ctrlpts 0 3 = 0 := rfl
  have e0 : coord c'.ctrlpts 0 0 = 0 := (hends 0 (by omega)).1
  have e3 : coord c'.ctrlpts 0 3 = 0 := (hends 0 (by omega)).2
  refine ⟨c', hc', ?_, ?_⟩
  · simp only [sum_range_succ, sum_range_zero, zero_add, u0, u1, q0, q1]
    rw [exCut_curve _ (by norm_num) (by norm_num), exCut_curve _ (by norm_num) (by norm_num), p0, p1, p2, p3]
    norm_num
  have hb := hb 0 (by omega) (fun i => if i = 1 ∨ i = 2 then 1 else 0) (by simp) (by simp)
  simp only [sum_range_succ, sum_range_zero, zero_add, u0, u1, q0, q1] at hb ⊢
  have hdeg : exCutCurve.degree = 3 := rfl
  rw [hdeg] at hb
  rw [exCut_curve _ (by norm_num) (by norm_num), exCut_curve _ (by norm_num) (by norm_num),
    exCut_curve _ (by norm_num) (by norm_num), exCut_curve _ (by norm_num) (by norm_num)] at hb
  rw [exCut_curve _ (by norm_num) (by norm_num), exCut_curve _ (by norm_num) (by norm_num), e0, e3]
  have hI : Ico 1 (4 - 1) = {1, 2} := by decide
  rw [hI, sum_pair (by norm_num)] at hb
  norm_num [p0, p3] at hb
  generalize coord c'.ctrlpts 0 1 = x at *
  generalize coord c'.ctrlpts 0 2 = y at *
  have hxy : x ^ 2 + y ^ 2 ≤ (2 ^ 54) ^ 2 := by
    by_contra h
    push Not at h
    have h1 : (9 : ℝ) / 8 / 2 ^ 103 * (x ^ 2 + y ^ 2) ≤ 18 := by
      refine le_trans ?_ (hb.trans (by norm_num))
      refine mul_le_mul_of_nonneg_right ?_ (by positivity)
      norm_num
    have h2 : (9 : ℝ) / 8 / 2 ^ 103 * (2 ^ 54) ^ 2 = 36 := by norm_num
    have h3 := mul_lt_mul_of_pos_left h (show (0 : ℝ) < 9 / 8 / 2 ^ 103 by norm_num)
    linarith
  have hx : x ≤ 2 ^ 54 := by
    have := abs_le_of_sq_le_sq (show x ^ 2 ≤ (2 ^ 54) ^ 2 by linarith [sq_nonneg y]) (by norm_num)
    exact (le_abs_self _).trans this
  have hy : y ≤ 2 ^ 54 := by
    have := abs_le_of_sq_le_sq (show y ^ 2 ≤ (2 ^ 54) ^ 2 by linarith [sq_nonneg x]) (by norm_num)
    exact (le_abs_self _).trans this
  have h1 : 0 * (1 - 1 / 2 ^ 60) ^ 3 + x * (3 * (1 / 2 ^ 60) * (1 - 1 / 2 ^ 60) ^ 2)
      + y * (3 * (1 / 2 ^ 60) ^ 2 * (1 - 1 / 2 ^ 60)) + 0 * (1 / 2 ^ 60) ^ 3
      - 3 * (1 - 1 / 2 ^ 60) * (1 - 2 / 2 ^ 60) < -2 := by
    have a1 := mul_le_mul_of_nonneg_right hx (show (0 : ℝ) ≤ 3 * (1 / 2 ^ 60) * (1 - 1 / 2 ^ 60) ^ 2 by norm_num)
    have a2 := mul_le_mul_of_nonneg_right hy (show (0 : ℝ) ≤ 3 * (1 / 2 ^ 60) ^ 2 * (1 - 1 / 2 ^ 60) by norm_num)
    have a3 : (2 : ℝ) ^ 54 * (3 * (1 / 2 ^ 60) * (1 - 1 / 2 ^ 60) ^ 2) + 2 ^ 54 * (3 * (1 / 2 ^ 60) ^ 2 * (1 - 1 / 2 ^ 60))
        - 3 * (1 - 1 / 2 ^ 60) * (1 - 2 / 2 ^ 60) < -2 := by norm_num
    linarith
  generalize 0 * (1 - 1 / 2 ^ 60) ^ 3 + x * (3 * (1 / 2 ^ 60) * (1 - 1 / 2 ^ 60) ^ 2)
      + y * (3 * (1 / 2 ^ 60) ^ 2 * (1 - 1 / 2 ^ 60)) + 0 * (1 / 2 ^ 60) ^ 3
      - 3 * (1 - 1 / 2 ^ 60) * (1 - 2 / 2 ^ 60) = t at *
  have h2 : 4 < t ^ 2 := by nlinarith
  have h3 := sq_nonneg (0 * (1 - 1 / 2) ^ 3 + x * (3 * (1 / 2) * (1 - 1 / 2) ^ 2) + y * (3 * (1 / 2) ^ 2 * (1 - 1 / 2))
    + 0 * (1 / 2) ^ 3 - 0)
  linarith

/-! ## Examples -/

/-- A quadratic Bézier curve and three data points. -/
noncomputable def exCutQuad : Curve ℝ := ⟨2, [[0, 0, 0], [1, 0, 0], [2, 0, 2]], [0, 0, 0, 1, 1, 1]⟩
noncomputable def exCutQuadData : List (List ℝ) := [[1/2, 1, 0, 1/4], [1, 2, 1/2, 1/2], [3/2, 1, 1, 3/4]]

theorem exCutQuad_clamped : Clamped 2 3 exCutQuad.kv where
  len := rfl
  mono := by simp [exCutQuad]
  size := by decide
  left := by intro i hi; interval_cases i <;> rfl
  right := by intro i h1 h2; interval_cases i <;> rfl

theorem exCutQuad_curve (z : ℕ → ℝ) {u : ℝ} (h0 : 0 ≤ u) (h1 : u ≤ 1) : curve (knotFn exCutQuad.kv) 2 3 z u
    = z 0 * (1 - u) ^ 2 + z 1 * (2 * u * (1 - u)) + z 2 * u ^ 2 := by
  unfold curve
  have := fun (i : ℕ) (hi : i ≤ 2) => Nclosed_bernstein exCutQuad_clamped rfl rfl h0 h1 hi
  simp only [sum_range_succ, sum_range_zero, zero_add]
  rw [this 0 (by omega), this 1 (by omega), this 2 (by omega)]
  norm_num [Nat.choose]

theorem exCutQuad_dom : ∀ r < 3, knotFn exCutQuad.kv exCutQuad.degree ≤ at2 exCutQuadData r 3 0 ∧
    at2 exCutQuadData r 3 0 ≤ knotFn exCutQuad.kv 3 := by
  intro r hr
  show (0 : ℝ) ≤ _ ∧ _ ≤ (1 : ℝ)
  interval_cases r
  · show (0 : ℝ) ≤ 1 / 4 ∧ (1 / 4 : ℝ) ≤ 1; norm_num
  · show (0 : ℝ) ≤ 1 / 2 ∧ (1 / 2 : ℝ) ≤ 1; norm_num
  · show (0 : ℝ) ≤ 3 / 4 ∧ (3 / 4 : ℝ) ≤ 1; norm_num

/-- The inner control point is well determined, so the fit is optimal with the cutoff of double precision. -/
example {ls : ℕ → List (List ℝ) → List ℝ → List ℝ} (hls : IsCutoffLstsq (1 / 2 ^ 52) ls) :
    ∃ c', singleFitCurve ls exCutQuad exCutQuadData = .ok c' ∧
      ∀ k < 3, ∀ z : ℕ → ℝ, z 0 = coord exCutQuad.ctrlpts k 0 → z 2 = coord exCutQuad.ctrlpts k 2 →
        ∑ r ∈ range 3, (curve (knotFn exCutQuad.kv) 2 3 (coord c'.ctrlpts k) (at2 exCutQuadData r 3 0)
            - at2 exCutQuadData r k 0) ^ 2
          ≤ ∑ r ∈ range 3, (curve (knotFn exCutQuad.kv) 2 3 z (at2 exCutQuadData r 3 0) - at2 exCutQuadData r k 0) ^ 2 := by
  refine single_fit_curve_cutoff_exact hls (n := 3) (m := 3) exCutQuad_clamped (γ := 17 / 32) ?_ ⟨rfl, by simp [exCutQuad]⟩
    ⟨rfl, by simp [exCutQuadData]⟩ exCutQuad_dom ?_ (by norm_num)
  · show (0 : ℝ) < 1
    norm_num
  · intro y y0 y1
    have y1 : y 2 = 0 := y1
    have u0 : at2 exCutQuadData 0 3 0 = 1 / 4 := rfl
    have u1 : at2 exCutQuadData 1 3 0 = 1 / 2 := rfl
    have u2 : at2 exCutQuadData 2 3 0 = 3 / 4 := rfl
    have hdeg : exCutQuad.degree = 2 := rfl
    simp only [sum_range_succ, sum_range_zero, zero_add, u0, u1, u2, hdeg]
    rw [exCutQuad_curve _ (by norm_num) (by norm_num), exCutQuad_curve _ (by norm_num) (by norm_num),
      exCutQuad_curve _ (by norm_num) (by norm_num), y0, y1]
    nlinarith [sq_nonneg (y 1)]

/-- There are solvers as in the theorems for double precision. -/
example : ∃ ls, IsCutoffLstsq (1 / 2 ^ 52 : ℝ) ls := exists_cutoff_lstsq _

end PySpline
