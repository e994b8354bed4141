import Verif.Props.FitStages
import Verif.Props.SurfaceFitUnique

/-!
# C166: fits of data in a plane
-/

set_option linter.unusedSectionVars false

namespace PySpline

open Spec Finset

section
variable {K : Type} [Field K] [LinearOrder K] [IsStrictOrderedRing K]

/-- The row of coordinates is on the plane `a₀ x + a₁ y + a₂ z = e`. -/
def OnPlane (a : ℕ → K) (e : K) (row : List K) : Prop :=
  a 0 * row.getD 0 0 + a 1 * row.getD 1 0 + a 2 * row.getD 2 0 = e

/-! ## Determined fits -/

section
variable {p n m : ℕ} {U : List K}

theorem curve_comb (x y z : ℕ → K) (a b c u : K) :
    curve (knotFn U) p n (fun i => a * x i + b * y i + c * z i) u
      = a * curve (knotFn U) p n x u + b * curve (knotFn U) p n y u + c * curve (knotFn U) p n z u := by
  unfold curve
  rw [mul_sum, mul_sum, mul_sum, ← sum_add_distrib, ← sum_add_distrib]
  exact sum_congr rfl fun i _ => by ring

/-- Solutions of the normal equations for data in a plane are in the plane if their ends are. -/
theorem planar_of_normal (hU : Clamped p n U) (hp : 1 ≤ p) {t : ℕ → K} (ht : Determined p n (knotFn U) m t)
    (hdom : ∀ r < m, knotFn U p ≤ t r ∧ t r ≤ knotFn U n) {a : ℕ → K} {e : K} {x d : ℕ → ℕ → K}
    (hx : ∀ k < 3, ∀ f : ℕ → K, f 0 = 0 → f (n - 1) = 0 →
      ∑ r ∈ range m, (curve (knotFn U) p n (x k) (t r) - d k r) * curve (knotFn U) p n f (t r) = 0)
    (hd : ∀ r < m, a 0 * d 0 r + a 1 * d 1 r + a 2 * d 2 r = e)
    (h0 : a 0 * x 0 0 + a 1 * x 1 0 + a 2 * x 2 0 = e)
    (h1 : a 0 * x 0 (n - 1) + a 1 * x 1 (n - 1) + a 2 * x 2 (n - 1) = e) :
    ∀ i < n, a 0 * x 0 i + a 1 * x 1 i + a 2 * x 2 i = e := by
  refine normal_unique hU hp (d := fun _ => e) ht (x := fun _ => e)
    (z := fun i => a 0 * x 0 i + a 1 * x 1 i + a 2 * x 2 i) h0 h1 (fun f _ _ => ?_) fun f f0 f1 => ?_
  · refine sum_eq_zero fun r hr => ?_
    obtain ⟨g1, g2⟩ := hdom r (mem_range.1 hr)
    have : curve (knotFn U) p n (fun _ => e) (t r) = e := by
      unfold curve; rw [← mul_sum, sum_Nclosed hU g1 g2, mul_one]
    rw [this, sub_self, zero_mul]
  · have e0 := hx 0 (by omega) f f0 f1
    have e1 := hx 1 (by omega) f f0 f1
    have e2 := hx 2 (by omega) f f0 f1
    have key : ∑ r ∈ range m, (curve (knotFn U) p n (fun i => a 0 * x 0 i + a 1 * x 1 i + a 2 * x 2 i) (t r) - e)
        * curve (knotFn U) p n f (t r)
        = a 0 * ∑ r ∈ range m, (curve (knotFn U) p n (x 0) (t r) - d 0 r) * curve (knotFn U) p n f (t r)
          + a 1 * ∑ r ∈ range m, (curve (knotFn U) p n (x 1) (t r) - d 1 r) * curve (knotFn U) p n f (t r)
          + a 2 * ∑ r ∈ range m, (curve (knotFn U) p n (x 2) (t r) - d 2 r) * curve (knotFn U) p n f (t r) := by
      rw [mul_sum, mul_sum, mul_sum, ← sum_add_distrib, ← sum_add_distrib]
      refine sum_congr rfl fun r hr => ?_
      rw [curve_comb, ← hd r (mem_range.1 hr)]
      ring
    rw [key, e0, e1, e2]
    ring

end

section
variable {ls : ℕ → List (List K) → List K → List K} {c : Curve K} {data : List (List K)} {m n : ℕ}

theorem getD_mem_of_shape {w : ℕ} (hd : Shape data m w) {r : ℕ} (hr : r < m) : data.getD r [] ∈ data := by
  have : r < data.length := by rw [hd.1]; exact hr
  rw [List.getD_eq_getElem?_getD, List.getElem?_eq_getElem this]
  exact List.getElem_mem this

/-- **C166.** If the data and the two end points are in a plane and the data parameters satisfy the Schoenberg–Whitney
condition, all control points computed by `single_fit_curve` are in the plane. -/
theorem single_fit_curve_planar (hls : IsLstsq ls) (hU : Clamped c.degree n c.kv) (hp : 1 ≤ c.degree)
    (hfirst : knotFn c.kv c.degree < knotFn c.kv (c.degree + 1)) (hP : Shape c.ctrlpts n 3) (hd : Shape data m 4)
    (hdom : ∀ r < m, knotFn c.kv c.degree ≤ at2 data r 3 0 ∧ at2 data r 3 0 ≤ knotFn c.kv n)
    (hdet : Determined c.degree n (knotFn c.kv) m fun r => at2 data r 3 0) {a : ℕ → K} {e : K}
    (hdata : ∀ row ∈ data, OnPlane a e row) (h0 : OnPlane a e (c.ctrlpts.getD 0 []))
    (h1 : OnPlane a e (c.ctrlpts.getD (n - 1) [])) :
    ∃ c', singleFitCurve ls c data = .ok c' ∧ ∀ i < n, OnPlane a e (c'.ctrlpts.getD i []) := by
  obtain ⟨c', hc, -, -, h3, hn⟩ := single_fit_curve_normal hls hU hfirst hP hd hdom
  refine ⟨c', hc, planar_of_normal hU hp hdet hdom (x := coord c'.ctrlpts) (d := fun k r => at2 data r k 0)
    (fun k hk => (hn k hk).2.2) (fun r hr => hdata _ (getD_mem_of_shape hd hr)) ?_ ?_⟩
  · rw [(hn 0 (by omega)).1, (hn 1 (by omega)).1, (hn 2 (by omega)).1]; exact h0
  · rw [(hn 0 (by omega)).2.1, (hn 1 (by omega)).2.1, (hn 2 (by omega)).2.1]; exact h1

/-- **C166.** If the data and the end points are in a plane and the parameters of the last round satisfy the
Schoenberg–Whitney condition, the curve that `fit_curve_knot_insertion` returns is in the plane, whatever the inner
control points of the initial curve. -/
theorem fit_curve_knot_insertion_planar {env : FitEnv K} (hls : IsLstsq env.lstsq)
    (hpar : Parameterizes env data) {p : ℕ} (hp : 1 ≤ p) (N : ℤ) (t : ℕ)
    {fuel : ℕ} {δ : K} (hc : Spaced p n δ c)
    (hδ : 2 ^ t * (1 / 10 ^ 8 + 1 / 10 ^ 5) < δ) (hf : t < fuel)
    (hN : N ≤ ((p + 2 ^ t * (n - p) : ℕ) : ℤ)) (hlt : ∀ s < t, ((p + 2 ^ s * (n - p) : ℕ) : ℤ) < N)
    {a : ℕ → K} {e : K} (hdata : ∀ row ∈ data, OnPlane a e row) (h0 : OnPlane a e (c.ctrlpts.getD 0 []))
    (h1 : OnPlane a e (c.ctrlpts.getD (n - 1) [])) :
    ∃ c0 rows c', fitCurveKnotInsertion fuel env c data N = .ok c' ∧
      parameterizeCurve env.num (env.curveLike c0) data = .ok rows ∧ c0.kv = c'.kv ∧
      (Determined p (p + 2 ^ t * (n - p)) (knotFn c'.kv) data.length (fun r => at2 rows r 3 0) →
        ∀ pt ∈ c'.ctrlpts, OnPlane a e pt) := by
  obtain ⟨c0, rows, c', hret, hrows, -, hkv, -, -, hopt⟩ :=
    fit_curve_knot_insertion_optimal hls hpar hp N t hc hδ hf hN hlt
  obtain ⟨c'', hret', hdeg, hsh, hcl, -, hkn, he0, he1⟩ :=
    fit_curve_knot_insertion_returns hls.length hpar hp N t hc hδ hf hN hlt
  cases Except.ok.inj (hret.symm.trans hret')
  refine ⟨c0, rows, c', hret, hrows, hkv, fun hdet pt hpt => ?_⟩
  have hsz := hc.clamped.size
  set n' := p + 2 ^ t * (n - p) with hn'
  have hn'p : p < n' := hcl.size
  obtain ⟨us, hus, hperm, -, hrsh⟩ := parameterize_curve_rows _ _ _ _ hrows
  obtain ⟨-, hran⟩ := parameterizeCurve_range hrows
  have hpow : (2 : K) ^ t ≠ 0 := by positivity
  -- the ends of the domain
  have hk0 : knotFn c'.kv p = 0 := by
    have := hkn 0 (by omega) 0 (by positivity)
    simp only [mul_zero, add_zero, Nat.cast_zero, zero_div, zero_mul] at this
    rw [this, hc.clamped.left p le_rfl, hc.zero]
  have hk1 : knotFn c'.kv n' = 1 := by
    have := hkn (n - p - 1) (by omega) (2 ^ t) le_rfl
    have e1 : p + 2 ^ t * (n - p - 1) + 2 ^ t = n' := by
      rw [hn']
      obtain ⟨q, hq⟩ : ∃ q, n - p = q + 1 := ⟨n - p - 1, by omega⟩
      rw [hq]
      simp only [Nat.add_sub_cancel]
      ring
    rw [e1, show p + (n - p - 1) + 1 = n by omega] at this
    rw [this]
    push_cast
    rw [div_self hpow, hc.clamped.right n le_rfl (by omega), hc.one]
    ring
  -- the rows are the data with parameters
  have hrowpl : ∀ row ∈ rows, OnPlane a e row := by
    intro row hrow
    obtain ⟨i, hi, rfl⟩ := List.mem_iff_getElem.1 (hperm.mem_iff.1 hrow)
    rw [List.getElem_zipWith]
    rw [List.length_zipWith] at hi
    have hd := hdata data[i] (List.getElem_mem _)
    have hlen : data[i].length = 3 := by
      have := hrsh.2 _ (hperm.mem_iff.2 (List.getElem_mem (by rw [List.length_zipWith]; exact hi)))
      rw [List.getElem_zipWith, List.length_append] at this
      simpa using this
    unfold OnPlane at hd ⊢
    simp only [List.getD_eq_getElem?_getD] at hd ⊢
    rw [List.getElem?_append_left (by omega), List.getElem?_append_left (by omega),
      List.getElem?_append_left (by omega)]
    exact hd
  have hnorm : ∀ k < 3, ∀ f : ℕ → K, f 0 = 0 → f (n' - 1) = 0 →
      ∑ r ∈ range data.length, (curve (knotFn c'.kv) p n' (coord c'.ctrlpts k) (at2 rows r 3 0) - at2 rows r k 0)
        * curve (knotFn c'.kv) p n' f (at2 rows r 3 0) = 0 := by
    intro k hk f f0 f1
    have ho := hopt k hk
    rw [hrsh.1, hsh.1, hdeg] at ho
    refine normal_of_least (F := fun x r => curve (knotFn c'.kv) p n' x (at2 rows r 3 0))
      (d := fun r => at2 rows r k 0) (free := fun e => e 0 = 0 ∧ e (n' - 1) = 0)
      (fun x e s r => curve_add_mul x e s _) (fun s g hg => ho _ ?_ ?_) ⟨f0, f1⟩
    · rw [hg.1]; ring
    · rw [hg.2]; ring
  have key := planar_of_normal hcl hp hdet (fun r hr => by rw [hk0, hk1]; exact hran r hr) hnorm
    (a := a) (e := e) (fun r hr => hrowpl _ (getD_mem_of_shape hrsh hr))
    (by unfold coord; rw [he0]; exact h0) (by unfold coord; rw [he1]; exact h1)
  obtain ⟨i, hi, rfl⟩ := List.mem_iff_getElem.1 hpt
  have := key i (by rw [← hsh.1]; exact hi)
  unfold coord at this
  simpa [OnPlane, List.getD_eq_getElem?_getD, hi] using this

end

/-! ## Surfaces -/

section
variable {ls : ℕ → List (List K) → List K → List K} {s : Surface K} {data : List (List K)} {m : ℕ}

/-- **C166.** If the data and the boundary control points are in a plane and the data parameters contain a grid that
determines the surface, all control points computed by `single_fit_surface` are in the plane. -/
theorem single_fit_surface_planar (hls : IsLstsq ls) (hs : ClampedSurface s)
    (fu : knotFn s.kvU s.degreeU < knotFn s.kvU (s.degreeU + 1))
    (fv : knotFn s.kvV s.degreeV < knotFn s.kvV (s.degreeV + 1)) (hd : Shape data m 5)
    (hu : ∀ r < m, knotFn s.kvU s.degreeU ≤ at2 data r 3 0 ∧ at2 data r 3 0 ≤ knotFn s.kvU s.numU)
    (hv : ∀ r < m, knotFn s.kvV s.degreeV ≤ at2 data r 4 0 ∧ at2 data r 4 0 ≤ knotFn s.kvV s.numV)
    (hdet : GridDetermined s m (fun r => at2 data r 3 0) fun r => at2 data r 4 0) {a : ℕ → K} {e : K}
    (hdata : ∀ row ∈ data, OnPlane a e row)
    (hb : ∀ i < s.numU, ∀ j < s.numV, OnBoundary s i j → OnPlane a e (s.ctrlpts.getD (i * s.numV + j) [])) :
    ∃ s', singleFitSurface ls s data = .ok s' ∧
      ∀ i < s.numU, ∀ j < s.numV, OnPlane a e (s'.ctrlpts.getD (i * s.numV + j) []) := by
  obtain ⟨Z, h1, hZ, hn⟩ := single_fit_surface_normal hls hs fu fv hd hu hv
  refine ⟨_, h1, ?_⟩
  set F := fun (x : ℕ → K) (r : ℕ) => surface (knotFn s.kvU) s.degreeU s.numU (knotFn s.kvV) s.degreeV s.numV x
    (at2 data r 3 0) (at2 data r 4 0) with hF
  have hcomb : ∀ (x y z : ℕ → K) (a b c : K) (r : ℕ), F (fun i => a * x i + b * y i + c * z i) r
      = a * F x r + b * F y r + c * F z r := by
    intro x y z a b c r
    rw [hF]
    dsimp only
    unfold surface
    rw [mul_sum, mul_sum, mul_sum, ← sum_add_distrib, ← sum_add_distrib]
    refine sum_congr rfl fun i _ => ?_
    rw [mul_sum, mul_sum, mul_sum, ← sum_add_distrib, ← sum_add_distrib]
    exact sum_congr rfl fun j _ => by ring
  have hconst : ∀ r < m, F (fun _ => e) r = e := by
    intro r hr
    rw [hF]
    dsimp only
    unfold surface
    have : ∀ i ∈ range s.numU, ∑ j ∈ range s.numV, e * Nclosed (knotFn s.kvU) s.degreeU s.numU i (at2 data r 3 0)
        * Nclosed (knotFn s.kvV) s.degreeV s.numV j (at2 data r 4 0)
        = e * Nclosed (knotFn s.kvU) s.degreeU s.numU i (at2 data r 3 0) := fun i _ => by
      rw [← mul_sum, sum_Nclosed hs.cv (hv r hr).1 (hv r hr).2, mul_one]
    rw [sum_congr rfl this, ← mul_sum, sum_Nclosed hs.cu (hu r hr).1 (hu r hr).2, mul_one]
  refine surface_normal_unique hs (d := fun _ => e) hdet (x := fun _ => e)
    (z := fun i => a 0 * coord Z 0 i + a 1 * coord Z 1 i + a 2 * coord Z 2 i) (fun i hi j hj hb' => ?_)
    (fun f _ => ?_) fun f hf => ?_
  · rw [(hn 0 (by omega)).1 i hi j hj hb', (hn 1 (by omega)).1 i hi j hj hb', (hn 2 (by omega)).1 i hi j hj hb']
    exact hb i hi j hj hb'
  · refine sum_eq_zero fun r hr => ?_
    have := hconst r (mem_range.1 hr)
    rw [hF] at this
    dsimp only at this
    rw [this, sub_self, zero_mul]
  · have e0 := (hn 0 (by omega)).2 f hf
    have e1 := (hn 1 (by omega)).2 f hf
    have e2 := (hn 2 (by omega)).2 f hf
    have key : ∑ r ∈ range m, (F (fun i => a 0 * coord Z 0 i + a 1 * coord Z 1 i + a 2 * coord Z 2 i) r - e)
        * F f r
        = a 0 * ∑ r ∈ range m, (F (coord Z 0) r - at2 data r 0 0) * F f r
          + a 1 * ∑ r ∈ range m, (F (coord Z 1) r - at2 data r 1 0) * F f r
          + a 2 * ∑ r ∈ range m, (F (coord Z 2) r - at2 data r 2 0) * F f r := by
      rw [mul_sum, mul_sum, mul_sum, ← sum_add_distrib, ← sum_add_distrib]
      refine sum_congr rfl fun r hr => ?_
      have hpl : a 0 * at2 data r 0 0 + a 1 * at2 data r 1 0 + a 2 * at2 data r 2 0 = e :=
        hdata _ (getD_mem_of_shape hd (mem_range.1 hr))
      rw [hcomb, ← hpl]
      ring
    refine key.trans ?_
    rw [e0, e1, e2]
    ring

end

/-! ## Fits that are not determined -/

section
variable {ls : ℕ → List (List K) → List K → List K}

/-- With the solution of least norm, data and fixed points in a plane through the origin give unknowns in the plane. -/
theorem fitColumns_planar_origin (hls : IsMinNormLstsq ls) {M data P new : List (List K)} {f : List Bool}
    {m n w : ℕ} (hM : Shape M m n) (hd : Shape data m w) (hw : 3 ≤ w) (hP : Shape P n 3) (hf : f.length = n)
    (hnew : fitColumns ls M data P f = .ok new) {a : ℕ → K} (hdata : ∀ row ∈ data, OnPlane a 0 row)
    (hfix : ∀ i < n, f.getD i false = true → OnPlane a 0 (P.getD i [])) :
    ∀ i < n, OnPlane a 0 (new.getD i []) := by
  obtain ⟨new', hnew', -, hspec⟩ := fitColumns_spec hls.toIsLstsq hM hd hw hP hf
  cases Except.ok.inj (hnew.symm.trans hnew')
  set F := fun (x : ℕ → K) (r : ℕ) => ∑ i ∈ range n, (M.getD r []).getD i 0 * x i with hF
  have hFadd : ∀ x e s r, F (fun i => x i + s * e i) r = F x r + s * F e r := by
    intro x e s r
    rw [hF]
    dsimp only
    rw [mul_sum, ← sum_add_distrib]
    exact sum_congr rfl fun i _ => by ring
  have hlen : ∀ k, (data.map fun row => row.getD k 0).length = m := fun k => by simp [hd.1]
  have hres : ∀ k z, sqResid M n z (data.map fun row => row.getD k 0)
      = ∑ r ∈ range m, (F z r - at2 data r k 0) ^ 2 := by
    intro k z
    unfold sqResid
    rw [hlen]
    refine sum_congr rfl fun r _ => ?_
    rw [getD_map_row]
  have hnormal : ∀ k < 3, ∀ e : ℕ → K, (∀ i < n, f.getD i false = true → e i = 0) →
      ∑ r ∈ range m, (F (coord new k) r - at2 data r k 0) * F e r = 0 := by
    intro k hk e he
    refine normal_of_least (F := F) (d := fun r => at2 data r k 0)
      (free := fun e => ∀ i < n, f.getD i false = true → e i = 0) hFadd (fun s g hg => ?_) he
    rw [← hres, ← hres]
    exact (hspec k hk).2 _ fun i hi hfi => by rw [hg i hi hfi, (hspec k hk).1 i hi hfi]; ring
  set v : ℕ → K := fun i => a 0 * coord new 0 i + a 1 * coord new 1 i + a 2 * coord new 2 i with hv
  have hvfix : ∀ i < n, f.getD i false = true → v i = 0 := by
    intro i hi hfi
    rw [hv]
    dsimp only
    rw [(hspec 0 (by omega)).1 i hi hfi, (hspec 1 (by omega)).1 i hi hfi, (hspec 2 (by omega)).1 i hi hfi]
    exact hfix i hi hfi
  have hFv : ∀ r, F v r = a 0 * F (coord new 0) r + a 1 * F (coord new 1) r + a 2 * F (coord new 2) r := by
    intro r
    rw [hF]
    dsimp only
    rw [mul_sum, mul_sum, mul_sum, ← sum_add_distrib, ← sum_add_distrib]
    exact sum_congr rfl fun i _ => by rw [hv]; ring
  have hker : ∀ r < m, F v r = 0 := by
    have hsum : ∑ r ∈ range m, F v r ^ 2 = 0 := by
      have e0 := hnormal 0 (by omega) v hvfix
      have e1 := hnormal 1 (by omega) v hvfix
      have e2 := hnormal 2 (by omega) v hvfix
      have key : ∑ r ∈ range m, F v r ^ 2
          = a 0 * ∑ r ∈ range m, (F (coord new 0) r - at2 data r 0 0) * F v r
            + a 1 * ∑ r ∈ range m, (F (coord new 1) r - at2 data r 1 0) * F v r
            + a 2 * ∑ r ∈ range m, (F (coord new 2) r - at2 data r 2 0) * F v r := by
        rw [mul_sum, mul_sum, mul_sum, ← sum_add_distrib, ← sum_add_distrib]
        refine sum_congr rfl fun r hr => ?_
        have hpl : a 0 * at2 data r 0 0 + a 1 * at2 data r 1 0 + a 2 * at2 data r 2 0 = 0 :=
          hdata _ (getD_mem_of_shape hd (mem_range.1 hr))
        have h1 : F v r ^ 2 = (F v r - (a 0 * at2 data r 0 0 + a 1 * at2 data r 1 0 + a 2 * at2 data r 2 0)) * F v r := by
          rw [hpl]; ring
        rw [h1]
        nth_rewrite 1 [hFv r]
        ring
      rw [key, e0, e1, e2]
      ring
    intro r hr
    exact pow_eq_zero_iff two_ne_zero |>.1
      ((sum_eq_zero_iff_of_nonneg fun r _ => sq_nonneg _).1 hsum r (mem_range.2 hr))
  -- least norm: the solutions are orthogonal to the kernel
  set G := fun (x : ℕ → K) (i : ℕ) => if f.getD i false then 0 else x i with hG
  have horth : ∀ k < 3, ∑ i ∈ range n, G (coord new k) i * G v i = 0 := by
    intro k hk
    obtain ⟨x, hx, hxc⟩ := fitColumns_columns hd hw hP hnew k hk
    have l2 : (P.map fun row => row.getD k 0).length = n := by simp [hP.1]
    obtain ⟨x', hx', hmin⟩ := linearFitFixed_minNorm hls (R := M) (Q := data.map fun row => row.getD k 0)
      (P := P.map fun row => row.getD k 0) (fixed := f) (by rw [hlen, l2]; exact hM) (by rw [l2]; exact hf)
    cases Except.ok.inj (hx.symm.trans hx')
    have hfixx := (linearFitFixed_ok hx).2
    rw [l2] at hmin hfixx
    have hsq : ∀ z : ℕ → K, ∑ i ∈ range n, (if f.getD i false then 0 else z i ^ 2)
        = ∑ i ∈ range n, (G z i - 0) ^ 2 := fun z => sum_congr rfl fun i _ => by
      rw [hG]; dsimp only; split <;> ring
    have hFx : ∀ r, F (fun i => x.getD i 0) r = F (coord new k) r := fun r => by
      rw [hF]
      exact sum_congr rfl fun i hi => by rw [hxc i (mem_range.1 hi)]
    have hGx : ∀ i < n, G (coord new k) i = G (fun i => x.getD i 0) i := fun i hi => by
      rw [hG]; dsimp only; rw [hxc i hi]
    have := normal_of_least (m := n) (F := G) (x := fun i => x.getD i 0) (d := fun _ => 0)
      (free := fun e => e = v) (fun x e s r => by rw [hG]; dsimp only; split <;> ring)
      (fun s e he => by
        subst he
        rw [← hsq, ← hsq]
        refine hmin _ (fun i hi hfi => ?_) ?_
        · rw [hvfix i hi hfi, hfixx i hi hfi]; ring
        · rw [hres, hres]
          refine le_of_eq (sum_congr rfl fun r hr => ?_)
          rw [hFadd, hker r (mem_range.1 hr)]
          ring) rfl
    rw [← this]
    exact sum_congr rfl fun i hi => by rw [hGx i (mem_range.1 hi)]; ring
  have hsum : ∑ i ∈ range n, G v i ^ 2 = 0 := by
    have key : ∑ i ∈ range n, G v i ^ 2 = a 0 * ∑ i ∈ range n, G (coord new 0) i * G v i
        + a 1 * ∑ i ∈ range n, G (coord new 1) i * G v i + a 2 * ∑ i ∈ range n, G (coord new 2) i * G v i := by
      rw [mul_sum, mul_sum, mul_sum, ← sum_add_distrib, ← sum_add_distrib]
      refine sum_congr rfl fun i _ => ?_
      rw [hG, hv]
      dsimp only
      split <;> ring
    rw [key, horth 0 (by omega), horth 1 (by omega), horth 2 (by omega)]
    ring
  intro i hi
  show v i = 0
  by_cases hfi : f.getD i false = true
  · exact hvfix i hi hfi
  · have := pow_eq_zero_iff two_ne_zero |>.1
      ((sum_eq_zero_iff_of_nonneg fun r _ => sq_nonneg _).1 hsum i (mem_range.2 hi))
    rw [hG] at this
    dsimp only at this
    rwa [if_neg hfi] at this

/-- **C166.** With the solution of least norm no condition on the parameters is needed if the plane contains the
origin. -/
theorem single_fit_curve_planar_origin (hls : IsMinNormLstsq ls) {c : Curve K} {data : List (List K)} {m n : ℕ}
    (hU : Clamped c.degree n c.kv)
    (hfirst : knotFn c.kv c.degree < knotFn c.kv (c.degree + 1)) (hP : Shape c.ctrlpts n 3) (hd : Shape data m 4)
    (hdom : ∀ r < m, knotFn c.kv c.degree ≤ at2 data r 3 0 ∧ at2 data r 3 0 ≤ knotFn c.kv n)
    {a : ℕ → K} (hdata : ∀ row ∈ data, OnPlane a 0 row) (h0 : OnPlane a 0 (c.ctrlpts.getD 0 []))
    (h1 : OnPlane a 0 (c.ctrlpts.getD (n - 1) [])) :
    ∃ c', singleFitCurve ls c data = .ok c' ∧ ∀ i < n, OnPlane a 0 (c'.ctrlpts.getD i []) := by
  have hsz := hU.size
  obtain ⟨M, hM, hs, hv, hun⟩ := single_fit_curve_unity hU hfirst hP.1 hd hdom
  obtain ⟨f, hf, hfl, hfv⟩ := curveMask_eq (n := n) (by omega)
  obtain ⟨new, hnew, hns, -⟩ := fitColumns_spec hls.toIsLstsq hs hd (by omega) hP hfl
  refine ⟨{ c with ctrlpts := new }, ?_, ?_⟩
  · unfold singleFitCurve
    rw [hM, ok_bind, hun, ok_bind, hP.1, hf, ok_bind, hnew, ok_bind]
  refine fitColumns_planar_origin hls hs hd (by omega) hP hfl hnew hdata fun i hi hfi => ?_
  rw [hfv i hi] at hfi
  rcases of_decide_eq_true hfi with rfl | h
  · exact h0
  · rw [show i = n - 1 by omega]; exact h1

/-- **C166.** The same for surfaces. -/
theorem single_fit_surface_planar_origin (hls : IsMinNormLstsq ls) {s : Surface K} {data : List (List K)} {m : ℕ}
    (hs : ClampedSurface s)
    (fu : knotFn s.kvU s.degreeU < knotFn s.kvU (s.degreeU + 1))
    (fv : knotFn s.kvV s.degreeV < knotFn s.kvV (s.degreeV + 1)) (hd : Shape data m 5)
    (hu : ∀ r < m, knotFn s.kvU s.degreeU ≤ at2 data r 3 0 ∧ at2 data r 3 0 ≤ knotFn s.kvU s.numU)
    (hv : ∀ r < m, knotFn s.kvV s.degreeV ≤ at2 data r 4 0 ∧ at2 data r 4 0 ≤ knotFn s.kvV s.numV)
    {a : ℕ → K} (hdata : ∀ row ∈ data, OnPlane a 0 row)
    (hb : ∀ i < s.numU, ∀ j < s.numV, OnBoundary s i j → OnPlane a 0 (s.ctrlpts.getD (i * s.numV + j) [])) :
    ∃ s', singleFitSurface ls s data = .ok s' ∧
      ∀ i < s.numU, ∀ j < s.numV, OnPlane a 0 (s'.ctrlpts.getD (i * s.numV + j) []) := by
  have su := hs.cu.size
  have sv := hs.cv.size
  obtain ⟨M, hM, hMs, hMv⟩ := surfaceMatrix_spec (s := s) (data := data) (m := m)
    (fun r i => Nclosed (knotFn s.kvU) s.degreeU s.numU i (at2 data r 3 0))
    (fun r j => Nclosed (knotFn s.kvV) s.degreeV s.numV j (at2 data r 4 0)) hd hs.shape.1
    (fun _ _ _ hi => one_basis_function_cox_de_boor hs.cu fu hi _)
    (fun _ _ _ hj => one_basis_function_cox_de_boor hs.cv fv hj _)
  have hun : checkUnity M m = .ok () := by
    refine checkUnity_ok hMs fun r hr => ?_
    rw [sum_grid]
    have : ∀ i ∈ range s.numU, ∑ j ∈ range s.numV, at2 M r (i * s.numV + j) 0
        = Nclosed (knotFn s.kvU) s.degreeU s.numU i (at2 data r 3 0) := by
      intro i hi
      rw [sum_congr rfl fun j hj => hMv r hr i (mem_range.1 hi) j (mem_range.1 hj), ← mul_sum,
        sum_Nclosed hs.cv (hv r hr).1 (hv r hr).2, mul_one]
    rw [sum_congr rfl this, sum_Nclosed hs.cu (hu r hr).1 (hu r hr).2]
  obtain ⟨f, hf, hfl, hfv⟩ := surface_mask_boundary (nu := s.numU) (nv := s.numV) (by omega) (by omega)
  obtain ⟨new, hnew, hns, -⟩ := fitColumns_spec hls.toIsLstsq hMs hd (by omega) hs.shape hfl
  refine ⟨{ s with ctrlpts := new }, ?_, ?_⟩
  · unfold singleFitSurface
    rw [hM, ok_bind, hd.1, hun, ok_bind, hs.shape.1, hf, ok_bind, hnew, ok_bind]
  have key := fitColumns_planar_origin hls hMs hd (by omega) hs.shape hfl hnew hdata fun l hl hfl' => by
    have e : l / s.numV * s.numV + l % s.numV = l := Nat.div_add_mod' _ _
    have h1 : l / s.numV < s.numU := Nat.div_lt_of_lt_mul (by rw [mul_comm]; exact hl)
    have h2 : l % s.numV < s.numV := Nat.mod_lt _ (by omega)
    have hm := hfv _ h1 _ h2
    rw [e, hfl'] at hm
    have := hb _ h1 _ h2 (by unfold OnBoundary; exact of_decide_eq_true hm.symm)
    rwa [e] at this
  exact fun i hi j hj => key _ (index_lt hi hj)

/-- **C166.** In a plane that does not contain the origin the condition is needed: an inner control point without data
is put outside of the plane. -/
theorem single_fit_curve_not_planar (hls : IsMinNormLstsq ls) {c : Curve K} {data : List (List K)} {m n : ℕ}
    (hU : Clamped c.degree n c.kv)
    (hfirst : knotFn c.kv c.degree < knotFn c.kv (c.degree + 1)) (hP : Shape c.ctrlpts n 3) (hd : Shape data m 4)
    (hdom : ∀ r < m, knotFn c.kv c.degree ≤ at2 data r 3 0 ∧ at2 data r 3 0 ≤ knotFn c.kv n) {j : ℕ} (hj : 1 ≤ j)
    (hjn : j + 1 < n)
    (hno : ∀ r < m, at2 data r 3 0 < knotFn c.kv j ∨ knotFn c.kv (j + c.degree + 1) < at2 data r 3 0)
    {a : ℕ → K} {e : K} (he : e ≠ 0) :
    ∃ c', singleFitCurve ls c data = .ok c' ∧ ¬ OnPlane a e (c'.ctrlpts.getD j []) := by
  obtain ⟨c', h1, h2⟩ := single_fit_curve_origin hls hU hfirst hP hd hdom hj hjn hno
  refine ⟨c', h1, fun h => he ?_⟩
  rw [h2] at h
  unfold OnPlane at h
  simpa using h.symm

end

end

/-! ## Examples -/

/-- Ends and data in the plane `y + z = 1`, inner control points elsewhere. -/
def exInPlane : Curve ℚ :=
  ⟨3, [[0, 1, 0], [1, 5, 0], [2, 1, 7], [3, 0, 0], [4, -1, 2]], [0, 0, 0, 0, 1/2, 1, 1, 1, 1]⟩

def exInPlaneData : List (List ℚ) := [[1, 2, -1, 1/4], [2, 0, 1, 1/2], [3, 3, -2, 3/4], [5, 0, 1, 1/4]]

theorem exInPlane_determined : Determined 3 5 (knotFn exInPlane.kv) 4 fun r => at2 exInPlaneData r 3 0 :=
  ⟨fun j => j - 1, by intro j h1 h2; have : j < 4 := by omega
                      interval_cases j <;> decide +kernel,
    by intro j h1 h2; have : j < 3 := by omega
       interval_cases j <;> decide +kernel⟩

/-- The fit moves the inner control points into the plane. -/
example (ls : ℕ → List (List ℚ) → List ℚ → List ℚ) (hls : IsLstsq ls) :
    ∃ c', singleFitCurve ls exInPlane exInPlaneData = .ok c' ∧
      ∀ i < 5, OnPlane (fun k => if k = 0 then 0 else 1) 1 (c'.ctrlpts.getD i []) :=
  single_fit_curve_planar (m := 4) hls exWhitney_clamped (by decide) (by decide +kernel) ⟨rfl, by decide +kernel⟩
    ⟨rfl, by decide +kernel⟩ (by intro r hr; interval_cases r <;> decide +kernel) exInPlane_determined
    (by unfold OnPlane; decide +kernel) (by unfold OnPlane; decide +kernel) (by unfold OnPlane; decide +kernel)

/-- A polygon in the plane `y = 1` with data for its first leg only. -/
def exLegs : Curve ℚ := ⟨1, [[0, 1, 0], [1, 1, 0], [2, 1, 7], [3, 1, 0]], [0, 0, 1/3, 2/3, 1, 1]⟩

theorem exLegs_clamped : Clamped 1 4 exLegs.kv :=
  ⟨⟨by decide +kernel, by decide +kernel, by decide⟩, by intro i hi; interval_cases i <;> decide +kernel,
    by intro i h1 h2; interval_cases i <;> decide +kernel⟩

/-- Its third control point is put at the origin, outside of the plane. -/
example (ls : ℕ → List (List ℚ) → List ℚ → List ℚ) (hls : IsMinNormLstsq ls) :
    ∃ c', singleFitCurve ls exLegs [[1, 1, -1, 1/6]] = .ok c' ∧
      ¬ OnPlane (fun k => if k = 1 then 1 else 0) 1 (c'.ctrlpts.getD 2 []) :=
  single_fit_curve_not_planar (m := 1) (j := 2) hls exLegs_clamped (by decide +kernel) ⟨rfl, by decide +kernel⟩
    ⟨rfl, by decide +kernel⟩ (by intro r hr; interval_cases r; decide +kernel) (by decide) (by decide)
    (by intro r hr; interval_cases r; decide +kernel) one_ne_zero

/-- With `z = 0` in place of `y = 1` it is in the plane. -/
example (ls : ℕ → List (List ℚ) → List ℚ → List ℚ) (hls : IsMinNormLstsq ls) :
    ∃ c', singleFitCurve ls exLegs [[1, 1, 0, 1/6]] = .ok c' ∧
      ∀ i < 4, OnPlane (fun k => if k = 2 then 1 else 0) 0 (c'.ctrlpts.getD i []) :=
  single_fit_curve_planar_origin (m := 1) hls exLegs_clamped (by decide +kernel) ⟨rfl, by decide +kernel⟩
    ⟨rfl, by decide +kernel⟩ (by intro r hr; interval_cases r; decide +kernel)
    (by unfold OnPlane; decide +kernel) (by unfold OnPlane; decide +kernel) (by unfold OnPlane; decide +kernel)

/-- `fit_curve_knot_insertion` with data in the plane `z = x`; the initial curve is not in it. -/
example (ls : ℕ → List (List ℚ) → List ℚ → List ℚ) (hls : IsLstsq ls) :
    ∃ c0 rows c', fitCurveKnotInsertion 1 (exEnv ls) exFitCurve [[1/4, 1, 1/4], [3/4, 1, 3/4]] 3 = .ok c' ∧
      parameterizeCurve (exEnv ls).num ((exEnv ls).curveLike c0) [[1/4, 1, 1/4], [3/4, 1, 3/4]] = .ok rows ∧
      ∀ pt ∈ c'.ctrlpts, OnPlane (fun k => if k = 0 then 1 else if k = 1 then 0 else -1) 0 pt := by
  have hrows : ∀ c, parameterizeCurve (exEnv ls).num ((exEnv ls).curveLike c) [[1/4, 1, 1/4], [3/4, 1, 3/4]]
      = .ok [[1/4, 1, 1/4, 1/5], [3/4, 1, 3/4, 4/5]] := fun _ => by
    show parameterizeCurve ⟨fun l => (l.map fun x => |x|).sum, fun _ _ => true⟩
      ⟨3, fun u => .ok [u, 0, 0], fun u => .ok [[u, 0, 0], [1, 0, 0], [0, 0, 0]]⟩ [[1/4, 1, 1/4], [3/4, 1, 3/4]] = _
    decide +kernel
  obtain ⟨c0, rows, c', h1, h2, h3, h4⟩ := fit_curve_knot_insertion_planar (env := exEnv ls) hls
    (data := [[1/4, 1, 1/4], [3/4, 1, 3/4]]) (fun _ _ _ c _ _ => ⟨_, hrows c⟩) (p := 2) (by norm_num) 3 0 (n := 3)
    (fuel := 1) exFitCurve_spaced (by norm_num) (by norm_num) (by norm_num) (by intro s hs; omega)
    (a := fun k => if k = 0 then 1 else if k = 1 then 0 else -1) (e := 0)
    (by unfold OnPlane; decide +kernel) (by unfold OnPlane; decide +kernel) (by unfold OnPlane; decide +kernel)
  refine ⟨c0, rows, c', h1, h2, h4 ?_⟩
  have e := Except.ok.inj (h2.symm.trans (hrows _))
  rw [e]
  obtain ⟨d, hd, -, -, hcl, -, hk, -⟩ := fit_curve_knot_insertion_returns (env := exEnv ls) hls.length
    (data := [[1/4, 1, 1/4], [3/4, 1, 3/4]]) (fun _ _ _ c _ _ => ⟨_, hrows c⟩) (p := 2) (by norm_num) 3 0 (n := 3)
    (fuel := 1) exFitCurve_spaced (by norm_num) (by norm_num) (by norm_num) (by intro s hs; omega)
  cases Except.ok.inj (hd.symm.trans h1)
  have k2 : knotFn c'.kv 2 = 0 := (hk 0 (by norm_num) 0 (by norm_num)).trans (by decide +kernel)
  have k3 : knotFn c'.kv 3 = 1 := (hk 0 (by norm_num) 1 (by norm_num)).trans (by decide +kernel)
  have k1 : knotFn c'.kv 1 = 0 := by rw [hcl.left 1 (by norm_num), ← hcl.left 2 le_rfl, k2]
  have k4 : knotFn c'.kv 4 = 1 := by
    rw [hcl.right 4 (by norm_num) (by norm_num), ← hcl.right 3 (by norm_num) (by norm_num), k3]
  refine ⟨fun _ => 0, fun j j1 j2 => ?_, fun j j1 j2 => by norm_num at j2; omega⟩
  obtain rfl : j = 1 := by norm_num at j2; omega
  rw [k1, k4]
  exact ⟨by decide, by decide +kernel, by decide +kernel⟩

/-- The frame of `exWide` and data in the plane `x + y = 200`, at parameters that determine the surface. -/
example (ls : ℕ → List (List ℚ) → List ℚ → List ℚ) (hls : IsLstsq ls) :
    ∃ s', singleFitSurface ls exWide [[99, 101, 7, 1/3, 1/2], [105, 95, 5, 2/3, 1/2]] = .ok s' ∧
      ∀ i < 4, ∀ j < 3, OnPlane (fun k => if k = 2 then 0 else 1) 200 (s'.ctrlpts.getD (i * 3 + j) []) :=
  single_fit_surface_planar (m := 2) hls exWide_clamped (by decide +kernel) (by decide +kernel)
    ⟨rfl, by decide +kernel⟩ (by intro r hr; interval_cases r <;> decide +kernel)
    (by intro r hr; interval_cases r <;> decide +kernel)
    ⟨fun i => (i : ℚ) / 3, fun _ => 1/2, fun i _ => i - 1,
      by intro i h1 h2; have : i < 3 := Nat.lt_of_succ_lt_succ h2
         interval_cases i <;> decide +kernel,
      by intro i h1 h2; have : i < 2 := Nat.lt_of_succ_lt_succ (Nat.lt_of_succ_lt_succ h2)
         interval_cases i; decide +kernel,
      by intro i h1 h2; have : i < 2 := Nat.lt_of_succ_lt_succ h2
         interval_cases i; decide +kernel,
      by intro i h1 h2; have : i < 1 := Nat.lt_of_succ_lt_succ (Nat.lt_of_succ_lt_succ h2)
         omega,
      by intro i j h1 h2 h3 h4
         have : i < 3 := Nat.lt_of_succ_lt_succ h2
         have : j < 2 := Nat.lt_of_succ_lt_succ h4
         interval_cases i <;> interval_cases j <;> decide +kernel⟩
    (by unfold OnPlane; decide +kernel)
    (by intro i hi j hj _
        change i < 4 at hi
        change j < 3 at hj
        unfold OnPlane
        interval_cases i <;> interval_cases j <;> decide +kernel)

/-- One data point is enough in the plane `x = y`. -/
example (ls : ℕ → List (List ℚ) → List ℚ → List ℚ) (hls : IsMinNormLstsq ls) :
    ∃ s', singleFitSurface ls exWide [[99, 99, 7, 1/4, 1/2]] = .ok s' ∧
      ∀ i < 4, ∀ j < 3,
        OnPlane (fun k => if k = 0 then 1 else if k = 1 then -1 else 0) 0 (s'.ctrlpts.getD (i * 3 + j) []) :=
  single_fit_surface_planar_origin (m := 1) hls exWide_clamped (by decide +kernel) (by decide +kernel)
    ⟨rfl, by decide +kernel⟩ (by intro r hr; interval_cases r; decide +kernel)
    (by intro r hr; interval_cases r; decide +kernel)
    (by unfold OnPlane; decide +kernel)
    (by intro i hi j hj _
        change i < 4 at hi
        change j < 3 at hj
        unfold OnPlane
        interval_cases i <;> interval_cases j <;> decide +kernel)

end PySpline
