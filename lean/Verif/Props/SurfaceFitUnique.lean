import Verif.Lemmas.SurfaceFitUniqueAux
import Verif.Props.FitUnique

/-!
# C125: surface fits under affine maps and permutations, and control points without data
-/

set_option linter.unusedSectionVars false

namespace PySpline

open Spec Finset

variable {K : Type} [Field K] [LinearOrder K] [IsStrictOrderedRing K]

section
variable {ls : ℕ → List (List K) → List K → List K} {s : Surface K} {data : List (List K)} {m : ℕ}

/-- The affine map on the first three columns of a row of data; the two parameters are kept. -/
def affineData5 (A : ℕ → ℕ → K) (b : ℕ → K) (row : List K) : List K :=
  affineRow A b row ++ [row.getD 3 0, row.getD 4 0]

theorem at2_map_affineData5 {A : ℕ → ℕ → K} {b : ℕ → K} (hd : Shape data m 5) {r : ℕ} (hr : r < m) :
    at2 (data.map (affineData5 A b)) r 3 0 = at2 data r 3 0 ∧ at2 (data.map (affineData5 A b)) r 4 0 = at2 data r 4 0 ∧
    ∀ k < 3, at2 (data.map (affineData5 A b)) r k 0
      = A k 0 * at2 data r 0 0 + A k 1 * at2 data r 1 0 + A k 2 * at2 data r 2 0 + b k := by
  have hr' : r < data.length := by rw [hd.1]; exact hr
  refine ⟨?_, ?_, ?_⟩
  · simp [at2, affineData5, affineRow, List.getD_eq_getElem?_getD, hr']
  · simp [at2, affineData5, affineRow, List.getD_eq_getElem?_getD, hr']
  · intro k hk
    simp [at2, affineData5, affineRow, List.getD_eq_getElem?_getD, hr', List.getElem?_append_left, hk]

theorem Shape.map_affineData5 {A : ℕ → ℕ → K} {b : ℕ → K} (hd : Shape data m 5) :
    Shape (data.map (affineData5 A b)) m 5 := by
  refine ⟨by simp [hd.1], fun row hrow => ?_⟩
  obtain ⟨r, -, rfl⟩ := List.mem_map.1 hrow
  simp [affineData5, affineRow]

/-- **C125.** If the data parameters contain an interlacing grid, fitting a surface commutes with affine maps of
space. -/
theorem single_fit_surface_affine (hls : IsLstsq ls) (hs : ClampedSurface s)
    (fu : knotFn s.kvU s.degreeU < knotFn s.kvU (s.degreeU + 1))
    (fv : knotFn s.kvV s.degreeV < knotFn s.kvV (s.degreeV + 1)) (hd : Shape data m 5)
    (hu : ∀ r < m, knotFn s.kvU s.degreeU ≤ at2 data r 3 0 ∧ at2 data r 3 0 ≤ knotFn s.kvU s.numU)
    (hv : ∀ r < m, knotFn s.kvV s.degreeV ≤ at2 data r 4 0 ∧ at2 data r 4 0 ≤ knotFn s.kvV s.numV)
    (hdet : GridDetermined s m (fun r => at2 data r 3 0) fun r => at2 data r 4 0) (A : ℕ → ℕ → K) (b : ℕ → K) :
    ∃ s', singleFitSurface ls s data = .ok s' ∧
      singleFitSurface ls { s with ctrlpts := s.ctrlpts.map (affineRow A b) } (data.map (affineData5 A b))
        = .ok { s' with ctrlpts := s'.ctrlpts.map (affineRow A b) } := by
  obtain ⟨Z, h1, hZ, hn⟩ := single_fit_surface_normal hls hs fu fv hd hu hv
  refine ⟨_, h1, ?_⟩
  have h3 : ∀ r < m, at2 (data.map (affineData5 A b)) r 3 0 = at2 data r 3 0 := fun r hr =>
    (at2_map_affineData5 hd hr).1
  have h4 : ∀ r < m, at2 (data.map (affineData5 A b)) r 4 0 = at2 data r 4 0 := fun r hr =>
    (at2_map_affineData5 hd hr).2.1
  refine single_fit_surface_eq (s := { s with ctrlpts := s.ctrlpts.map (affineRow A b) }) hls
    ⟨hs.cu, hs.cv, hs.du, hs.dv, hs.shape.map_affineRow⟩ fu fv hd.map_affineData5
    (fun r hr => by rw [h3 r hr]; exact hu r hr) (fun r hr => by rw [h4 r hr]; exact hv r hr) ?_ hZ.map_affineRow
    fun k hk => ⟨fun i hi j hj hb => ?_, fun e he => ?_⟩
  · obtain ⟨a, b', r, g1, g2, g3, g4, g5⟩ := hdet
    refine ⟨a, b', r, g1, g2, g3, g4, fun i j i1 i2 j1 j2 => ?_⟩
    obtain ⟨q1, q2, q3⟩ := g5 i j i1 i2 j1 j2
    exact ⟨q1, (h3 _ q1).trans q2, (h4 _ q1).trans q3⟩
  · have hi' : i < s.numU := hi
    have hj' : j < s.numV := hj
    have hlt : i * s.numV + j < s.numU * s.numV := by nlinarith
    rw [coord_map_affineRow hZ hlt hk, coord_map_affineRow hs.shape hlt hk, (hn 0 (by omega)).1 i hi j hj hb,
      (hn 1 (by omega)).1 i hi j hj hb, (hn 2 (by omega)).1 i hi j hj hb]
  · have n0 := (hn 0 (by omega)).2 e he
    have n1 := (hn 1 (by omega)).2 e he
    have n2 := (hn 2 (by omega)).2 e he
    have : ∑ r ∈ range m, (surface (knotFn s.kvU) s.degreeU s.numU (knotFn s.kvV) s.degreeV s.numV
          (coord (Z.map (affineRow A b)) k) (at2 (data.map (affineData5 A b)) r 3 0)
          (at2 (data.map (affineData5 A b)) r 4 0) - at2 (data.map (affineData5 A b)) r k 0)
            * surface (knotFn s.kvU) s.degreeU s.numU (knotFn s.kvV) s.degreeV s.numV e
              (at2 (data.map (affineData5 A b)) r 3 0) (at2 (data.map (affineData5 A b)) r 4 0)
        = A k 0 * (∑ r ∈ range m, (surface (knotFn s.kvU) s.degreeU s.numU (knotFn s.kvV) s.degreeV s.numV (coord Z 0)
              (at2 data r 3 0) (at2 data r 4 0) - at2 data r 0 0)
            * surface (knotFn s.kvU) s.degreeU s.numU (knotFn s.kvV) s.degreeV s.numV e (at2 data r 3 0)
              (at2 data r 4 0))
          + A k 1 * (∑ r ∈ range m, (surface (knotFn s.kvU) s.degreeU s.numU (knotFn s.kvV) s.degreeV s.numV (coord Z 1)
              (at2 data r 3 0) (at2 data r 4 0) - at2 data r 1 0)
            * surface (knotFn s.kvU) s.degreeU s.numU (knotFn s.kvV) s.degreeV s.numV e (at2 data r 3 0)
              (at2 data r 4 0))
          + A k 2 * (∑ r ∈ range m, (surface (knotFn s.kvU) s.degreeU s.numU (knotFn s.kvV) s.degreeV s.numV (coord Z 2)
              (at2 data r 3 0) (at2 data r 4 0) - at2 data r 2 0)
            * surface (knotFn s.kvU) s.degreeU s.numU (knotFn s.kvV) s.degreeV s.numV e (at2 data r 3 0)
              (at2 data r 4 0)) := by
      rw [mul_sum, mul_sum, mul_sum, ← sum_add_distrib, ← sum_add_distrib]
      refine sum_congr rfl fun r hr => ?_
      have hr := mem_range.1 hr
      rw [h3 r hr, h4 r hr, surface_map_affine hs hZ A b hk (hu r hr) (hv r hr), (at2_map_affineData5 hd hr).2.2 k hk]
      ring
    rw [n0, n1, n2] at this
    simpa using this

/-- **C125.** In this case the order of the data does not matter. -/
theorem single_fit_surface_perm (hls : IsLstsq ls) (hs : ClampedSurface s)
    (fu : knotFn s.kvU s.degreeU < knotFn s.kvU (s.degreeU + 1))
    (fv : knotFn s.kvV s.degreeV < knotFn s.kvV (s.degreeV + 1)) (hd : Shape data m 5)
    (hu : ∀ r < m, knotFn s.kvU s.degreeU ≤ at2 data r 3 0 ∧ at2 data r 3 0 ≤ knotFn s.kvU s.numU)
    (hv : ∀ r < m, knotFn s.kvV s.degreeV ≤ at2 data r 4 0 ∧ at2 data r 4 0 ≤ knotFn s.kvV s.numV)
    (hdet : GridDetermined s m (fun r => at2 data r 3 0) fun r => at2 data r 4 0) {data' : List (List K)}
    (hperm : data'.Perm data) : singleFitSurface ls s data' = singleFitSurface ls s data := by
  have hd' : Shape data' m 5 := ⟨hperm.length_eq.trans hd.1, fun row hrow => hd.2 row (hperm.mem_iff.1 hrow)⟩
  have hrow : ∀ r < m, ∃ q < m, ∀ k, at2 data' r k 0 = at2 data q k 0 := by
    intro r hr
    have hr' : r < data'.length := by rw [hd'.1]; exact hr
    have : data'.getD r [] ∈ data := by
      rw [← hperm.mem_iff, List.getD_eq_getElem?_getD, List.getElem?_eq_getElem hr']
      exact List.getElem_mem hr'
    obtain ⟨q, hq, e⟩ := List.mem_iff_getElem.1 this
    refine ⟨q, hd.1 ▸ hq, fun k => ?_⟩
    unfold at2
    rw [← e, List.getD_eq_getElem?_getD (l := data), List.getElem?_eq_getElem hq]
    rfl
  obtain ⟨Z, h1, hZ, hn⟩ := single_fit_surface_normal hls hs fu fv hd'
    (fun r hr => by obtain ⟨q, hq, e⟩ := hrow r hr; rw [e]; exact hu q hq)
    (fun r hr => by obtain ⟨q, hq, e⟩ := hrow r hr; rw [e]; exact hv q hq)
  rw [h1, single_fit_surface_eq hls hs fu fv hd hu hv hdet hZ fun k hk => ⟨(hn k hk).1, fun e he => ?_⟩]
  have := (hn k hk).2 e he
  set f : List K → K := fun row => (surface (knotFn s.kvU) s.degreeU s.numU (knotFn s.kvV) s.degreeV s.numV (coord Z k)
      (row.getD 3 0) (row.getD 4 0) - row.getD k 0)
    * surface (knotFn s.kvU) s.degreeU s.numU (knotFn s.kvV) s.degreeV s.numV e (row.getD 3 0) (row.getD 4 0) with hf
  have q1 := sum_getD_map data' hd'.1 f
  have q2 := sum_getD_map data hd.1 f
  rw [(hperm.map f).sum_eq] at q1
  exact (q2.trans q1.symm).trans this

/-! ## Control points without data -/

/-- **C125.** With the solution of least norm, an inner control point of a surface without data in its support is put
at the origin of the coordinate system, wherever the data are. -/
theorem single_fit_surface_origin (hls : IsMinNormLstsq ls) (hs : ClampedSurface s)
    (fu : knotFn s.kvU s.degreeU < knotFn s.kvU (s.degreeU + 1))
    (fv : knotFn s.kvV s.degreeV < knotFn s.kvV (s.degreeV + 1)) (hd : Shape data m 5)
    (hu : ∀ r < m, knotFn s.kvU s.degreeU ≤ at2 data r 3 0 ∧ at2 data r 3 0 ≤ knotFn s.kvU s.numU)
    (hv : ∀ r < m, knotFn s.kvV s.degreeV ≤ at2 data r 4 0 ∧ at2 data r 4 0 ≤ knotFn s.kvV s.numV)
    {a b : ℕ} (ha : 1 ≤ a) (han : a + 1 < s.numU) (hb : 1 ≤ b) (hbn : b + 1 < s.numV)
    (hno : ∀ r < m, (at2 data r 3 0 < knotFn s.kvU a ∨ knotFn s.kvU (a + s.degreeU + 1) < at2 data r 3 0) ∨
      (at2 data r 4 0 < knotFn s.kvV b ∨ knotFn s.kvV (b + s.degreeV + 1) < at2 data r 4 0)) :
    ∃ s', singleFitSurface ls s data = .ok s' ∧ s'.ctrlpts.getD (a * s.numV + b) [] = [0, 0, 0] := by
  have su := hs.cu.size
  have sv := hs.cv.size
  obtain ⟨M, hM, hMs, hMv⟩ := surfaceMatrix_spec (s := s) (data := data) (m := m)
    (fun r i => Nclosed (knotFn s.kvU) s.degreeU s.numU i (at2 data r 3 0))
    (fun r j => Nclosed (knotFn s.kvV) s.degreeV s.numV j (at2 data r 4 0)) hd hs.shape.1
    (fun _ _ _ hi => one_basis_function_cox_de_boor hs.cu fu hi _)
    (fun _ _ _ hj => one_basis_function_cox_de_boor hs.cv fv hj _)
  have hun : checkUnity M m = .ok () := by
    refine checkUnity_ok hMs fun r hr => ?_
    rw [sum_grid]
    have : ∀ i ∈ range s.numU, ∑ j ∈ range s.numV, at2 M r (i * s.numV + j) 0
        = Nclosed (knotFn s.kvU) s.degreeU s.numU i (at2 data r 3 0) := by
      intro i hi
      rw [sum_congr rfl fun j hj => hMv r hr i (mem_range.1 hi) j (mem_range.1 hj), ← mul_sum,
        sum_Nclosed hs.cv (hv r hr).1 (hv r hr).2, mul_one]
    rw [sum_congr rfl this, sum_Nclosed hs.cu (hu r hr).1 (hu r hr).2]
  obtain ⟨f, hf, hfl, hfv⟩ := surface_mask_boundary (nu := s.numU) (nv := s.numV) (by omega) (by omega)
  obtain ⟨new, hnew, hns, -⟩ := fitColumns_spec hls.toIsLstsq hMs hd (by omega) hs.shape hfl
  refine ⟨{ s with ctrlpts := new }, ?_, ?_⟩
  · unfold singleFitSurface
    rw [hM, ok_bind, hd.1, hun, ok_bind, hs.shape.1, hf, ok_bind, hnew, ok_bind]
  have hlt : a * s.numV + b < s.numU * s.numV := by nlinarith
  have hzero := fitColumns_zero_column hls hMs hd (by omega) hs.shape hfl hnew hlt
    (by rw [hfv a (by omega) b (by omega)]; simp; omega) fun r hr => by
      rw [hMv r hr a (by omega) b (by omega), mul_eq_zero]
      by_contra hne
      rw [not_or] at hne
      obtain ⟨h1, h2⟩ := Nclosed_support (monotone_knotFn hs.cu.mono) hne.1
      obtain ⟨h3, h4⟩ := Nclosed_support (monotone_knotFn hs.cv.mono) hne.2
      rcases hno r hr with (h | h) | (h | h)
      · exact absurd (h.trans_le h1) (lt_irrefl _)
      · exact absurd (h.trans_le h2) (lt_irrefl _)
      · exact absurd (h.trans_le h3) (lt_irrefl _)
      · exact absurd (h.trans_le h4) (lt_irrefl _)
  have hl : (new.getD (a * s.numV + b) []).length = 3 := hns.row hlt
  obtain ⟨x, y, z, hrow⟩ := List.length_eq_three.1 hl
  have h0 := hzero 0 (by omega)
  have h1 := hzero 1 (by omega)
  have h2 := hzero 2 (by omega)
  unfold coord at h0 h1 h2
  rw [hrow] at h0 h1 h2
  simp at h0 h1 h2
  rw [hrow, h0, h1, h2]

/-- **C125.** So, without data for some inner control point, the fit of translated data is not the translated fit. -/
theorem single_fit_surface_not_translation_invariant (hls : IsMinNormLstsq ls) (hs : ClampedSurface s)
    (fu : knotFn s.kvU s.degreeU < knotFn s.kvU (s.degreeU + 1))
    (fv : knotFn s.kvV s.degreeV < knotFn s.kvV (s.degreeV + 1)) (hd : Shape data m 5)
    (hu : ∀ r < m, knotFn s.kvU s.degreeU ≤ at2 data r 3 0 ∧ at2 data r 3 0 ≤ knotFn s.kvU s.numU)
    (hv : ∀ r < m, knotFn s.kvV s.degreeV ≤ at2 data r 4 0 ∧ at2 data r 4 0 ≤ knotFn s.kvV s.numV)
    {a b : ℕ} (ha : 1 ≤ a) (han : a + 1 < s.numU) (hb : 1 ≤ b) (hbn : b + 1 < s.numV)
    (hno : ∀ r < m, (at2 data r 3 0 < knotFn s.kvU a ∨ knotFn s.kvU (a + s.degreeU + 1) < at2 data r 3 0) ∨
      (at2 data r 4 0 < knotFn s.kvV b ∨ knotFn s.kvV (b + s.degreeV + 1) < at2 data r 4 0)) {t : ℕ → K}
    {k : ℕ} (hk : k < 3) (ht : t k ≠ 0) :
    ∃ s', singleFitSurface ls s data = .ok s' ∧
      singleFitSurface ls { s with ctrlpts := s.ctrlpts.map (affineRow (fun i j => if i = j then 1 else 0) t) }
          (data.map (affineData5 (fun i j => if i = j then 1 else 0) t))
        ≠ .ok { s' with ctrlpts := s'.ctrlpts.map (affineRow (fun i j => if i = j then 1 else 0) t) } := by
  have su := hs.cu.size
  have sv := hs.cv.size
  obtain ⟨s', hc, h0⟩ := single_fit_surface_origin hls hs fu fv hd hu hv ha han hb hbn hno
  refine ⟨s', hc, fun h => ht ?_⟩
  have h3 : ∀ r < m, at2 (data.map (affineData5 (fun i j => if i = j then 1 else 0) t)) r 3 0 = at2 data r 3 0 :=
    fun r hr => (at2_map_affineData5 hd hr).1
  have h4 : ∀ r < m, at2 (data.map (affineData5 (fun i j => if i = j then 1 else 0) t)) r 4 0 = at2 data r 4 0 :=
    fun r hr => (at2_map_affineData5 hd hr).2.1
  obtain ⟨s'', hc', h0'⟩ := single_fit_surface_origin
    (s := { s with ctrlpts := s.ctrlpts.map (affineRow (fun i j => if i = j then 1 else 0) t) }) hls
    ⟨hs.cu, hs.cv, hs.du, hs.dv, hs.shape.map_affineRow⟩ fu fv hd.map_affineData5
    (fun r hr => by rw [h3 r hr]; exact hu r hr) (fun r hr => by rw [h4 r hr]; exact hv r hr) ha han hb hbn
    (fun r hr => by rw [h3 r hr, h4 r hr]; exact hno r hr)
  cases Except.ok.inj (hc'.symm.trans h)
  have hlen : a * s.numV + b < s'.ctrlpts.length := by
    have := (single_fit_surface_keeps ls s s' data hc (by omega) (by omega) hs.shape).2.1.1
    rw [this]
    nlinarith
  have e : (s'.ctrlpts.map (affineRow (fun i j => if i = j then (1 : K) else 0) t)).getD (a * s.numV + b) []
      = affineRow (fun i j => if i = j then 1 else 0) t (s'.ctrlpts.getD (a * s.numV + b) []) := by
    simp [List.getD_eq_getElem?_getD, hlen]
  have h1 := h0'
  dsimp only at h1
  rw [e, h0] at h1
  unfold affineRow at h1
  match k, hk with
  | 0, _ => simpa [List.range_succ_eq_map] using (List.cons.inj h1).1
  | 1, _ => simpa [List.range_succ_eq_map] using congrArg (fun l => l.getD 1 0) h1
  | 2, _ => simpa [List.range_succ_eq_map] using congrArg (fun l => l.getD 2 0) h1

end

/-! ## Examples -/

/-- The fit of the two points of `exSData` in another order. -/
example (ls : ℕ → List (List ℚ) → List ℚ → List ℚ) (hls : IsLstsq ls) :
    singleFitSurface ls exS exSData.reverse = singleFitSurface ls exS exSData :=
  single_fit_surface_perm (m := 2) hls exS_clamped (by decide +kernel) (by decide +kernel) ⟨rfl, by decide +kernel⟩
    (by intro r hr; interval_cases r <;> decide +kernel) (by intro r hr; interval_cases r <;> decide +kernel)
    exS_determined (List.reverse_perm _)

/-- Exchanging the first two coordinates and moving by one. -/
example (ls : ℕ → List (List ℚ) → List ℚ → List ℚ) (hls : IsLstsq ls) :
    ∃ s', singleFitSurface ls exS exSData = .ok s' ∧
      singleFitSurface ls { exS with ctrlpts := exS.ctrlpts.map fun p => [p.getD 1 0 + 1, p.getD 0 0, p.getD 2 0] }
        [[2, 1, 7, 1/4, 1/2], [2, 2, -3, 3/4, 1/2]]
        = .ok { s' with ctrlpts := s'.ctrlpts.map fun p => [p.getD 1 0 + 1, p.getD 0 0, p.getD 2 0] } := by
  have key := single_fit_surface_affine (m := 2) hls exS_clamped (by decide +kernel) (by decide +kernel)
    ⟨rfl, by decide +kernel⟩ (by intro r hr; interval_cases r <;> decide +kernel)
    (by intro r hr; interval_cases r <;> decide +kernel) exS_determined
    (fun i j => if i = 0 ∧ j = 1 ∨ i = 1 ∧ j = 0 ∨ i = 2 ∧ j = 2 then 1 else 0) (fun i => if i = 0 then 1 else 0)
  have e : affineRow (K := ℚ) (fun i j => if i = 0 ∧ j = 1 ∨ i = 1 ∧ j = 0 ∨ i = 2 ∧ j = 2 then 1 else 0)
      (fun i => if i = 0 then 1 else 0) = fun p => [p.getD 1 0 + 1, p.getD 0 0, p.getD 2 0] := by
    funext p
    simp [affineRow, List.range_succ_eq_map]
  rw [e] at key
  have e2 : exSData.map (affineData5 (fun i j => if i = 0 ∧ j = 1 ∨ i = 1 ∧ j = 0 ∨ i = 2 ∧ j = 2 then 1 else 0)
      fun i => if i = 0 then 1 else 0) = [[2, 1, 7, 1/4, 1/2], [2, 2, -3, 3/4, 1/2]] := by decide +kernel
  rwa [e2] at key

/-- Data near one corner of a larger surface say nothing about the control point at the other end. -/
def exWide : Surface ℚ where
  degreeU := 1
  degreeV := 1
  numU := 4
  numV := 3
  ctrlpts := List.replicate 12 [100, 100, 100]
  kvU := [0, 0, 1/3, 2/3, 1, 1]
  kvV := [0, 0, 1/2, 1, 1]

theorem exWide_clamped : ClampedSurface exWide where
  cu := ⟨⟨by decide +kernel, by decide +kernel, by decide⟩,
    by intro i hi; change i ≤ 1 at hi; interval_cases i <;> decide +kernel,
    by intro i h1 h2; change 4 ≤ i at h1; change i ≤ 5 at h2; interval_cases i <;> decide +kernel⟩
  cv := ⟨⟨by decide +kernel, by decide +kernel, by decide⟩,
    by intro i hi; change i ≤ 1 at hi; interval_cases i <;> decide +kernel,
    by intro i h1 h2; change 3 ≤ i at h1; change i ≤ 4 at h2; interval_cases i <;> decide +kernel⟩
  du := by decide
  dv := by decide
  shape := ⟨by decide, by decide +kernel⟩

example (ls : ℕ → List (List ℚ) → List ℚ → List ℚ) (hls : IsMinNormLstsq ls) :
    ∃ s', singleFitSurface ls exWide [[99, 101, 100, 1/4, 1/2]] = .ok s' ∧ s'.ctrlpts.getD 7 [] = [0, 0, 0] :=
  single_fit_surface_origin (m := 1) (a := 2) (b := 1) hls exWide_clamped (by decide +kernel) (by decide +kernel)
    ⟨rfl, by decide +kernel⟩ (by intro r hr; interval_cases r; decide +kernel)
    (by intro r hr; interval_cases r; decide +kernel) (by decide) (by decide) (by decide) (by decide)
    (by intro r hr; interval_cases r; decide +kernel)

end PySpline
