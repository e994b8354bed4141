import Verif.Lemmas.FitUniqueAux
import Verif.Lemmas.Zeros
import Verif.Props.Fitting

/-!
# C109–C112: when the fit is determined by the data
-/

set_option linter.unusedSectionVars false

namespace PySpline

open Spec Finset

variable {K : Type} [Field K] [LinearOrder K] [IsStrictOrderedRing K]

/-! ## Least squares over a space of functions -/

section
variable {m : ℕ} {F : (ℕ → K) → ℕ → K}

end

/-- The data parameters satisfy the Schoenberg–Whitney condition for the free control points `1, ..., n-2`: there are
data with increasing parameters, one inside the support of each free basis function. -/
def Determined (p n : ℕ) (U : ℕ → K) (m : ℕ) (t : ℕ → K) : Prop :=
  ∃ r : ℕ → ℕ, (∀ j, 1 ≤ j → j + 1 < n → r j < m ∧ U j < t (r j) ∧ t (r j) < U (j + p + 1)) ∧
    ∀ j, 1 ≤ j → j + 2 < n → t (r j) < t (r (j + 1))

section
variable {p n m : ℕ} {U : List K}

/-- A curve with vanishing end control points that vanishes at all data parameters is zero. -/
theorem eq_zero_of_determined (hU : Clamped p n U) (hp : 1 ≤ p) {t : ℕ → K} (ht : Determined p n (knotFn U) m t)
    {e : ℕ → K} (h0 : e 0 = 0) (h1 : e (n - 1) = 0) (hz : ∀ r < m, curve (knotFn U) p n e (t r) = 0) :
    ∀ i < n, e i = 0 := by
  obtain ⟨r, hr, hinc⟩ := ht
  have hsz := hU.size
  have key := schoenberg_whitney hU hp (fun i => if i < n then e i else 0) (A := 1) (B := n - 1) (by omega)
    (fun i hi => by
      split
      · rcases hi with h | h
        · rw [show i = 0 by omega, h0]
        · rw [show i = n - 1 by omega, h1]
      · rfl)
    (fun j => t (r j)) (fun j h1 h2 => hinc j h1 (by omega)) (fun j h1 h2 => (hr j h1 (by omega)).2)
    (fun j h1 h2 => by
      refine Eq.trans ?_ (hz (r j) (hr j h1 (by omega)).1)
      unfold curve
      refine sum_congr rfl fun i hi => ?_
      simp only [if_pos (mem_range.1 hi)])
  intro i hi
  have := key i
  rwa [if_pos hi] at this

/-- Solutions of the normal equations with the same end control points agree. -/
theorem normal_unique (hU : Clamped p n U) (hp : 1 ≤ p) {t d : ℕ → K} (ht : Determined p n (knotFn U) m t)
    {x z : ℕ → K} (h0 : z 0 = x 0) (h1 : z (n - 1) = x (n - 1))
    (hx : ∀ e : ℕ → K, e 0 = 0 → e (n - 1) = 0 →
      ∑ r ∈ range m, (curve (knotFn U) p n x (t r) - d r) * curve (knotFn U) p n e (t r) = 0)
    (hz : ∀ e : ℕ → K, e 0 = 0 → e (n - 1) = 0 →
      ∑ r ∈ range m, (curve (knotFn U) p n z (t r) - d r) * curve (knotFn U) p n e (t r) = 0) :
    ∀ i < n, z i = x i := by
  have he0 : z 0 + (-1) * x 0 = 0 := by rw [h0]; ring
  have he1 : z (n - 1) + (-1) * x (n - 1) = 0 := by rw [h1]; ring
  have hsum : ∑ r ∈ range m, curve (knotFn U) p n (fun i => z i + (-1) * x i) (t r) ^ 2 = 0 := by
    have e1 := hz (fun i => z i + (-1) * x i) he0 he1
    have e2 := hx (fun i => z i + (-1) * x i) he0 he1
    rw [← sub_eq_zero.2 (e1.trans e2.symm), ← sum_sub_distrib]
    refine sum_congr rfl fun r _ => ?_
    rw [curve_add_mul]
    ring
  have hzero := eq_zero_of_determined hU hp ht he0 he1 fun r hr =>
    pow_eq_zero_iff two_ne_zero |>.1 ((sum_eq_zero_iff_of_nonneg fun r _ => sq_nonneg _).1 hsum r (mem_range.2 hr))
  intro i hi
  have := hzero i hi
  linarith

end

section
variable {ls : ℕ → List (List K) → List K → List K} {c : Curve K} {data : List (List K)} {m n : ℕ}

/-- **C109.** If the data parameters satisfy the Schoenberg–Whitney condition, the control points computed by
`single_fit_curve` are the only ones with the given ends that are not worse, in any coordinate. -/
theorem single_fit_curve_unique (hls : IsLstsq ls) (hU : Clamped c.degree n c.kv) (hp : 1 ≤ c.degree)
    (hfirst : knotFn c.kv c.degree < knotFn c.kv (c.degree + 1)) (hP : Shape c.ctrlpts n 3) (hd : Shape data m 4)
    (hdom : ∀ r < m, knotFn c.kv c.degree ≤ at2 data r 3 0 ∧ at2 data r 3 0 ≤ knotFn c.kv n)
    (hdet : Determined c.degree n (knotFn c.kv) m fun r => at2 data r 3 0) :
    ∃ c', singleFitCurve ls c data = .ok c' ∧ ∀ k < 3, ∀ z : ℕ → K, z 0 = coord c.ctrlpts k 0 →
      z (n - 1) = coord c.ctrlpts k (n - 1) →
      ∑ r ∈ range m, (curve (knotFn c.kv) c.degree n z (at2 data r 3 0) - at2 data r k 0) ^ 2
        ≤ ∑ r ∈ range m, (curve (knotFn c.kv) c.degree n (coord c'.ctrlpts k) (at2 data r 3 0)
            - at2 data r k 0) ^ 2 →
      ∀ i < n, z i = coord c'.ctrlpts k i := by
  obtain ⟨c', h, -, -, -, hn⟩ := single_fit_curve_normal hls hU hfirst hP hd hdom
  obtain ⟨c'', h', -, -, -, -, hopt⟩ := single_fit_curve_optimal hls hU hfirst hP hd hdom
  cases Except.ok.inj (h.symm.trans h')
  refine ⟨c', h, fun k hk z z0 z1 hle => ?_⟩
  obtain ⟨e0, e1, hnk⟩ := hn k hk
  refine normal_unique hU hp hdet (z0.trans e0.symm) (z1.trans e1.symm) hnk fun e f0 f1 => ?_
  refine normal_of_least (F := fun x r => curve (knotFn c.kv) c.degree n x (at2 data r 3 0))
    (d := fun r => at2 data r k 0) (free := fun e => e 0 = 0 ∧ e (n - 1) = 0)
    (fun x e s r => curve_add_mul x e s _) (fun s e he => hle.trans (hopt k hk _ ?_ ?_)) ⟨f0, f1⟩
  · rw [he.1, z0]; ring
  · rw [he.2, z1]; ring

/-- What is needed to conclude that a curve is the result of `single_fit_curve`. -/
theorem single_fit_curve_eq (hls : IsLstsq ls) (hU : Clamped c.degree n c.kv) (hp : 1 ≤ c.degree)
    (hfirst : knotFn c.kv c.degree < knotFn c.kv (c.degree + 1)) (hP : Shape c.ctrlpts n 3) (hd : Shape data m 4)
    (hdom : ∀ r < m, knotFn c.kv c.degree ≤ at2 data r 3 0 ∧ at2 data r 3 0 ≤ knotFn c.kv n)
    (hdet : Determined c.degree n (knotFn c.kv) m fun r => at2 data r 3 0) {Z : List (List K)} (hZ : Shape Z n 3)
    (h : ∀ k < 3, coord Z k 0 = coord c.ctrlpts k 0 ∧ coord Z k (n - 1) = coord c.ctrlpts k (n - 1) ∧
      ∀ e : ℕ → K, e 0 = 0 → e (n - 1) = 0 →
        ∑ r ∈ range m, (curve (knotFn c.kv) c.degree n (coord Z k) (at2 data r 3 0) - at2 data r k 0)
          * curve (knotFn c.kv) c.degree n e (at2 data r 3 0) = 0) :
    singleFitCurve ls c data = .ok { c with ctrlpts := Z } := by
  obtain ⟨c', hc, h1, h2, h3, hn⟩ := single_fit_curve_normal hls hU hfirst hP hd hdom
  rw [hc]
  congr 1
  have : c'.ctrlpts = Z := by
    refine rows_ext h3 hZ fun k hk i hi => ?_
    exact normal_unique hU hp hdet ((hn k hk).1.trans (h k hk).1.symm) ((hn k hk).2.1.trans (h k hk).2.1.symm)
      (h k hk).2.2 (hn k hk).2.2 i hi
  cases c'
  simp only at h1 h2 this
  subst h1 h2 this
  rfl

/-- **C109.** Under the Schoenberg–Whitney condition the result does not depend on the least-squares solver. -/
theorem single_fit_curve_solver (hls : IsLstsq ls) {ls' : ℕ → List (List K) → List K → List K} (hls' : IsLstsq ls')
    (hU : Clamped c.degree n c.kv) (hp : 1 ≤ c.degree)
    (hfirst : knotFn c.kv c.degree < knotFn c.kv (c.degree + 1)) (hP : Shape c.ctrlpts n 3) (hd : Shape data m 4)
    (hdom : ∀ r < m, knotFn c.kv c.degree ≤ at2 data r 3 0 ∧ at2 data r 3 0 ≤ knotFn c.kv n)
    (hdet : Determined c.degree n (knotFn c.kv) m fun r => at2 data r 3 0) :
    singleFitCurve ls c data = singleFitCurve ls' c data := by
  obtain ⟨c', hc, h1, h2, h3, hn⟩ := single_fit_curve_normal hls' hU hfirst hP hd hdom
  rw [hc, single_fit_curve_eq hls hU hp hfirst hP hd hdom hdet h3 hn]
  cases c'
  simp only at h1 h2
  subst h1 h2
  rfl

/-- **C109.** Data on a curve with the given ends and knots are recovered: the fit returns the control points of that
curve. -/
theorem single_fit_curve_recovers (hls : IsLstsq ls) (hU : Clamped c.degree n c.kv) (hp : 1 ≤ c.degree)
    (hfirst : knotFn c.kv c.degree < knotFn c.kv (c.degree + 1)) (hP : Shape c.ctrlpts n 3) (hd : Shape data m 4)
    (hdom : ∀ r < m, knotFn c.kv c.degree ≤ at2 data r 3 0 ∧ at2 data r 3 0 ≤ knotFn c.kv n)
    (hdet : Determined c.degree n (knotFn c.kv) m fun r => at2 data r 3 0) {Z : List (List K)} (hZ : Shape Z n 3)
    (h0 : Z.getD 0 [] = c.ctrlpts.getD 0 []) (h1 : Z.getD (n - 1) [] = c.ctrlpts.getD (n - 1) [])
    (hdata : ∀ r < m, ∀ k < 3, at2 data r k 0 = curve (knotFn c.kv) c.degree n (coord Z k) (at2 data r 3 0)) :
    singleFitCurve ls c data = .ok { c with ctrlpts := Z } := by
  refine single_fit_curve_eq hls hU hp hfirst hP hd hdom hdet hZ fun k hk => ⟨?_, ?_, fun e _ _ => ?_⟩
  · unfold coord; rw [h0]
  · unfold coord; rw [h1]
  · refine sum_eq_zero fun r hr => ?_
    rw [hdata r (mem_range.1 hr) k hk, sub_self, zero_mul]

/-! ## C110: the fit does not depend on coordinates or on the order of the data -/

/-- The affine map on the first three columns of a row of data; the parameter is kept. -/
def affineData (A : ℕ → ℕ → K) (b : ℕ → K) (row : List K) : List K := affineRow A b row ++ [row.getD 3 0]

theorem at2_map_affineData {A : ℕ → ℕ → K} {b : ℕ → K} (hd : Shape data m 4) {r : ℕ} (hr : r < m) :
    at2 (data.map (affineData A b)) r 3 0 = at2 data r 3 0 ∧ ∀ k < 3, at2 (data.map (affineData A b)) r k 0
      = A k 0 * at2 data r 0 0 + A k 1 * at2 data r 1 0 + A k 2 * at2 data r 2 0 + b k := by
  have hr' : r < data.length := by rw [hd.1]; exact hr
  constructor
  · simp [at2, affineData, affineRow, List.getD_eq_getElem?_getD, hr']
  · intro k hk
    have : k < ((List.range 3).map fun c => A c 0 * (data.getD r []).getD 0 0 + A c 1 * (data.getD r []).getD 1 0
        + A c 2 * (data.getD r []).getD 2 0 + b c).length := by simpa using hk
    simp [at2, affineData, affineRow, List.getD_eq_getElem?_getD, hr', List.getElem?_append_left, hk]

/-- **C110.** Under the Schoenberg–Whitney condition, fitting commutes with affine maps of space: moving the data and
the initial control points moves the fitted control points. -/
theorem single_fit_curve_affine (hls : IsLstsq ls) (hU : Clamped c.degree n c.kv) (hp : 1 ≤ c.degree)
    (hfirst : knotFn c.kv c.degree < knotFn c.kv (c.degree + 1)) (hP : Shape c.ctrlpts n 3) (hd : Shape data m 4)
    (hdom : ∀ r < m, knotFn c.kv c.degree ≤ at2 data r 3 0 ∧ at2 data r 3 0 ≤ knotFn c.kv n)
    (hdet : Determined c.degree n (knotFn c.kv) m fun r => at2 data r 3 0) (A : ℕ → ℕ → K) (b : ℕ → K) :
    ∃ c', singleFitCurve ls c data = .ok c' ∧
      singleFitCurve ls { c with ctrlpts := c.ctrlpts.map (affineRow A b) } (data.map (affineData A b))
        = .ok { c' with ctrlpts := c'.ctrlpts.map (affineRow A b) } := by
  obtain ⟨c', hc, h1, h2, h3, hn⟩ := single_fit_curve_normal hls hU hfirst hP hd hdom
  refine ⟨c', hc, ?_⟩
  have hsz := hU.size
  have hpar : ∀ r < m, at2 (data.map (affineData A b)) r 3 0 = at2 data r 3 0 := fun r hr =>
    (at2_map_affineData hd hr).1
  have hd' : Shape (data.map (affineData A b)) m 4 := by
    refine ⟨by simp [hd.1], fun row hrow => ?_⟩
    obtain ⟨r, -, rfl⟩ := List.mem_map.1 hrow
    simp [affineData, affineRow]
  have key := single_fit_curve_eq (c := { c with ctrlpts := c.ctrlpts.map (affineRow A b) })
    (data := data.map (affineData A b)) hls hU hp hfirst hP.map_affineRow hd'
    (fun r hr => by rw [hpar r hr]; exact hdom r hr)
    (by
      obtain ⟨r, hr, hinc⟩ := hdet
      refine ⟨r, fun j j1 j2 => ⟨(hr j j1 j2).1, ?_⟩, fun j j1 j2 => ?_⟩
      · dsimp only; rw [hpar _ (hr j j1 j2).1]; exact (hr j j1 j2).2
      · dsimp only
        rw [hpar _ (hr j j1 (by omega)).1, hpar _ (hr (j + 1) (by omega) (by omega)).1]
        exact hinc j j1 j2)
    (Z := c'.ctrlpts.map (affineRow A b)) h3.map_affineRow (fun k hk => ?_)
  · rw [key]
    cases c'
    simp only at h1 h2
    subst h1 h2
    rfl
  · have ends : ∀ i < n, (∀ k < 3, coord c'.ctrlpts k i = coord c.ctrlpts k i) →
        coord (c'.ctrlpts.map (affineRow A b)) k i = coord (c.ctrlpts.map (affineRow A b)) k i := by
      intro i hi h
      rw [coord_map_affineRow h3 hi hk, coord_map_affineRow hP hi hk, h 0 (by omega), h 1 (by omega), h 2 (by omega)]
    refine ⟨ends 0 (by omega) fun k hk => (hn k hk).1, ends (n - 1) (by omega) fun k hk => (hn k hk).2.1,
      fun e e0 e1 => ?_⟩
    have n0 := (hn 0 (by omega)).2.2 e e0 e1
    have n1 := (hn 1 (by omega)).2.2 e e0 e1
    have n2 := (hn 2 (by omega)).2.2 e e0 e1
    have hcurve : ∀ r < m, curve (knotFn c.kv) c.degree n (coord (c'.ctrlpts.map (affineRow A b)) k) (at2 data r 3 0)
        = A k 0 * curve (knotFn c.kv) c.degree n (coord c'.ctrlpts 0) (at2 data r 3 0)
          + A k 1 * curve (knotFn c.kv) c.degree n (coord c'.ctrlpts 1) (at2 data r 3 0)
          + A k 2 * curve (knotFn c.kv) c.degree n (coord c'.ctrlpts 2) (at2 data r 3 0) + b k := by
      intro r hr
      have hone := sum_Nclosed hU (hdom r hr).1 (hdom r hr).2
      unfold curve
      rw [← mul_one (b k), ← hone, mul_sum, mul_sum, mul_sum, mul_sum, ← sum_add_distrib, ← sum_add_distrib,
        ← sum_add_distrib]
      refine sum_congr rfl fun i hi => ?_
      rw [coord_map_affineRow h3 (mem_range.1 hi) hk]
      ring
    have : ∑ r ∈ range m, (curve (knotFn c.kv) c.degree n (coord (c'.ctrlpts.map (affineRow A b)) k)
          (at2 (data.map (affineData A b)) r 3 0) - at2 (data.map (affineData A b)) r k 0)
            * curve (knotFn c.kv) c.degree n e (at2 (data.map (affineData A b)) r 3 0)
        = A k 0 * (∑ r ∈ range m, (curve (knotFn c.kv) c.degree n (coord c'.ctrlpts 0) (at2 data r 3 0)
            - at2 data r 0 0) * curve (knotFn c.kv) c.degree n e (at2 data r 3 0))
          + A k 1 * (∑ r ∈ range m, (curve (knotFn c.kv) c.degree n (coord c'.ctrlpts 1) (at2 data r 3 0)
            - at2 data r 1 0) * curve (knotFn c.kv) c.degree n e (at2 data r 3 0))
          + A k 2 * (∑ r ∈ range m, (curve (knotFn c.kv) c.degree n (coord c'.ctrlpts 2) (at2 data r 3 0)
            - at2 data r 2 0) * curve (knotFn c.kv) c.degree n e (at2 data r 3 0)) := by
      rw [mul_sum, mul_sum, mul_sum, ← sum_add_distrib, ← sum_add_distrib]
      refine sum_congr rfl fun r hr => ?_
      have hr := mem_range.1 hr
      rw [hpar r hr, hcurve r hr, (at2_map_affineData hd hr).2 k hk]
      ring
    rw [n0, n1, n2] at this
    simpa using this

/-- **C110.** Under the Schoenberg–Whitney condition the order of the data does not matter. -/
theorem single_fit_curve_perm (hls : IsLstsq ls) (hU : Clamped c.degree n c.kv) (hp : 1 ≤ c.degree)
    (hfirst : knotFn c.kv c.degree < knotFn c.kv (c.degree + 1)) (hP : Shape c.ctrlpts n 3) (hd : Shape data m 4)
    (hdom : ∀ r < m, knotFn c.kv c.degree ≤ at2 data r 3 0 ∧ at2 data r 3 0 ≤ knotFn c.kv n)
    (hdet : Determined c.degree n (knotFn c.kv) m fun r => at2 data r 3 0) {data' : List (List K)}
    (hperm : data'.Perm data) : singleFitCurve ls c data' = singleFitCurve ls c data := by
  have hd' : Shape data' m 4 := ⟨hperm.length_eq.trans hd.1, fun row hrow => hd.2 row (hperm.mem_iff.1 hrow)⟩
  have hdom' : ∀ r < m, knotFn c.kv c.degree ≤ at2 data' r 3 0 ∧ at2 data' r 3 0 ≤ knotFn c.kv n := by
    intro r hr
    have hr' : r < data'.length := by rw [hd'.1]; exact hr
    have : data'.getD r [] ∈ data := by
      rw [← hperm.mem_iff, List.getD_eq_getElem?_getD, List.getElem?_eq_getElem hr']
      exact List.getElem_mem hr'
    obtain ⟨s, hs, e⟩ := List.mem_iff_getElem.1 this
    have e' : at2 data' r 3 0 = at2 data s 3 0 := by
      unfold at2
      rw [← e, List.getD_eq_getElem?_getD (l := data), List.getElem?_eq_getElem hs]
      rfl
    rw [e']
    exact hdom s (hd.1 ▸ hs)
  obtain ⟨c', hc, h1, h2, h3, hn⟩ := single_fit_curve_normal hls hU hfirst hP hd' hdom'
  rw [hc, single_fit_curve_eq hls hU hp hfirst hP hd hdom hdet h3 fun k hk =>
    ⟨(hn k hk).1, (hn k hk).2.1, fun e e0 e1 => ?_⟩]
  · cases c'
    simp only at h1 h2
    subst h1 h2
    rfl
  · have := (hn k hk).2.2 e e0 e1
    set f : List K → K := fun row => (curve (knotFn c.kv) c.degree n (coord c'.ctrlpts k) (row.getD 3 0)
      - row.getD k 0) * curve (knotFn c.kv) c.degree n e (row.getD 3 0) with hf
    have q1 := sum_getD_map data' hd'.1 f
    have q2 := sum_getD_map data hd.1 f
    rw [(hperm.map f).sum_eq] at q1
    exact (q2.trans q1.symm).trans this

end

/-! ## C111: surfaces -/

section
variable {ls : ℕ → List (List K) → List K → List K} {s : Surface K} {data : List (List K)} {m : ℕ}

/-- The data parameters contain a grid that satisfies the Schoenberg–Whitney condition, for the free control points, in
both directions. -/
def GridDetermined (s : Surface K) (m : ℕ) (u v : ℕ → K) : Prop :=
  ∃ (a b : ℕ → K) (r : ℕ → ℕ → ℕ),
    (∀ i, 1 ≤ i → i + 1 < s.numU → knotFn s.kvU i < a i ∧ a i < knotFn s.kvU (i + s.degreeU + 1)) ∧
    (∀ i, 1 ≤ i → i + 2 < s.numU → a i < a (i + 1)) ∧
    (∀ j, 1 ≤ j → j + 1 < s.numV → knotFn s.kvV j < b j ∧ b j < knotFn s.kvV (j + s.degreeV + 1)) ∧
    (∀ j, 1 ≤ j → j + 2 < s.numV → b j < b (j + 1)) ∧
    ∀ i j, 1 ≤ i → i + 1 < s.numU → 1 ≤ j → j + 1 < s.numV → r i j < m ∧ u (r i j) = a i ∧ v (r i j) = b j

/-- The index belongs to a boundary control point. -/
def OnBoundary (s : Surface K) (i j : ℕ) : Prop := i = 0 ∨ i + 1 = s.numU ∨ j = 0 ∨ j + 1 = s.numV

theorem surface_eq_zero_of_determined (hs : ClampedSurface s) {u v : ℕ → K}
    (hdet : GridDetermined s m u v) {e : ℕ → K}
    (h0 : ∀ i < s.numU, ∀ j < s.numV, OnBoundary s i j → e (i * s.numV + j) = 0)
    (hz : ∀ r < m, surface (knotFn s.kvU) s.degreeU s.numU (knotFn s.kvV) s.degreeV s.numV e (u r) (v r) = 0) :
    ∀ i < s.numU, ∀ j < s.numV, e (i * s.numV + j) = 0 := by
  obtain ⟨a, b, r, ha, ha', hb, hb', hr⟩ := hdet
  have su := hs.cu.size
  have sv := hs.cv.size
  -- along the lines `u = a k`
  have hrow : ∀ k, 1 ≤ k → k + 1 < s.numU → ∀ j < s.numV,
      curve (knotFn s.kvU) s.degreeU s.numU (fun i => e (i * s.numV + j)) (a k) = 0 := by
    intro k k1 k2
    refine eq_zero_of_determined (m := s.numV - 2) (t := fun j => b (j + 1))
      (e := fun j => curve (knotFn s.kvU) s.degreeU s.numU (fun i => e (i * s.numV + j)) (a k)) hs.cv hs.dv
      ⟨fun j => j - 1, fun j j1 j2 => ⟨by dsimp only; omega, ?_⟩, fun j j1 j2 => ?_⟩ ?_ ?_ ?_
    · dsimp only
      rw [show j - 1 + 1 = j by omega]
      exact hb j j1 j2
    · dsimp only
      rw [show j - 1 + 1 = j by omega, show j + 1 - 1 + 1 = j + 1 by omega]
      exact hb' j j1 j2
    · refine sum_eq_zero fun i hi => ?_
      dsimp only
      rw [h0 i (mem_range.1 hi) 0 (by omega) (Or.inr (Or.inr (Or.inl rfl))), zero_mul]
    · refine sum_eq_zero fun i hi => ?_
      dsimp only
      rw [h0 i (mem_range.1 hi) (s.numV - 1) (by omega) (Or.inr (Or.inr (Or.inr (by omega)))), zero_mul]
    · intro l hl
      obtain ⟨r1, r2, r3⟩ := hr k (l + 1) k1 k2 (by omega) (by omega)
      have := hz _ r1
      rw [r2, r3] at this
      rw [← this]
      unfold surface curve
      rw [sum_comm]
      refine sum_congr rfl fun j _ => ?_
      rw [sum_mul]
  intro i hi j hj
  refine eq_zero_of_determined (m := s.numU - 2) (t := fun i => a (i + 1))
    (e := fun i => e (i * s.numV + j)) hs.cu hs.du
    ⟨fun j => j - 1, fun j j1 j2 => ⟨by dsimp only; omega, ?_⟩, fun j j1 j2 => ?_⟩ ?_ ?_ ?_ i hi
  · dsimp only
    rw [show j - 1 + 1 = j by omega]
    exact ha j j1 j2
  · dsimp only
    rw [show j - 1 + 1 = j by omega, show j + 1 - 1 + 1 = j + 1 by omega]
    exact ha' j j1 j2
  · exact h0 0 (by omega) j hj (Or.inl rfl)
  · exact h0 (s.numU - 1) (by omega) j hj (Or.inr (Or.inl (by omega)))
  · exact fun l hl => hrow (l + 1) (by omega) (by omega) j hj

/-- The result of `single_fit_surface` satisfies the normal equations in every coordinate. -/
theorem single_fit_surface_normal (hls : IsLstsq ls) (hs : ClampedSurface s)
    (fu : knotFn s.kvU s.degreeU < knotFn s.kvU (s.degreeU + 1))
    (fv : knotFn s.kvV s.degreeV < knotFn s.kvV (s.degreeV + 1)) (hd : Shape data m 5)
    (hu : ∀ r < m, knotFn s.kvU s.degreeU ≤ at2 data r 3 0 ∧ at2 data r 3 0 ≤ knotFn s.kvU s.numU)
    (hv : ∀ r < m, knotFn s.kvV s.degreeV ≤ at2 data r 4 0 ∧ at2 data r 4 0 ≤ knotFn s.kvV s.numV) :
    ∃ Z, singleFitSurface ls s data = .ok { s with ctrlpts := Z } ∧ Shape Z (s.numU * s.numV) 3 ∧
      ∀ k < 3, (∀ i < s.numU, ∀ j < s.numV, OnBoundary s i j →
          coord Z k (i * s.numV + j) = coord s.ctrlpts k (i * s.numV + j)) ∧
        ∀ e : ℕ → K, (∀ i < s.numU, ∀ j < s.numV, OnBoundary s i j → e (i * s.numV + j) = 0) →
          ∑ r ∈ range m, (surface (knotFn s.kvU) s.degreeU s.numU (knotFn s.kvV) s.degreeV s.numV (coord Z k)
              (at2 data r 3 0) (at2 data r 4 0) - at2 data r k 0)
            * surface (knotFn s.kvU) s.degreeU s.numU (knotFn s.kvV) s.degreeV s.numV e (at2 data r 3 0)
              (at2 data r 4 0) = 0 := by
  have su := hs.cu.size
  have sv := hs.cv.size
  obtain ⟨s', h, h1, hopt⟩ := single_fit_surface_optimal hls hs fu fv hd hu hv
  obtain ⟨-, hZ, hb⟩ := single_fit_surface_keeps ls s s' data h (by omega) (by omega) hs.shape
  have hbc : ∀ k, ∀ i < s.numU, ∀ j < s.numV, OnBoundary s i j →
      coord s'.ctrlpts k (i * s.numV + j) = coord s.ctrlpts k (i * s.numV + j) := by
    intro k i hi j hj h
    unfold coord
    rw [hb i hi j hj h]
  refine ⟨s'.ctrlpts, by rw [h, ← h1], hZ, fun k hk => ⟨hbc k, fun e he => ?_⟩⟩
  refine normal_of_least
    (F := fun x r => surface (knotFn s.kvU) s.degreeU s.numU (knotFn s.kvV) s.degreeV s.numV x (at2 data r 3 0)
      (at2 data r 4 0))
    (d := fun r => at2 data r k 0)
    (free := fun e => ∀ i < s.numU, ∀ j < s.numV, OnBoundary s i j → e (i * s.numV + j) = 0)
    (fun x e q r => surface_add_mul x e q _ _) (fun q e he => hopt k hk _ fun i hi j hj hb => ?_) he
  rw [he i hi j hj hb, hbc k i hi j hj hb]
  ring

/-- Solutions of the normal equations with the same boundary agree. -/
theorem surface_normal_unique (hs : ClampedSurface s) {u v d : ℕ → K}
    (hdet : GridDetermined s m u v) {x z : ℕ → K}
    (hb : ∀ i < s.numU, ∀ j < s.numV, OnBoundary s i j → z (i * s.numV + j) = x (i * s.numV + j))
    (hx : ∀ e : ℕ → K, (∀ i < s.numU, ∀ j < s.numV, OnBoundary s i j → e (i * s.numV + j) = 0) →
      ∑ r ∈ range m, (surface (knotFn s.kvU) s.degreeU s.numU (knotFn s.kvV) s.degreeV s.numV x (u r) (v r) - d r)
        * surface (knotFn s.kvU) s.degreeU s.numU (knotFn s.kvV) s.degreeV s.numV e (u r) (v r) = 0)
    (hz : ∀ e : ℕ → K, (∀ i < s.numU, ∀ j < s.numV, OnBoundary s i j → e (i * s.numV + j) = 0) →
      ∑ r ∈ range m, (surface (knotFn s.kvU) s.degreeU s.numU (knotFn s.kvV) s.degreeV s.numV z (u r) (v r) - d r)
        * surface (knotFn s.kvU) s.degreeU s.numU (knotFn s.kvV) s.degreeV s.numV e (u r) (v r) = 0) :
    ∀ i < s.numU, ∀ j < s.numV, z (i * s.numV + j) = x (i * s.numV + j) := by
  have he : ∀ i < s.numU, ∀ j < s.numV, OnBoundary s i j →
      (fun i => z i + (-1) * x i) (i * s.numV + j) = 0 := by
    intro i hi j hj h
    dsimp only
    rw [hb i hi j hj h]
    ring
  have hsum : ∑ r ∈ range m, surface (knotFn s.kvU) s.degreeU s.numU (knotFn s.kvV) s.degreeV s.numV
      (fun i => z i + (-1) * x i) (u r) (v r) ^ 2 = 0 := by
    have e1 := hz (fun i => z i + (-1) * x i) he
    have e2 := hx (fun i => z i + (-1) * x i) he
    rw [← sub_eq_zero.2 (e1.trans e2.symm), ← sum_sub_distrib]
    refine sum_congr rfl fun r _ => ?_
    rw [surface_add_mul]
    ring
  have hzero := surface_eq_zero_of_determined hs hdet he fun r hr =>
    pow_eq_zero_iff two_ne_zero |>.1 ((sum_eq_zero_iff_of_nonneg fun r _ => sq_nonneg _).1 hsum r (mem_range.2 hr))
  intro i hi j hj
  have := hzero i hi j hj
  linarith

theorem single_fit_surface_eq (hls : IsLstsq ls) (hs : ClampedSurface s) 
    (fu : knotFn s.kvU s.degreeU < knotFn s.kvU (s.degreeU + 1))
    (fv : knotFn s.kvV s.degreeV < knotFn s.kvV (s.degreeV + 1)) (hd : Shape data m 5)
    (hu : ∀ r < m, knotFn s.kvU s.degreeU ≤ at2 data r 3 0 ∧ at2 data r 3 0 ≤ knotFn s.kvU s.numU)
    (hv : ∀ r < m, knotFn s.kvV s.degreeV ≤ at2 data r 4 0 ∧ at2 data r 4 0 ≤ knotFn s.kvV s.numV)
    (hdet : GridDetermined s m (fun r => at2 data r 3 0) fun r => at2 data r 4 0) {Z : List (List K)}
    (hZ : Shape Z (s.numU * s.numV) 3)
    (h : ∀ k < 3, (∀ i < s.numU, ∀ j < s.numV, OnBoundary s i j →
          coord Z k (i * s.numV + j) = coord s.ctrlpts k (i * s.numV + j)) ∧
        ∀ e : ℕ → K, (∀ i < s.numU, ∀ j < s.numV, OnBoundary s i j → e (i * s.numV + j) = 0) →
          ∑ r ∈ range m, (surface (knotFn s.kvU) s.degreeU s.numU (knotFn s.kvV) s.degreeV s.numV (coord Z k)
              (at2 data r 3 0) (at2 data r 4 0) - at2 data r k 0)
            * surface (knotFn s.kvU) s.degreeU s.numU (knotFn s.kvV) s.degreeV s.numV e (at2 data r 3 0)
              (at2 data r 4 0) = 0) :
    singleFitSurface ls s data = .ok { s with ctrlpts := Z } := by
  obtain ⟨Z', h1, hZ', hn⟩ := single_fit_surface_normal hls hs fu fv hd hu hv
  rw [h1, rows_ext_grid hZ' hZ fun k hk => ?_]
  exact surface_normal_unique hs hdet (fun i hi j hj hb => ((hn k hk).1 i hi j hj hb).trans
    ((h k hk).1 i hi j hj hb).symm) (h k hk).2 (hn k hk).2

/-- **C111.** If the data parameters contain a grid satisfying the Schoenberg–Whitney condition in both directions, the
control points computed by `single_fit_surface` are the only ones with the given boundary that are not worse, in any
coordinate. -/
theorem single_fit_surface_unique (hls : IsLstsq ls) (hs : ClampedSurface s)
    (fu : knotFn s.kvU s.degreeU < knotFn s.kvU (s.degreeU + 1))
    (fv : knotFn s.kvV s.degreeV < knotFn s.kvV (s.degreeV + 1)) (hd : Shape data m 5)
    (hu : ∀ r < m, knotFn s.kvU s.degreeU ≤ at2 data r 3 0 ∧ at2 data r 3 0 ≤ knotFn s.kvU s.numU)
    (hv : ∀ r < m, knotFn s.kvV s.degreeV ≤ at2 data r 4 0 ∧ at2 data r 4 0 ≤ knotFn s.kvV s.numV)
    (hdet : GridDetermined s m (fun r => at2 data r 3 0) fun r => at2 data r 4 0) :
    ∃ s', singleFitSurface ls s data = .ok s' ∧ ∀ k < 3, ∀ z : ℕ → K,
      (∀ i < s.numU, ∀ j < s.numV, OnBoundary s i j →
        z (i * s.numV + j) = coord s.ctrlpts k (i * s.numV + j)) →
      ∑ r ∈ range m, (surface (knotFn s.kvU) s.degreeU s.numU (knotFn s.kvV) s.degreeV s.numV z (at2 data r 3 0)
          (at2 data r 4 0) - at2 data r k 0) ^ 2
        ≤ ∑ r ∈ range m, (surface (knotFn s.kvU) s.degreeU s.numU (knotFn s.kvV) s.degreeV s.numV
          (coord s'.ctrlpts k) (at2 data r 3 0) (at2 data r 4 0) - at2 data r k 0) ^ 2 →
      ∀ i < s.numU, ∀ j < s.numV, z (i * s.numV + j) = coord s'.ctrlpts k (i * s.numV + j) := by
  obtain ⟨Z, h1, hZ, hn⟩ := single_fit_surface_normal hls hs fu fv hd hu hv
  obtain ⟨s', h2, -, hopt⟩ := single_fit_surface_optimal hls hs fu fv hd hu hv
  cases Except.ok.inj (h1.symm.trans h2)
  refine ⟨_, h1, fun k hk z hz hle => ?_⟩
  refine surface_normal_unique hs hdet
    (fun i hi j hj hb => (hz i hi j hj hb).trans ((hn k hk).1 i hi j hj hb).symm) (hn k hk).2 fun e he => ?_
  refine normal_of_least
    (F := fun x r => surface (knotFn s.kvU) s.degreeU s.numU (knotFn s.kvV) s.degreeV s.numV x (at2 data r 3 0)
      (at2 data r 4 0))
    (d := fun r => at2 data r k 0)
    (free := fun e => ∀ i < s.numU, ∀ j < s.numV, OnBoundary s i j → e (i * s.numV + j) = 0)
    (fun x e q r => surface_add_mul x e q _ _)
    (fun q e he => hle.trans (hopt k hk _ fun i hi j hj hb => ?_)) he
  rw [he i hi j hj hb, hz i hi j hj hb]
  ring

/-- **C111.** In this case the result does not depend on the solver. -/
theorem single_fit_surface_solver (hls : IsLstsq ls) {ls' : ℕ → List (List K) → List K → List K}
    (hls' : IsLstsq ls') (hs : ClampedSurface s) (fu : knotFn s.kvU s.degreeU < knotFn s.kvU (s.degreeU + 1))
    (fv : knotFn s.kvV s.degreeV < knotFn s.kvV (s.degreeV + 1)) (hd : Shape data m 5)
    (hu : ∀ r < m, knotFn s.kvU s.degreeU ≤ at2 data r 3 0 ∧ at2 data r 3 0 ≤ knotFn s.kvU s.numU)
    (hv : ∀ r < m, knotFn s.kvV s.degreeV ≤ at2 data r 4 0 ∧ at2 data r 4 0 ≤ knotFn s.kvV s.numV)
    (hdet : GridDetermined s m (fun r => at2 data r 3 0) fun r => at2 data r 4 0) :
    singleFitSurface ls s data = singleFitSurface ls' s data := by
  obtain ⟨Z, h1, hZ, hn⟩ := single_fit_surface_normal hls' hs fu fv hd hu hv
  rw [h1, single_fit_surface_eq hls hs fu fv hd hu hv hdet hZ hn]

/-- **C111.** Data on a surface with the given boundary control points and knots are recovered. -/
theorem single_fit_surface_recovers (hls : IsLstsq ls) (hs : ClampedSurface s)
    (fu : knotFn s.kvU s.degreeU < knotFn s.kvU (s.degreeU + 1))
    (fv : knotFn s.kvV s.degreeV < knotFn s.kvV (s.degreeV + 1)) (hd : Shape data m 5)
    (hu : ∀ r < m, knotFn s.kvU s.degreeU ≤ at2 data r 3 0 ∧ at2 data r 3 0 ≤ knotFn s.kvU s.numU)
    (hv : ∀ r < m, knotFn s.kvV s.degreeV ≤ at2 data r 4 0 ∧ at2 data r 4 0 ≤ knotFn s.kvV s.numV)
    (hdet : GridDetermined s m (fun r => at2 data r 3 0) fun r => at2 data r 4 0) {Z : List (List K)}
    (hZ : Shape Z (s.numU * s.numV) 3)
    (hb : ∀ i < s.numU, ∀ j < s.numV, OnBoundary s i j →
      Z.getD (i * s.numV + j) [] = s.ctrlpts.getD (i * s.numV + j) [])
    (hdata : ∀ r < m, ∀ k < 3, at2 data r k 0 = surface (knotFn s.kvU) s.degreeU s.numU (knotFn s.kvV) s.degreeV
      s.numV (coord Z k) (at2 data r 3 0) (at2 data r 4 0)) :
    singleFitSurface ls s data = .ok { s with ctrlpts := Z } := by
  refine single_fit_surface_eq hls hs fu fv hd hu hv hdet hZ fun k hk =>
    ⟨fun i hi j hj h => ?_, fun e _ => sum_eq_zero fun r hr => ?_⟩
  · unfold coord
    rw [hb i hi j hj h]
  · rw [hdata r (mem_range.1 hr) k hk, sub_self, zero_mul]

end

/-! ## C112: control points without data -/

section
variable {ls : ℕ → List (List K) → List K → List K} {c : Curve K} {data : List (List K)} {m n : ℕ}

/-- **C112.** With the solution of least norm, an inner control point without data in its support is put at the origin
of the coordinate system, wherever the data are. -/
theorem single_fit_curve_origin (hls : IsMinNormLstsq ls) (hU : Clamped c.degree n c.kv)
    (hfirst : knotFn c.kv c.degree < knotFn c.kv (c.degree + 1)) (hP : Shape c.ctrlpts n 3) (hd : Shape data m 4)
    (hdom : ∀ r < m, knotFn c.kv c.degree ≤ at2 data r 3 0 ∧ at2 data r 3 0 ≤ knotFn c.kv n) {j : ℕ} (hj : 1 ≤ j)
    (hjn : j + 1 < n)
    (hno : ∀ r < m, at2 data r 3 0 < knotFn c.kv j ∨ knotFn c.kv (j + c.degree + 1) < at2 data r 3 0) :
    ∃ c', singleFitCurve ls c data = .ok c' ∧ c'.ctrlpts.getD j [] = [0, 0, 0] := by
  have hsz := hU.size
  obtain ⟨M, hM, hs, hv, hun⟩ := single_fit_curve_unity hU hfirst hP.1 hd hdom
  obtain ⟨f, hf, hfl, hfv⟩ := curveMask_eq (n := n) (by omega)
  obtain ⟨new, hnew, hns, -⟩ := fitColumns_spec hls.toIsLstsq hs hd (by omega) hP hfl
  refine ⟨{ c with ctrlpts := new }, ?_, ?_⟩
  · unfold singleFitCurve
    rw [hM, ok_bind, hun, ok_bind, hP.1, hf, ok_bind, hnew, ok_bind]
  have hcol : ∀ r < m, at2 M r j 0 = 0 := by
    intro r hr
    rw [hv r hr j (by omega)]
    by_contra hne
    obtain ⟨h1, h2⟩ := Nclosed_support (monotone_knotFn hU.mono) hne
    rcases hno r hr with h | h
    · exact absurd (h.trans_le h1) (lt_irrefl _)
    · exact absurd (h.trans_le h2) (lt_irrefl _)
  have hzero : ∀ k < 3, coord new k j = 0 := by
    intro k hk
    obtain ⟨x, hx, hxc⟩ := fitColumns_columns hd (by omega) hP hnew k hk
    have l1 : (data.map fun row => row.getD k 0).length = m := by simp [hd.1]
    have l2 : (c.ctrlpts.map fun row => row.getD k 0).length = n := by simp [hP.1]
    obtain ⟨x', hx', hmin⟩ := linearFitFixed_minNorm hls (R := M) (Q := data.map fun row => row.getD k 0)
      (P := c.ctrlpts.map fun row => row.getD k 0) (fixed := f) (by rw [l1, l2]; exact hs) (by rw [l2]; exact hfl)
    cases Except.ok.inj (hx.symm.trans hx')
    have hfix := (linearFitFixed_ok hx).2
    rw [l2] at hmin hfix
    have hfj : f.getD j false = false := by
      rw [hfv j (by omega)]
      simp
      omega
    -- the vector with entry `j` replaced by zero has the same residual
    have := hmin (Function.update (fun i => x.getD i 0) j 0)
      (fun i hi hfi => by
        have hne : i ≠ j := by rintro rfl; rw [hfj] at hfi; cases hfi
        rw [Function.update_of_ne hne]
        exact hfix i hi hfi)
      (le_of_eq (by
        unfold sqResid
        rw [l1]
        refine sum_congr rfl fun r hr => ?_
        congr 2
        refine sum_congr rfl fun i hi => ?_
        by_cases hij : i = j
        · subst hij
          have := hcol r (mem_range.1 hr)
          unfold at2 at this
          rw [this, zero_mul, zero_mul]
        · rw [Function.update_of_ne hij]))
    rw [hxc j (by omega)]
    have e1 := sum_erase_add (range n) (fun i => if f.getD i false then 0 else x.getD i 0 ^ 2)
      (mem_range.2 (show j < n by omega))
    have e2 := sum_erase_add (range n)
      (fun i => if f.getD i false then 0 else Function.update (fun i => x.getD i 0) j 0 i ^ 2)
      (mem_range.2 (show j < n by omega))
    have e3 : ∑ i ∈ (range n).erase j, (if f.getD i false then 0 else x.getD i 0 ^ 2)
        = ∑ i ∈ (range n).erase j, if f.getD i false then 0 else Function.update (fun i => x.getD i 0) j 0 i ^ 2 := by
      refine sum_congr rfl fun i hi => ?_
      rw [Function.update_of_ne (ne_of_mem_erase hi)]
    rw [hfj, Function.update_self] at e2
    rw [hfj] at e1
    rw [← e1, ← e2, e3] at this
    simp only [Bool.false_eq_true, if_false] at this
    have h0 : x.getD j 0 ^ 2 ≤ 0 := by
      have h2 : (0 : K) ^ 2 = 0 := by ring
      linarith
    exact pow_eq_zero_iff two_ne_zero |>.1 (le_antisymm h0 (sq_nonneg _))
  have hl : (new.getD j []).length = 3 := hns.row (by omega)
  match hrow : new.getD j [], hl with
  | [a, b, d], _ =>
    have h0 := hzero 0 (by omega)
    have h1 := hzero 1 (by omega)
    have h2 := hzero 2 (by omega)
    unfold coord at h0 h1 h2
    rw [hrow] at h0 h1 h2
    simp at h0 h1 h2
    rw [h0, h1, h2]

/-- **C112.** So, without data for some inner control point, the fit of translated data is not the translated fit: C110
needs its hypothesis. -/
theorem single_fit_curve_not_translation_invariant (hls : IsMinNormLstsq ls) (hU : Clamped c.degree n c.kv)
    (hfirst : knotFn c.kv c.degree < knotFn c.kv (c.degree + 1)) (hP : Shape c.ctrlpts n 3) (hd : Shape data m 4)
    (hdom : ∀ r < m, knotFn c.kv c.degree ≤ at2 data r 3 0 ∧ at2 data r 3 0 ≤ knotFn c.kv n) {j : ℕ} (hj : 1 ≤ j)
    (hjn : j + 1 < n)
    (hno : ∀ r < m, at2 data r 3 0 < knotFn c.kv j ∨ knotFn c.kv (j + c.degree + 1) < at2 data r 3 0) {b : ℕ → K}
    {k : ℕ} (hk : k < 3) (hb : b k ≠ 0) :
    ∃ c', singleFitCurve ls c data = .ok c' ∧
      singleFitCurve ls { c with ctrlpts := c.ctrlpts.map (affineRow (fun i j => if i = j then 1 else 0) b) }
          (data.map (affineData (fun i j => if i = j then 1 else 0) b))
        ≠ .ok { c' with ctrlpts := c'.ctrlpts.map (affineRow (fun i j => if i = j then 1 else 0) b) } := by
  obtain ⟨c', hc, h0⟩ := single_fit_curve_origin hls hU hfirst hP hd hdom hj hjn hno
  refine ⟨c', hc, fun h => hb ?_⟩
  have hpar : ∀ r < m, at2 (data.map (affineData (fun i j => if i = j then 1 else 0) b)) r 3 0 = at2 data r 3 0 :=
    fun r hr => (at2_map_affineData hd hr).1
  have hd' : Shape (data.map (affineData (fun i j => if i = j then 1 else 0) b)) m 4 := by
    refine ⟨by simp [hd.1], fun row hrow => ?_⟩
    obtain ⟨r, -, rfl⟩ := List.mem_map.1 hrow
    simp [affineData, affineRow]
  obtain ⟨c'', hc', h0'⟩ := single_fit_curve_origin
    (c := { c with ctrlpts := c.ctrlpts.map (affineRow (fun i j => if i = j then 1 else 0) b) }) hls hU hfirst
    hP.map_affineRow hd' (fun r hr => by rw [hpar r hr]; exact hdom r hr) hj hjn
    (fun r hr => by rw [hpar r hr]; exact hno r hr)
  cases Except.ok.inj (hc'.symm.trans h)
  have hlen : j < c'.ctrlpts.length := by
    have := (single_fit_curve_keeps ls c c' data hc hP.2).2.2.1.1
    rw [this, hP.1]
    omega
  have e : (c'.ctrlpts.map (affineRow (fun i j => if i = j then (1 : K) else 0) b)).getD j []
      = affineRow (fun i j => if i = j then 1 else 0) b (c'.ctrlpts.getD j []) := by
    simp [List.getD_eq_getElem?_getD, hlen]
  have h1 := h0'
  dsimp only at h1
  rw [e, h0] at h1
  unfold affineRow at h1
  match k, hk with
  | 0, _ => simpa [List.range_succ_eq_map] using (List.cons.inj h1).1
  | 1, _ => simpa [List.range_succ_eq_map] using congrArg (fun l => l.getD 1 0) h1
  | 2, _ => simpa [List.range_succ_eq_map] using congrArg (fun l => l.getD 2 0) h1

end

/-! ## Examples -/

section Examples

/-- A cubic with one inner knot: three free control points. -/
def exWhitney : Curve ℚ :=
  ⟨3, [[0, 0, 0], [1, 0, 0], [2, 1, 0], [3, 0, 1], [4, 0, 0]], [0, 0, 0, 0, 1/2, 1, 1, 1, 1]⟩

theorem exWhitney_clamped : Clamped 3 5 exWhitney.kv where
  len := by decide +kernel
  mono := by decide +kernel
  size := by decide
  left := by intro i hi; interval_cases i <;> decide +kernel
  right := by intro i h1 h2; interval_cases i <;> decide +kernel

/-- Four data points, the first three of which determine the curve. -/
def exWhitneyData : List (List ℚ) := [[1, 2, 3, 1/4], [2, 0, 1, 1/2], [3, 3, 3, 3/4], [5, 0, 1, 1/4]]

theorem exWhitney_determined : Determined 3 5 (knotFn exWhitney.kv) 4 fun r => at2 exWhitneyData r 3 0 :=
  ⟨fun j => j - 1, by intro j h1 h2; have : j < 4 := by omega
                      interval_cases j <;> decide +kernel,
    by intro j h1 h2; have : j < 3 := by omega
       interval_cases j <;> decide +kernel⟩

/-- C109: all solvers give the same curve. -/
example (ls ls' : ℕ → List (List ℚ) → List ℚ → List ℚ) (hls : IsLstsq ls) (hls' : IsLstsq ls') :
    singleFitCurve ls exWhitney exWhitneyData = singleFitCurve ls' exWhitney exWhitneyData :=
  single_fit_curve_solver (m := 4) hls hls' exWhitney_clamped (by decide) (by decide +kernel) ⟨rfl, by decide +kernel⟩
    ⟨rfl, by decide +kernel⟩ (by intro r hr; interval_cases r <;> decide +kernel) exWhitney_determined

/-- C109: data on a curve with other inner control points. -/
def exWhitneyTarget : List (List ℚ) := [[0, 0, 0], [5, -1, 2], [0, 1, 7], [-3, 2, 1], [4, 0, 0]]

def exWhitneySamples : List (List ℚ) :=
  [[23/8, -9/32, 95/32, 1/4], [1/2, 3/4, 17/4, 1/2], [-9/8, 45/32, 77/32, 3/4]]

example (ls : ℕ → List (List ℚ) → List ℚ → List ℚ) (hls : IsLstsq ls) :
    singleFitCurve ls exWhitney exWhitneySamples = .ok { exWhitney with ctrlpts := exWhitneyTarget } :=
  single_fit_curve_recovers (m := 3) hls exWhitney_clamped (by decide) (by decide +kernel) ⟨rfl, by decide +kernel⟩
    ⟨rfl, by decide +kernel⟩ (by intro r hr; interval_cases r <;> decide +kernel)
    ⟨fun j => j - 1, by intro j h1 h2; have : j < 4 := Nat.lt_of_succ_lt_succ h2
                        interval_cases j <;> decide +kernel,
      by intro j h1 h2; have : j < 3 := Nat.lt_of_succ_lt_succ (Nat.lt_of_succ_lt_succ h2)
         interval_cases j <;> decide +kernel⟩
    ⟨rfl, by decide +kernel⟩ rfl rfl
    (by intro r hr k hk; interval_cases r <;> interval_cases k <;> decide +kernel)

/-- C110: the same data in another order. -/
example (ls : ℕ → List (List ℚ) → List ℚ → List ℚ) (hls : IsLstsq ls) :
    singleFitCurve ls exWhitney exWhitneyData.reverse = singleFitCurve ls exWhitney exWhitneyData :=
  single_fit_curve_perm (m := 4) hls exWhitney_clamped (by decide) (by decide +kernel) ⟨rfl, by decide +kernel⟩
    ⟨rfl, by decide +kernel⟩ (by intro r hr; interval_cases r <;> decide +kernel) exWhitney_determined
    (List.reverse_perm _)

/-- C111: two data points determine the two inner control points of `exS`. -/
def exSData : List (List ℚ) := [[1, 1, 7, 1/4, 1/2], [2, 1, -3, 3/4, 1/2]]

theorem exS_determined : GridDetermined exS 2 (fun r => at2 exSData r 3 0) fun r => at2 exSData r 4 0 :=
  ⟨fun i => if i = 1 then 1/4 else 3/4, fun _ => 1/2, fun i _ => i - 1,
    by intro i h1 h2; have : i < 3 := Nat.lt_of_succ_lt_succ h2
       interval_cases i <;> decide +kernel,
    by intro i h1 h2; have : i < 2 := Nat.lt_of_succ_lt_succ (Nat.lt_of_succ_lt_succ h2)
       interval_cases i; decide +kernel,
    by intro i h1 h2; have : i < 2 := Nat.lt_of_succ_lt_succ h2
       interval_cases i; decide +kernel,
    by intro i h1 h2; have : i < 1 := Nat.lt_of_succ_lt_succ (Nat.lt_of_succ_lt_succ h2)
       omega,
    by intro i j h1 h2 h3 h4
       have : i < 3 := Nat.lt_of_succ_lt_succ h2
       have : j < 2 := Nat.lt_of_succ_lt_succ h4
       interval_cases i <;> interval_cases j <;> decide +kernel⟩

example (ls ls' : ℕ → List (List ℚ) → List ℚ → List ℚ) (hls : IsLstsq ls) (hls' : IsLstsq ls') :
    singleFitSurface ls exS exSData = singleFitSurface ls' exS exSData :=
  single_fit_surface_solver (m := 2) hls hls' exS_clamped (by decide +kernel)
    (by decide +kernel) ⟨rfl, by decide +kernel⟩ (by intro r hr; interval_cases r <;> decide +kernel)
    (by intro r hr; interval_cases r <;> decide +kernel) exS_determined

/-- C112: data near `(100, 100, 100)` for the start of a curve; the inner control points beyond are put at the
origin. -/
example (ls : ℕ → List (List ℚ) → List ℚ → List ℚ) (hls : IsMinNormLstsq ls) :
    ∃ c', singleFitCurve ls ⟨2, [[99, 100, 100], [100, 100, 100], [101, 100, 100], [102, 100, 100], [103, 100, 100],
        [104, 100, 100]], exU⟩ [[99, 101, 100, 1/8], [100, 100, 99, 3/16]] = .ok c' ∧
      c'.ctrlpts.getD 4 [] = [0, 0, 0] :=
  single_fit_curve_origin (m := 2) hls exU_clamped (by decide +kernel) ⟨rfl, by decide +kernel⟩
    ⟨rfl, by decide +kernel⟩ (by intro r hr; interval_cases r <;> decide +kernel) (by decide) (by decide)
    (by intro r hr; interval_cases r <;> decide +kernel)

/-- Such solvers exist. -/
example : ∃ ls, IsMinNormLstsq (K := ℚ) ls := exists_minNorm

end Examples

end PySpline
