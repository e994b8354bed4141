import Verif.Props.FitUnique
import Verif.Lemmas.FittingAux

/-!
# C179: surface fits of data on a grid are curve fits in both directions
-/

set_option linter.unusedSectionVars false

namespace PySpline

open Spec Finset

variable {K : Type} [Field K] [LinearOrder K] [IsStrictOrderedRing K]

/-- The data lie on a grid: datum `a * mv + b` has the parameters `(u a, v b)`. -/
structure OnGrid (data : List (List K)) (mu mv : ℕ) (u v : ℕ → K) : Prop where
  shape : Shape data (mu * mv) 5
  par : ∀ a < mu, ∀ b < mv, at2 data (a * mv + b) 3 0 = u a ∧ at2 data (a * mv + b) 4 0 = v b

/-- The first sweep: for every `b`, the data with the second parameter `v b` are fitted by a curve in the first direction,
whose ends are taken from the edges of the surface at `v b`.  The curve `cu b` is the result. -/
structure SweepU (s : Surface K) (data : List (List K)) (mu mv : ℕ) (u v : ℕ → K) (cu : ℕ → Curve K) : Prop where
  fit : ∀ b < mv, ∃ (ls : ℕ → List (List K) → List K → List K) (P rows : List (List K)), IsLstsq ls ∧
    Shape P s.numU 3 ∧ Shape rows mu 4 ∧
    (∀ k < 3, coord P k 0 = curve (knotFn s.kvV) s.degreeV s.numV (coord s.ctrlpts k) (v b) ∧
      coord P k (s.numU - 1) = curve (knotFn s.kvV) s.degreeV s.numV
        (fun j => coord s.ctrlpts k ((s.numU - 1) * s.numV + j)) (v b)) ∧
    (∀ a < mu, at2 rows a 3 0 = u a ∧ ∀ k < 3, at2 rows a k 0 = at2 data (a * mv + b) k 0) ∧
    singleFitCurve ls ⟨s.degreeU, P, s.kvU⟩ rows = .ok (cu b)

/-- The second sweep: for every `i` between the edges, the control points `i` of the curves of the first sweep are fitted by a
curve in the second direction, whose ends are the boundary control points of the surface.  The curve `cv i` is the result. -/
structure SweepV (s : Surface K) (mv : ℕ) (v : ℕ → K) (cu cv : ℕ → Curve K) : Prop where
  fit : ∀ i, 1 ≤ i → i + 1 < s.numU → ∃ (ls : ℕ → List (List K) → List K → List K) (P rows : List (List K)), IsLstsq ls ∧
    Shape P s.numV 3 ∧ Shape rows mv 4 ∧
    (∀ k < 3, coord P k 0 = coord s.ctrlpts k (i * s.numV) ∧
      coord P k (s.numV - 1) = coord s.ctrlpts k (i * s.numV + (s.numV - 1))) ∧
    (∀ b < mv, at2 rows b 3 0 = v b ∧ ∀ k < 3, at2 rows b k 0 = coord (cu b).ctrlpts k i) ∧
    singleFitCurve ls ⟨s.degreeV, P, s.kvV⟩ rows = .ok (cv i)

section
variable {U V : ℕ → K} {p q n m : ℕ}

/-- A tensor-product function is a curve whose coefficients are curves. -/
theorem surface_sweepU (c : ℕ → K) (u v : K) :
    surface U p n V q m c u v = curve U p n (fun i => curve V q m (fun j => c (i * m + j)) v) u := by
  unfold surface curve
  refine sum_congr rfl fun i _ => ?_
  rw [sum_mul]
  exact sum_congr rfl fun j _ => by ring

theorem surface_sweepV (c : ℕ → K) (u v : K) :
    surface U p n V q m c u v = curve V q m (fun j => curve U p n (fun i => c (i * m + j)) u) v := by
  unfold surface curve
  rw [sum_comm]
  refine sum_congr rfl fun j _ => ?_
  rw [sum_mul]

end

section
variable {s : Surface K} {data : List (List K)} {mu mv : ℕ} {u v : ℕ → K} {cu cv : ℕ → Curve K}

local notation "srf" => surface (knotFn s.kvU) s.degreeU s.numU (knotFn s.kvV) s.degreeV s.numV

/-- The control points of the second sweep satisfy the normal equations of the surface fit. -/
theorem sweeps_normal (hs : ClampedSurface s) (fu : knotFn s.kvU s.degreeU < knotFn s.kvU (s.degreeU + 1))
    (fv : knotFn s.kvV s.degreeV < knotFn s.kvV (s.degreeV + 1))
    (hu : ∀ a < mu, knotFn s.kvU s.degreeU ≤ u a ∧ u a ≤ knotFn s.kvU s.numU)
    (hv : ∀ b < mv, knotFn s.kvV s.degreeV ≤ v b ∧ v b ≤ knotFn s.kvV s.numV)
    (hcu : SweepU s data mu mv u v cu) (hcv : SweepV s mv v cu cv) {k : ℕ} (hk : k < 3) {w : ℕ → K}
    (hwb : ∀ i < s.numU, ∀ j < s.numV, OnBoundary s i j → w (i * s.numV + j) = coord s.ctrlpts k (i * s.numV + j))
    (hwi : ∀ i < s.numU, ∀ j < s.numV, ¬ OnBoundary s i j → w (i * s.numV + j) = coord (cv i).ctrlpts k j)
    {e : ℕ → K} (he : ∀ i < s.numU, ∀ j < s.numV, OnBoundary s i j → e (i * s.numV + j) = 0) :
    ∑ a ∈ range mu, ∑ b ∈ range mv, (srf w (u a) (v b) - at2 data (a * mv + b) k 0) * srf e (u a) (v b) = 0 := by
  have su := hs.cu.size
  have sv := hs.cv.size
  have pu := hs.du
  have pv := hs.dv
  -- the first sweep
  have h1 : ∀ b < mv, coord (cu b).ctrlpts k 0 = curve (knotFn s.kvV) s.degreeV s.numV (coord s.ctrlpts k) (v b) ∧
      coord (cu b).ctrlpts k (s.numU - 1) = curve (knotFn s.kvV) s.degreeV s.numV
        (fun j => coord s.ctrlpts k ((s.numU - 1) * s.numV + j)) (v b) ∧
      ∀ g : ℕ → K, g 0 = 0 → g (s.numU - 1) = 0 → ∑ a ∈ range mu,
        (curve (knotFn s.kvU) s.degreeU s.numU (coord (cu b).ctrlpts k) (u a) - at2 data (a * mv + b) k 0)
          * curve (knotFn s.kvU) s.degreeU s.numU g (u a) = 0 := by
    intro b hb
    obtain ⟨ls, P, rows, hls, hP, hrows, hends, hr, hf⟩ := hcu.fit b hb
    obtain ⟨c', hc', -, -, -, hn⟩ := single_fit_curve_normal (c := ⟨s.degreeU, P, s.kvU⟩) hls hs.cu fu hP hrows
      (fun a ha => by rw [(hr a ha).1]; exact hu a ha)
    cases Except.ok.inj (hf.symm.trans hc')
    obtain ⟨e0, e1, hn⟩ := hn k hk
    dsimp only at e0 e1 hn
    refine ⟨e0.trans (hends k hk).1, e1.trans (hends k hk).2, fun g g0 g1 => ?_⟩
    refine Eq.trans (sum_congr rfl fun a ha => ?_) (hn g g0 g1)
    rw [(hr a (mem_range.1 ha)).1, (hr a (mem_range.1 ha)).2 k hk]
  -- the second sweep
  have h2 : ∀ i < s.numU, ∀ g : ℕ → K, g 0 = 0 → g (s.numV - 1) = 0 → ∑ b ∈ range mv,
      (curve (knotFn s.kvV) s.degreeV s.numV (fun j => w (i * s.numV + j)) (v b) - coord (cu b).ctrlpts k i)
        * curve (knotFn s.kvV) s.degreeV s.numV g (v b) = 0 := by
    intro i hi g g0 g1
    by_cases hi0 : i = 0
    · subst hi0
      refine sum_eq_zero fun b hb => ?_
      rw [(h1 b (mem_range.1 hb)).1, curve_congr (e := coord s.ctrlpts k) fun j hj => ?_, sub_self, zero_mul]
      rw [hwb 0 hi j hj (.inl rfl), zero_mul, zero_add]
    by_cases hi1 : i + 1 = s.numU
    · obtain rfl : i = s.numU - 1 := by omega
      refine sum_eq_zero fun b hb => ?_
      rw [(h1 b (mem_range.1 hb)).2.1,
        curve_congr (e := fun j => coord s.ctrlpts k ((s.numU - 1) * s.numV + j)) fun j hj => ?_, sub_self, zero_mul]
      exact hwb _ hi j hj (.inr (.inl hi1))
    obtain ⟨ls, P, rows, hls, hP, hrows, hends, hr, hf⟩ := hcv.fit i (by omega) (by omega)
    obtain ⟨c', hc', -, -, -, hn⟩ := single_fit_curve_normal (c := ⟨s.degreeV, P, s.kvV⟩) hls hs.cv fv hP hrows
      (fun b hb => by rw [(hr b hb).1]; exact hv b hb)
    cases Except.ok.inj (hf.symm.trans hc')
    obtain ⟨e0, e1, hn⟩ := hn k hk
    dsimp only at e0 e1 hn
    refine Eq.trans (sum_congr rfl fun b hb => ?_) (hn g g0 g1)
    rw [(hr b (mem_range.1 hb)).1, (hr b (mem_range.1 hb)).2 k hk,
      curve_congr (e := coord (cv i).ctrlpts k) fun j hj => ?_]
    by_cases hj0 : j = 0
    · subst hj0
      rw [hwb i hi 0 hj (.inr (.inr (.inl rfl))), e0, (hends k hk).1, add_zero]
    by_cases hj1 : j + 1 = s.numV
    · obtain rfl : j = s.numV - 1 := by omega
      rw [hwb i hi _ hj (.inr (.inr (.inr hj1))), e1, (hends k hk).2]
    exact hwi i hi j hj (by unfold OnBoundary; omega)
  -- split the residual
  have hsplit : ∀ a b, (srf w (u a) (v b) - at2 data (a * mv + b) k 0) * srf e (u a) (v b)
      = (curve (knotFn s.kvU) s.degreeU s.numU (coord (cu b).ctrlpts k) (u a) - at2 data (a * mv + b) k 0)
          * curve (knotFn s.kvU) s.degreeU s.numU
            (fun i => curve (knotFn s.kvV) s.degreeV s.numV (fun j => e (i * s.numV + j)) (v b)) (u a)
        + ∑ i ∈ range s.numU, Nclosed (knotFn s.kvU) s.degreeU s.numU i (u a) *
          ((curve (knotFn s.kvV) s.degreeV s.numV (fun j => w (i * s.numV + j)) (v b) - coord (cu b).ctrlpts k i)
            * curve (knotFn s.kvV) s.degreeV s.numV
              (fun j => curve (knotFn s.kvU) s.degreeU s.numU (fun i => e (i * s.numV + j)) (u a)) (v b)) := by
    intro a b
    rw [← surface_sweepU, ← surface_sweepV, surface_sweepU w]
    have : ∑ i ∈ range s.numU, Nclosed (knotFn s.kvU) s.degreeU s.numU i (u a) *
          ((curve (knotFn s.kvV) s.degreeV s.numV (fun j => w (i * s.numV + j)) (v b) - coord (cu b).ctrlpts k i)
            * srf e (u a) (v b))
        = (curve (knotFn s.kvU) s.degreeU s.numU
            (fun i => curve (knotFn s.kvV) s.degreeV s.numV (fun j => w (i * s.numV + j)) (v b)) (u a)
          - curve (knotFn s.kvU) s.degreeU s.numU (coord (cu b).ctrlpts k) (u a)) * srf e (u a) (v b) := by
      conv_rhs => unfold curve
      rw [← sum_sub_distrib, sum_mul]
      refine sum_congr rfl fun i _ => ?_
      unfold curve
      ring
    rw [this]
    ring
  simp only [hsplit, sum_add_distrib]
  have z1 : ∑ a ∈ range mu, ∑ b ∈ range mv,
      (curve (knotFn s.kvU) s.degreeU s.numU (coord (cu b).ctrlpts k) (u a) - at2 data (a * mv + b) k 0)
          * curve (knotFn s.kvU) s.degreeU s.numU
            (fun i => curve (knotFn s.kvV) s.degreeV s.numV (fun j => e (i * s.numV + j)) (v b)) (u a) = 0 := by
    rw [sum_comm]
    refine sum_eq_zero fun b hb => (h1 b (mem_range.1 hb)).2.2 _ ?_ ?_
    · unfold curve
      refine sum_eq_zero fun j hj => ?_
      dsimp only
      rw [he 0 (by omega) j (mem_range.1 hj) (.inl rfl), zero_mul]
    · unfold curve
      refine sum_eq_zero fun j hj => ?_
      dsimp only
      rw [he _ (by omega) j (mem_range.1 hj) (.inr (.inl (by omega))), zero_mul]
  rw [z1, zero_add]
  refine sum_eq_zero fun a _ => ?_
  rw [sum_comm]
  refine sum_eq_zero fun i hi => ?_
  rw [← mul_sum, h2 i (mem_range.1 hi), mul_zero]
  · unfold curve
    refine sum_eq_zero fun i hi => ?_
    dsimp only
    rw [he i (mem_range.1 hi) 0 (by omega) (.inr (.inr (.inl rfl))), zero_mul]
  · unfold curve
    refine sum_eq_zero fun i hi => ?_
    dsimp only
    rw [he i (mem_range.1 hi) _ (by omega) (.inr (.inr (.inr (by omega)))), zero_mul]

/-- **C179.** A surface fit of data on a grid can be done by curve fits: fit the data for every fixed second parameter by a curve
in the first direction, then the control points of these curves by curves in the second direction.  The surface with the
resulting control points takes the same values at the data as the result of `single_fit_surface`; and if the parameters
determine the curves in both directions, its control points are those of `single_fit_surface`. -/
theorem single_fit_surface_grid (hs : ClampedSurface s) (fu : knotFn s.kvU s.degreeU < knotFn s.kvU (s.degreeU + 1))
    (fv : knotFn s.kvV s.degreeV < knotFn s.kvV (s.degreeV + 1)) (hd : OnGrid data mu mv u v)
    (hu : ∀ a < mu, knotFn s.kvU s.degreeU ≤ u a ∧ u a ≤ knotFn s.kvU s.numU)
    (hv : ∀ b < mv, knotFn s.kvV s.degreeV ≤ v b ∧ v b ≤ knotFn s.kvV s.numV)
    (hcu : SweepU s data mu mv u v cu) (hcv : SweepV s mv v cu cv)
    {ls : ℕ → List (List K) → List K → List K} (hls : IsLstsq ls) :
    ∃ Z, singleFitSurface ls s data = .ok { s with ctrlpts := Z } ∧ ∀ k < 3,
      (∀ w : ℕ → K,
        (∀ i < s.numU, ∀ j < s.numV, OnBoundary s i j → w (i * s.numV + j) = coord s.ctrlpts k (i * s.numV + j)) →
        (∀ i < s.numU, ∀ j < s.numV, ¬ OnBoundary s i j → w (i * s.numV + j) = coord (cv i).ctrlpts k j) →
        ∀ a < mu, ∀ b < mv, srf (coord Z k) (u a) (v b) = srf w (u a) (v b)) ∧
      (Determined s.degreeU s.numU (knotFn s.kvU) mu u → Determined s.degreeV s.numV (knotFn s.kvV) mv v →
        ∀ i < s.numU, ∀ j < s.numV, ¬ OnBoundary s i j → coord Z k (i * s.numV + j) = coord (cv i).ctrlpts k j) := by
  have sv := hs.cv.size
  have hpar : ∀ r < mu * mv, r / mv < mu ∧ r % mv < mv ∧ r / mv * mv + r % mv = r := fun r hr => by
    have : 0 < mv := by
      rcases Nat.eq_zero_or_pos mv with h | h
      · rw [h] at hr; omega
      · exact h
    exact ⟨Nat.div_lt_of_lt_mul (by rwa [mul_comm]), Nat.mod_lt _ this, Nat.div_add_mod' r mv⟩
  have hp3 : ∀ r < mu * mv, at2 data r 3 0 = u (r / mv) ∧ at2 data r 4 0 = v (r % mv) := fun r hr => by
    obtain ⟨a1, a2, a3⟩ := hpar r hr
    have := hd.par _ a1 _ a2
    rwa [a3] at this
  obtain ⟨Z, hZ, -, hn⟩ := single_fit_surface_normal hls hs fu fv hd.shape
    (fun r hr => by rw [(hp3 r hr).1]; exact hu _ (hpar r hr).1)
    (fun r hr => by rw [(hp3 r hr).2]; exact hv _ (hpar r hr).2.1)
  refine ⟨Z, hZ, fun k hk => ?_⟩
  obtain ⟨hb, hn⟩ := hn k hk
  have hgrid : ∀ (x e : ℕ → K), ∑ r ∈ range (mu * mv),
      (srf x (at2 data r 3 0) (at2 data r 4 0) - at2 data r k 0) * srf e (at2 data r 3 0) (at2 data r 4 0)
      = ∑ a ∈ range mu, ∑ b ∈ range mv,
        (srf x (u a) (v b) - at2 data (a * mv + b) k 0) * srf e (u a) (v b) := fun x e => by
    rw [sum_grid]
    refine sum_congr rfl fun a ha => sum_congr rfl fun b hb => ?_
    rw [(hd.par a (mem_range.1 ha) b (mem_range.1 hb)).1, (hd.par a (mem_range.1 ha) b (mem_range.1 hb)).2]
  have hw : ∀ w : ℕ → K,
      (∀ i < s.numU, ∀ j < s.numV, OnBoundary s i j → w (i * s.numV + j) = coord s.ctrlpts k (i * s.numV + j)) →
      (∀ i < s.numU, ∀ j < s.numV, ¬ OnBoundary s i j → w (i * s.numV + j) = coord (cv i).ctrlpts k j) →
      ∀ e : ℕ → K, (∀ i < s.numU, ∀ j < s.numV, OnBoundary s i j → e (i * s.numV + j) = 0) → ∑ r ∈ range (mu * mv),
        (srf w (at2 data r 3 0) (at2 data r 4 0) - at2 data r k 0) * srf e (at2 data r 3 0) (at2 data r 4 0) = 0 :=
    fun w w1 w2 e he => (hgrid w e).trans (sweeps_normal hs fu fv hu hv hcu hcv hk w1 w2 he)
  constructor
  · intro w w1 w2 a ha b hb'
    have hz : ∀ i < s.numU, ∀ j < s.numV, OnBoundary s i j →
        (fun l => coord Z k l + (-1) * w l) (i * s.numV + j) = 0 := fun i hi j hj h => by
      dsimp only
      rw [hb i hi j hj h, w1 i hi j hj h]
      ring
    have := (hn (fun l => coord Z k l + (-1) * w l) hz).trans (hw w w1 w2 (fun l => coord Z k l + (-1) * w l) hz).symm
    rw [hgrid, hgrid, ← sub_eq_zero, ← sum_sub_distrib] at this
    simp only [← sum_sub_distrib] at this
    have hsq : ∑ a ∈ range mu, ∑ b ∈ range mv, (srf (coord Z k) (u a) (v b) - srf w (u a) (v b)) ^ 2 = 0 := by
      refine Eq.trans (sum_congr rfl fun a _ => sum_congr rfl fun b _ => ?_) this
      rw [surface_add_mul]
      ring
    have h1 := (sum_eq_zero_iff_of_nonneg fun a _ => sum_nonneg fun b _ => sq_nonneg _).1 hsq a (mem_range.2 ha)
    have h2 := (sum_eq_zero_iff_of_nonneg fun b _ => sq_nonneg _).1 h1 b (mem_range.2 hb')
    exact sub_eq_zero.1 (pow_eq_zero_iff two_ne_zero |>.1 h2)
  · rintro ⟨ru, hru, hru'⟩ ⟨rv, hrv, hrv'⟩ i hi j hj hij
    have hdm : ∀ l l', l' < s.numV → (l * s.numV + l') / s.numV = l ∧ (l * s.numV + l') % s.numV = l' := fun l l' hl => by
      constructor
      · rw [mul_comm, Nat.mul_add_div (by omega), Nat.div_eq_of_lt hl, add_zero]
      · rw [mul_comm, Nat.mul_add_mod, Nat.mod_eq_of_lt hl]
    classical
    set w : ℕ → K := fun l => if OnBoundary s (l / s.numV) (l % s.numV) then coord s.ctrlpts k l
      else coord (cv (l / s.numV)).ctrlpts k (l % s.numV) with hwdef
    have w1 : ∀ i < s.numU, ∀ j < s.numV, OnBoundary s i j →
        w (i * s.numV + j) = coord s.ctrlpts k (i * s.numV + j) := fun i _ j hj h => by
      simp only [hwdef]
      rw [(hdm i j hj).1, (hdm i j hj).2, if_pos h]
    have w2 : ∀ i < s.numU, ∀ j < s.numV, ¬ OnBoundary s i j →
        w (i * s.numV + j) = coord (cv i).ctrlpts k j := fun i _ j hj h => by
      simp only [hwdef]
      rw [(hdm i j hj).1, (hdm i j hj).2, if_neg h]
    have hdet : GridDetermined s (mu * mv) (fun r => at2 data r 3 0) fun r => at2 data r 4 0 := by
      refine ⟨fun i => u (ru i), fun j => v (rv j), fun i j => ru i * mv + rv j, fun i h1 h2 => (hru i h1 h2).2, hru',
        fun j h1 h2 => (hrv j h1 h2).2, hrv', fun i j i1 i2 j1 j2 => ?_⟩
      have ha := (hru i i1 i2).1
      have hb := (hrv j j1 j2).1
      refine ⟨?_, hd.par _ ha _ hb⟩
      calc ru i * mv + rv j < ru i * mv + mv := by omega
        _ = (ru i + 1) * mv := by ring
        _ ≤ mu * mv := Nat.mul_le_mul_right _ ha
    rw [surface_normal_unique hs hdet (x := w) (z := coord Z k) (d := fun r => at2 data r k 0)
      (fun i hi j hj h => (hb i hi j hj h).trans (w1 i hi j hj h).symm) (hw w w1 w2) hn i hi j hj]
    exact w2 i hi j hj hij

end

section Examples

/-- A surface of degree 1 with one inner control point over a flat frame. -/
def exGridSurface : Surface ℚ where
  degreeU := 1
  degreeV := 1
  numU := 3
  numV := 3
  ctrlpts := [[0, 0, 0], [0, 1, 0], [0, 2, 0], [1, 0, 0], [1, 1, 7], [1, 2, 0], [2, 0, 0], [2, 1, 0], [2, 2, 0]]
  kvU := [0, 0, 1, 2, 2]
  kvV := [0, 0, 1, 2, 2]

def exGridPar (a : ℕ) : ℚ := (a + 1) / 2

/-- Data over the frame: nine points, all of height 0 except the middle one. -/
def exGridData : List (List ℚ) :=
  (List.range 9).map fun r => [exGridPar (r / 3), exGridPar (r % 3), if r = 4 then 9 else 0, exGridPar (r / 3), exGridPar (r % 3)]

/-- The curves of the first sweep. -/
def exGridU (b : ℕ) : Curve ℚ :=
  ⟨1, [[0, exGridPar b, 0], [1, exGridPar b, if b = 1 then 6 else 0], [2, exGridPar b, 0]], [0, 0, 1, 2, 2]⟩

/-- The curve of the second sweep. -/
def exGridV : Curve ℚ := ⟨1, [[1, 0, 0], [1, 1, 4], [1, 2, 0]], [0, 0, 1, 2, 2]⟩

theorem exGrid_kv : Clamped 1 3 ([0, 0, 1, 2, 2] : List ℚ) :=
  ⟨⟨by decide +kernel, by decide +kernel, by decide⟩, by intro i hi; interval_cases i <;> decide +kernel,
    by intro i h1 h2; interval_cases i <;> decide +kernel⟩

theorem exGridSurface_clamped : ClampedSurface exGridSurface :=
  ⟨exGrid_kv, exGrid_kv, le_rfl, le_rfl, ⟨rfl, by decide +kernel⟩⟩

theorem exGrid_determined : Determined 1 3 (knotFn ([0, 0, 1, 2, 2] : List ℚ)) 3 exGridPar :=
  ⟨fun _ => 1, fun j h1 h2 => by obtain rfl : j = 1 := by omega
                                 decide +kernel, fun j h1 h2 => by omega⟩

theorem exGrid_dom : ∀ a < 3, knotFn ([0, 0, 1, 2, 2] : List ℚ) 1 ≤ exGridPar a ∧
    exGridPar a ≤ knotFn ([0, 0, 1, 2, 2] : List ℚ) 3 := by decide +kernel

/-- A curve with vanishing ends is a multiple of the middle basis function. -/
theorem exGrid_curve (e : ℕ → ℚ) (h0 : e 0 = 0) (h1 : e 2 = 0) (u : ℚ) :
    curve (knotFn ([0, 0, 1, 2, 2] : List ℚ)) 1 3 e u = e 1 * Nclosed (knotFn ([0, 0, 1, 2, 2] : List ℚ)) 1 3 1 u := by
  unfold curve
  simp [sum_range_succ, h0, h1]

/-- What has to be checked for a curve of the example to be the result of a fit. -/
theorem exGrid_fit {ls : ℕ → List (List ℚ) → List ℚ → List ℚ} (hls : IsLstsq ls) {P rows Z : List (List ℚ)}
    (hP : Shape P 3 3) (hrows : Shape rows 3 4) (hpar : ∀ a < 3, at2 rows a 3 0 = exGridPar a) (hZ : Shape Z 3 3)
    (h : ∀ k < 3, coord Z k 0 = coord P k 0 ∧ coord Z k 2 = coord P k 2 ∧
      ∑ r ∈ range 3, (curve (knotFn ([0, 0, 1, 2, 2] : List ℚ)) 1 3 (coord Z k) (exGridPar r) - at2 rows r k 0)
        * Nclosed (knotFn ([0, 0, 1, 2, 2] : List ℚ)) 1 3 1 (exGridPar r) = 0) :
    singleFitCurve ls ⟨1, P, [0, 0, 1, 2, 2]⟩ rows = .ok ⟨1, Z, [0, 0, 1, 2, 2]⟩ := by
  have := single_fit_curve_eq (m := 3) (n := 3) hls (c := ⟨1, P, [0, 0, 1, 2, 2]⟩) (data := rows) exGrid_kv le_rfl
    (show knotFn ([0, 0, 1, 2, 2] : List ℚ) 1 < knotFn ([0, 0, 1, 2, 2] : List ℚ) 2 by decide +kernel) hP hrows (fun r hr => by rw [hpar r hr]; exact exGrid_dom r hr)
    (by
      obtain ⟨r, h1, h2⟩ := exGrid_determined
      refine ⟨r, fun j j1 j2 => ?_, fun j j1 j2 => by omega⟩
      have := h1 j j1 j2
      rwa [← hpar _ this.1] at this)
    (Z := Z) hZ fun k hk => ⟨(h k hk).1, (h k hk).2.1, fun e e0 e1 => ?_⟩
  · exact this
  · refine Eq.trans (sum_congr rfl fun r hr => ?_) (Eq.trans (mul_sum _ _ _).symm
      ((congrArg (e 1 * ·) (h k hk).2.2).trans (mul_zero _)))
    dsimp only
    rw [hpar r (mem_range.1 hr), exGrid_curve e e0 e1]
    ring

theorem exGrid_sweepU {ls : ℕ → List (List ℚ) → List ℚ → List ℚ} (hls : IsLstsq ls) :
    SweepU exGridSurface exGridData 3 3 exGridPar exGridPar exGridU := by
  refine ⟨fun b hb => ⟨ls, [[0, exGridPar b, 0], [5, 5, 5], [2, exGridPar b, 0]],
    (List.range 3).map fun a => [exGridPar a, exGridPar b, if 3 * a + b = 4 then 9 else 0, exGridPar a], hls,
    ⟨rfl, ?_⟩, ⟨rfl, ?_⟩, ?_, ?_, exGrid_fit hls ⟨rfl, ?_⟩ ⟨rfl, ?_⟩ ?_ ⟨rfl, ?_⟩ ?_⟩⟩
  all_goals (interval_cases b <;> decide +kernel)

theorem exGrid_sweepV {ls : ℕ → List (List ℚ) → List ℚ → List ℚ} (hls : IsLstsq ls) :
    SweepV exGridSurface 3 exGridPar exGridU fun _ => exGridV := by
  refine ⟨fun i h1 h2 => ⟨ls, [[1, 0, 0], [5, 5, 5], [1, 2, 0]],
    (List.range 3).map fun b => [1, exGridPar b, if b = 1 then 6 else 0, exGridPar b], hls,
    ⟨rfl, ?_⟩, ⟨rfl, ?_⟩, ?_, ?_, exGrid_fit hls ⟨rfl, ?_⟩ ⟨rfl, ?_⟩ ?_ ⟨rfl, ?_⟩ ?_⟩⟩
  all_goals (obtain rfl : i = 1 := by change i + 1 < 3 at h2; omega)
  all_goals decide +kernel

/-- The fit of the nine points, from two sweeps of curve fits: the inner control point moves to `(1, 1, 4)`. -/
example (ls : ℕ → List (List ℚ) → List ℚ → List ℚ) (hls : IsLstsq ls) :
    ∃ Z, singleFitSurface ls exGridSurface exGridData = .ok { exGridSurface with ctrlpts := Z } ∧
      coord Z 0 4 = 1 ∧ coord Z 1 4 = 1 ∧ coord Z 2 4 = 4 := by
  obtain ⟨Z, h, hk⟩ := single_fit_surface_grid exGridSurface_clamped (by decide +kernel) (by decide +kernel)
    (data := exGridData) (mu := 3) (mv := 3) (u := exGridPar) (v := exGridPar)
    ⟨⟨rfl, by decide +kernel⟩, by decide +kernel⟩ exGrid_dom exGrid_dom (exGrid_sweepU hls) (exGrid_sweepV hls) hls
  have hc : ∀ k < 3, coord Z k 4 = coord exGridV.ctrlpts k 1 := fun k hk3 =>
    (hk k hk3).2 exGrid_determined exGrid_determined 1 (by decide) 1 (by decide) (by unfold OnBoundary; decide)
  exact ⟨Z, h, hc 0 (by norm_num), hc 1 (by norm_num), hc 2 (by norm_num)⟩

end Examples

end PySpline
