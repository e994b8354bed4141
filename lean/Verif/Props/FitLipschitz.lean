import Verif.Props.FitRounds
import Verif.Props.SurfaceFitUnique
import Verif.Lemmas.Greville
import Verif.Lemmas.StartValues

/-!
# C165: how close fits come to Lipschitz data
-/

set_option linter.unusedSectionVars false

namespace PySpline

open Spec Finset

section
variable {K : Type} [Field K] [LinearOrder K] [IsStrictOrderedRing K]

/-- The values `q r` at the parameters `t r` change at a rate of at most `L`, also towards the value `P` at `a` and
the value `Q` at `b`. -/
structure LipschitzData (L a b P Q : K) (m : ℕ) (t q : ℕ → K) : Prop where
  pairs : ∀ r < m, ∀ s < m, |q r - q s| ≤ L * |t r - t s|
  first : ∀ r < m, |q r - P| ≤ L * (t r - a)
  last : ∀ r < m, |q r - Q| ≤ L * (b - t r)

/-- Lipschitz values extend to a further point. -/
theorem exists_extension {L : K} (hL : 0 ≤ L) {m : ℕ} {t q : ℕ → K}
    (h : ∀ r < m, ∀ s < m, |q r - q s| ≤ L * |t r - t s|) (x : K) :
    ∃ z, ∀ r < m, |z - q r| ≤ L * |x - t r| := by
  rcases Nat.eq_zero_or_pos m with rfl | hm
  · exact ⟨0, fun r hr => absurd hr (by omega)⟩
  obtain ⟨s, hs, hmin⟩ := exists_min_image (range m) (fun r => q r + L * |x - t r|) ⟨0, mem_range.2 hm⟩
  refine ⟨q s + L * |x - t s|, fun r hr => ?_⟩
  have h1 := hmin r (mem_range.2 hr)
  have h2 := (abs_le.1 (h r hr s (mem_range.1 hs))).2
  have h3 : L * |t r - t s| ≤ L * (|x - t r| + |x - t s|) := by
    refine mul_le_mul_of_nonneg_left ?_ hL
    rw [abs_sub_comm x (t r)]
    exact abs_sub_le _ _ _
  rw [abs_le]
  constructor <;> linarith

/-- There is a curve with the given ends that stays within `L h` of Lipschitz data, if no basis function is supported
on more than the length `h`; its control points differ from the data by at most `L` times the length of the domain. -/
theorem exists_close_curve {p n m : ℕ} {U : List K} (hU : Clamped p n U) (hp : 1 ≤ p) {h : K}
    (hh : ∀ i < n, knotFn U (i + p + 1) - knotFn U i ≤ h) {L P Q : K} (hL : 0 ≤ L) {t q : ℕ → K}
    (hdom : ∀ r < m, knotFn U p ≤ t r ∧ t r ≤ knotFn U n)
    (hq : LipschitzData L (knotFn U p) (knotFn U n) P Q m t q) :
    ∃ z : ℕ → K, z 0 = P ∧ z (n - 1) = Q ∧
      (∀ r < m, |curve (knotFn U) p n z (t r) - q r| ≤ L * h) ∧
      ∀ i < n, ∀ r < m, |z i - q r| ≤ L * (knotFn U n - knotFn U p) := by
  have hsz := hU.size
  have hV := monotone_knotFn hU.mono
  choose f hf using exists_extension hL hq.pairs
  refine ⟨fun i => if i = 0 then P else if i = n - 1 then Q else f (greville (knotFn U) p i), by simp, ?_,
    fun r hr => ?_, fun i hi r hr => ?_⟩
  · simp only [if_neg (show n - 1 ≠ 0 by omega), if_true]
  swap
  · obtain ⟨h0, h1⟩ := hdom r hr
    dsimp only
    split_ifs
    · rw [abs_sub_comm]
      exact (hq.first r hr).trans (mul_le_mul_of_nonneg_left (by linarith) hL)
    · rw [abs_sub_comm]
      exact (hq.last r hr).trans (mul_le_mul_of_nonneg_left (by linarith) hL)
    · refine (hf _ r hr).trans (mul_le_mul_of_nonneg_left ?_ hL)
      obtain ⟨g1, g2⟩ := greville_bounds hp hV i
      have l1 : knotFn U p ≤ knotFn U (i + 1) := by
        rcases le_total p (i + 1) with h | h
        · exact hV h
        · rw [hU.left p le_rfl, hU.left (i + 1) h]
      have l2 : knotFn U (i + p) ≤ knotFn U n := by
        rcases le_total (i + p) n with h | h
        · exact hV h
        · rw [hU.right n le_rfl (by omega), hU.right (i + p) h (by omega)]
      rw [abs_le]
      constructor <;> linarith
  obtain ⟨h0, h1⟩ := hdom r hr
  have h1' : t r ≤ knotFn U (n + p) := by rw [← hU.right n le_rfl (by omega)]; exact h1
  set z : ℕ → K := fun i => if i = 0 then P else if i = n - 1 then Q else f (greville (knotFn U) p i) with hz
  have near : ∀ i < n, knotFn U i ≤ t r → t r ≤ knotFn U (i + p + 1) → |z i - q r| ≤ L * h := by
    intro i hi a b
    have hw := hh i hi
    rw [hz]
    dsimp only
    by_cases e0 : i = 0
    · subst e0
      rw [if_pos rfl, abs_sub_comm]
      refine (hq.first r hr).trans (mul_le_mul_of_nonneg_left ?_ hL)
      have := hU.left p le_rfl
      linarith
    · rw [if_neg e0]
      by_cases e1 : i = n - 1
      · rw [if_pos e1, abs_sub_comm]
        refine (hq.last r hr).trans (mul_le_mul_of_nonneg_left ?_ hL)
        have := hU.right n le_rfl (by omega)
        rw [show i + p + 1 = n + p by omega] at hw
        linarith
      · rw [if_neg e1]
        refine (hf _ r hr).trans (mul_le_mul_of_nonneg_left ?_ hL)
        obtain ⟨g1, g2⟩ := greville_bounds hp hV i
        have g1' := (hV (show i ≤ i + 1 by omega)).trans g1
        have g2' := g2.trans (hV (show i + p ≤ i + p + 1 by omega))
        rw [abs_le]
        constructor <;> linarith
  have hup := curve_le hU h0 h1' (c := z) (b := q r + L * h) fun j hj a b => by
    have := (abs_le.1 (near j hj a b)).2; linarith
  have hlo := curve_le hU h0 h1' (c := fun j => - z j) (b := - q r + L * h)
    fun j hj a b => by have := (abs_le.1 (near j hj a b)).1; linarith
  have hneg : curve (knotFn U) p n (fun j => - z j) (t r) = - curve (knotFn U) p n z (t r) := by
    unfold curve; rw [← sum_neg_distrib]; exact sum_congr rfl fun j _ => by ring
  rw [hneg] at hlo
  rw [abs_le]
  constructor <;> linarith

theorem sum_sq_le_of_abs_le {m : ℕ} {f : ℕ → K} {e : K} (h : ∀ r < m, |f r| ≤ e) :
    ∑ r ∈ range m, f r ^ 2 ≤ m * e ^ 2 := by
  calc ∑ r ∈ range m, f r ^ 2 ≤ ∑ _r ∈ range m, e ^ 2 := sum_le_sum fun r hr => by
        rw [← sq_abs]
        exact pow_le_pow_left₀ (abs_nonneg _) (h r (mem_range.1 hr)) 2
    _ = _ := by rw [sum_const, card_range, nsmul_eq_mul]

/-- **C165.** If in a coordinate the data and the end points change at a rate of at most `L` with the parameters, and no
`p + 1` consecutive knot spans are longer than `h` together, the mean squared distance of the data to the curve
that `single_fit_curve` returns is at most `(L h)²` in that coordinate. -/
theorem single_fit_curve_lipschitz {ls : ℕ → List (List K) → List K → List K} (hls : IsLstsq ls)
    {c : Curve K} {data : List (List K)} {m n : ℕ} (hp : 1 ≤ c.degree)
    (hU : Clamped c.degree n c.kv) (hfirst : knotFn c.kv c.degree < knotFn c.kv (c.degree + 1))
    (hP : Shape c.ctrlpts n 3) (hd : Shape data m 4)
    (hdom : ∀ r < m, knotFn c.kv c.degree ≤ at2 data r 3 0 ∧ at2 data r 3 0 ≤ knotFn c.kv n)
    {h : K} (hh : ∀ i < n, knotFn c.kv (i + c.degree + 1) - knotFn c.kv i ≤ h) :
    ∃ c', singleFitCurve ls c data = .ok c' ∧ c'.degree = c.degree ∧ c'.kv = c.kv ∧
      ∀ k < 3, ∀ L, 0 ≤ L → LipschitzData L (knotFn c.kv c.degree) (knotFn c.kv n) (coord c.ctrlpts k 0)
        (coord c.ctrlpts k (n - 1)) m (fun r => at2 data r 3 0) (fun r => at2 data r k 0) →
      ∑ r ∈ range m, (curve (knotFn c.kv) c.degree n (coord c'.ctrlpts k) (at2 data r 3 0) - at2 data r k 0) ^ 2
        ≤ m * (L * h) ^ 2 := by
  obtain ⟨c', h1, h2, h3, h4, h5, h6⟩ := single_fit_curve_optimal hls hU hfirst hP hd hdom
  refine ⟨c', h1, h2, h3, fun k hk L hL hq => ?_⟩
  obtain ⟨z, z0, z1, hz, -⟩ := exists_close_curve hU hp hh hL hdom hq
  exact (h6 k hk z z0 z1).trans (sum_sq_le_of_abs_le hz)

/-- Values that change at rates of at most `L` and `M` in two parameters extend to a further pair. -/
theorem exists_extension_two {L M : K} (hL : 0 ≤ L) (hM : 0 ≤ M) {m : ℕ} {t w q : ℕ → K}
    (h : ∀ r < m, ∀ s < m, |q r - q s| ≤ L * |t r - t s| + M * |w r - w s|) (x y : K) :
    ∃ z, ∀ r < m, |z - q r| ≤ L * |x - t r| + M * |y - w r| := by
  rcases Nat.eq_zero_or_pos m with rfl | hm
  · exact ⟨0, fun r hr => absurd hr (by omega)⟩
  obtain ⟨s, hs, hmin⟩ := exists_min_image (range m) (fun r => q r + (L * |x - t r| + M * |y - w r|))
    ⟨0, mem_range.2 hm⟩
  refine ⟨q s + (L * |x - t s| + M * |y - w s|), fun r hr => ?_⟩
  have h1 := hmin r (mem_range.2 hr)
  have h2 := (abs_le.1 (h r hr s (mem_range.1 hs))).2
  have h3 : L * |t r - t s| ≤ L * (|x - t r| + |x - t s|) := by
    refine mul_le_mul_of_nonneg_left ?_ hL
    rw [abs_sub_comm x (t r)]
    exact abs_sub_le _ _ _
  have h4 : M * |w r - w s| ≤ M * (|y - w r| + |y - w s|) := by
    refine mul_le_mul_of_nonneg_left ?_ hM
    rw [abs_sub_comm y (w r)]
    exact abs_sub_le _ _ _
  rw [abs_le]
  constructor <;> linarith

/-- The values `q r` at the parameters `(t r, w r)` change at rates of at most `L` and `M`, also towards the boundary
control points, taken at their knot averages. -/
structure LipschitzNet (L M : K) (s : Surface K) (k m : ℕ) (t w q : ℕ → K) : Prop where
  pairs : ∀ r < m, ∀ s < m, |q r - q s| ≤ L * |t r - t s| + M * |w r - w s|
  boundary : ∀ r < m, ∀ i < s.numU, ∀ j < s.numV, i = 0 ∨ i + 1 = s.numU ∨ j = 0 ∨ j + 1 = s.numV →
    |coord s.ctrlpts k (i * s.numV + j) - q r|
      ≤ L * |greville (knotFn s.kvU) s.degreeU i - t r| + M * |greville (knotFn s.kvV) s.degreeV j - w r|

theorem greville_near {p n : ℕ} {U : List K} (hU : Clamped p n U) (hp : 1 ≤ p) {h x : K} {i : ℕ}
    (hw : knotFn U (i + p + 1) - knotFn U i ≤ h) (a : knotFn U i ≤ x) (b : x ≤ knotFn U (i + p + 1)) :
    |greville (knotFn U) p i - x| ≤ h := by
  have hV := monotone_knotFn hU.mono
  obtain ⟨g1, g2⟩ := greville_bounds hp hV i
  have g1' := (hV (show i ≤ i + 1 by omega)).trans g1
  have g2' := g2.trans (hV (show i + p ≤ i + p + 1 by omega))
  rw [abs_le]
  constructor <;> linarith

/-- **C165.** If in a coordinate the data and the boundary control points change at rates of at most `L` and `M` with the
two parameters, and no `p + 1` consecutive knot spans are longer than `h` together in the first direction, and no
`q + 1` longer than `h'` in the second, the mean squared distance of the data to the surface that
`single_fit_surface` returns is at most `(L h + M h')²` in that coordinate. -/
theorem single_fit_surface_lipschitz {ls : ℕ → List (List K) → List K → List K} (hls : IsLstsq ls)
    {s : Surface K} {data : List (List K)} {m : ℕ} (hs : ClampedSurface s)
    (pu : 1 ≤ s.degreeU) (pv : 1 ≤ s.degreeV)
    (fu : knotFn s.kvU s.degreeU < knotFn s.kvU (s.degreeU + 1))
    (fv : knotFn s.kvV s.degreeV < knotFn s.kvV (s.degreeV + 1)) (hd : Shape data m 5)
    (hu : ∀ r < m, knotFn s.kvU s.degreeU ≤ at2 data r 3 0 ∧ at2 data r 3 0 ≤ knotFn s.kvU s.numU)
    (hv : ∀ r < m, knotFn s.kvV s.degreeV ≤ at2 data r 4 0 ∧ at2 data r 4 0 ≤ knotFn s.kvV s.numV)
    {h h' : K} (hh : ∀ i < s.numU, knotFn s.kvU (i + s.degreeU + 1) - knotFn s.kvU i ≤ h)
    (hh' : ∀ j < s.numV, knotFn s.kvV (j + s.degreeV + 1) - knotFn s.kvV j ≤ h') :
    ∃ s', singleFitSurface ls s data = .ok s' ∧ s' = { s with ctrlpts := s'.ctrlpts } ∧
      ∀ k < 3, ∀ L M, 0 ≤ L → 0 ≤ M → LipschitzNet L M s k m (fun r => at2 data r 3 0) (fun r => at2 data r 4 0)
        (fun r => at2 data r k 0) →
      ∑ r ∈ range m, (surface (knotFn s.kvU) s.degreeU s.numU (knotFn s.kvV) s.degreeV s.numV
          (coord s'.ctrlpts k) (at2 data r 3 0) (at2 data r 4 0) - at2 data r k 0) ^ 2
        ≤ m * (L * h + M * h') ^ 2 := by
  have su := hs.cu.size
  have sv := hs.cv.size
  obtain ⟨s', h1, h2, h3⟩ := single_fit_surface_optimal hls hs fu fv hd hu hv
  refine ⟨s', h1, h2, fun k hk L M hL hM hq => ?_⟩
  choose f hf using exists_extension_two hL hM hq.pairs
  let z : ℕ → K := fun a =>
    let i := a / s.numV
    let j := a % s.numV
    if i = 0 ∨ i + 1 = s.numU ∨ j = 0 ∨ j + 1 = s.numV then coord s.ctrlpts k (i * s.numV + j)
    else f (greville (knotFn s.kvU) s.degreeU i) (greville (knotFn s.kvV) s.degreeV j)
  have hz : ∀ i j, j < s.numV → z (i * s.numV + j)
      = if i = 0 ∨ i + 1 = s.numU ∨ j = 0 ∨ j + 1 = s.numV then coord s.ctrlpts k (i * s.numV + j)
        else f (greville (knotFn s.kvU) s.degreeU i) (greville (knotFn s.kvV) s.degreeV j) := by
    intro i j hj
    have e1 : (i * s.numV + j) / s.numV = i := by
      rw [mul_comm, Nat.mul_add_div (by omega), Nat.div_eq_of_lt hj, add_zero]
    have e2 : (i * s.numV + j) % s.numV = j := by
      rw [mul_comm, Nat.mul_add_mod, Nat.mod_eq_of_lt hj]
    simp only [z, e1, e2]
  refine (h3 k hk z fun i hi j hj hb => by rw [hz i j hj, if_pos hb]).trans (sum_sq_le_of_abs_le fun r hr => ?_)
  set u := at2 data r 3 0 with hu'
  set v := at2 data r 4 0 with hv'
  obtain ⟨u0, u1⟩ := hu r hr
  obtain ⟨v0, v1⟩ := hv r hr
  rw [hs.cu.right s.numU le_rfl (by omega)] at u1
  rw [hs.cv.right s.numV le_rfl (by omega)] at v1
  have near : ∀ i < s.numU, knotFn s.kvU i ≤ u → u ≤ knotFn s.kvU (i + s.degreeU + 1) →
      ∀ j < s.numV, knotFn s.kvV j ≤ v → v ≤ knotFn s.kvV (j + s.degreeV + 1) →
      |z (i * s.numV + j) - at2 data r k 0| ≤ L * h + M * h' := by
    intro i hi a b j hj a' b'
    have g1 := mul_le_mul_of_nonneg_left (greville_near hs.cu pu (hh i hi) a b) hL
    have g2 := mul_le_mul_of_nonneg_left (greville_near hs.cv pv (hh' j hj) a' b') hM
    rw [hz i j hj]
    split_ifs with hb
    · exact (hq.boundary r hr i hi j hj hb).trans (add_le_add g1 g2)
    · exact (hf _ _ r hr).trans (add_le_add g1 g2)
  have hrows : ∀ c : ℕ → K, surface (knotFn s.kvU) s.degreeU s.numU (knotFn s.kvV) s.degreeV s.numV c u v
      = curve (knotFn s.kvU) s.degreeU s.numU
        (fun i => curve (knotFn s.kvV) s.degreeV s.numV (fun j => c (i * s.numV + j)) v) u := fun c => by
    rw [surface_eq_rows]
  have hup := curve_le hs.cu u0 u1 (b := at2 data r k 0 + (L * h + M * h'))
    (c := fun i => curve (knotFn s.kvV) s.degreeV s.numV (fun j => z (i * s.numV + j)) v) fun i hi a b =>
      curve_le hs.cv v0 v1 fun j hj a' b' => by
        have := (abs_le.1 (near i hi a b j hj a' b')).2; linarith
  have hlo := curve_le hs.cu u0 u1 (b := - at2 data r k 0 + (L * h + M * h'))
    (c := fun i => curve (knotFn s.kvV) s.degreeV s.numV (fun j => (fun a => - z a) (i * s.numV + j)) v)
    fun i hi a b => curve_le hs.cv v0 v1 fun j hj a' b' => by
        have := (abs_le.1 (near i hi a b j hj a' b')).1; dsimp only; linarith
  rw [← hrows z] at hup
  rw [← hrows (fun a => - z a)] at hlo
  have hneg : surface (knotFn s.kvU) s.degreeU s.numU (knotFn s.kvV) s.degreeV s.numV (fun a => - z a) u v
      = - surface (knotFn s.kvU) s.degreeU s.numU (knotFn s.kvV) s.degreeV s.numV z u v := by
    unfold surface
    rw [← sum_neg_distrib]
    refine sum_congr rfl fun i _ => ?_
    rw [← sum_neg_distrib]
    exact sum_congr rfl fun j _ => by ring
  rw [hneg] at hlo
  rw [abs_le]
  constructor <;> linarith

/-- The spans of the domain are at most `w` long. -/
def SpansAtMost (p n : ℕ) (U : List K) (w : K) : Prop :=
  ∀ i, p ≤ i → i < n → knotFn U (i + 1) - knotFn U i ≤ w

theorem SpansAtMost.support {p n : ℕ} {U : List K} {w : K} (hU : Clamped p n U) (hw : 0 ≤ w)
    (h : SpansAtMost p n U w) : ∀ i < n, knotFn U (i + p + 1) - knotFn U i ≤ (p + 1) * w := by
  intro i hi
  have hall : ∀ j, j < n + p → knotFn U (j + 1) - knotFn U j ≤ w := by
    intro j hj
    by_cases h1 : p ≤ j
    · by_cases h2 : j < n
      · exact h j h1 h2
      · rw [hU.right (j + 1) (by omega) (by omega), hU.right j (by omega) (by omega), sub_self]; exact hw
    · rw [hU.left (j + 1) (by omega), hU.left j (by omega), sub_self]; exact hw
  have : ∀ k, i + k ≤ n + p → knotFn U (i + k) - knotFn U i ≤ k * w := by
    intro k
    induction k with
    | zero => intro _; simp
    | succ k ih =>
      intro hk
      have a := ih (by omega)
      have b := hall (i + k) (by omega)
      push_cast
      rw [← add_assoc i k 1]
      linarith
  have := this (p + 1) (by omega)
  push_cast at this
  exact this

/-- With every solver round `s` of `fit_curve_knot_insertion` has spans of length at most `w / 2 ^ s`, and its curve ends
in the end points of the initial curve. -/
theorem fit_curve_knot_insertion_spans {env : FitEnv K} (hls : SolverLength env.lstsq)
    {data : List (List K)} (hpar : Parameterizes env data) {p : ℕ} (hp : 1 ≤ p) (N : ℤ) (t : ℕ)
    {n fuel : ℕ} {δ w : K} {c : Curve K} (hc : Spaced p n δ c)
    (hδ : 2 ^ t * (1 / 10 ^ 8 + 1 / 10 ^ 5) < δ) (hf : t < fuel)
    (hN : N ≤ ((p + 2 ^ t * (n - p) : ℕ) : ℤ)) (hlt : ∀ s < t, ((p + 2 ^ s * (n - p) : ℕ) : ℤ) < N)
    (hw : SpansAtMost p n c.kv w) :
    ∃ (b d : ℕ → Curve K) (rows : ℕ → List (List K)), b 0 = c ∧
      fitCurveKnotInsertion fuel env c data N = .ok (d t) ∧ 0 ≤ w ∧
      (∀ s ≤ t, FitRound env data p (p + 2 ^ s * (n - p)) (b s) (rows s) (d s) ∧
        SpansAtMost p (p + 2 ^ s * (n - p)) (d s).kv (w / 2 ^ s) ∧
        knotFn (d s).kv p = 0 ∧ knotFn (d s).kv (p + 2 ^ s * (n - p)) = 1 ∧
        ∀ k < 3, coord (d s).ctrlpts k 0 = coord c.ctrlpts k 0 ∧
          coord (d s).ctrlpts k (p + 2 ^ s * (n - p) - 1) = coord c.ctrlpts k (n - 1)) ∧
      ∀ s < t, SameCurve (b (s + 1)) (d s) := by
  have hsz := hc.clamped.size
  obtain ⟨b, d, rows, hb0, hret, hround, hstep⟩ :=
    fit_curve_knot_insertion_fitRounds hls hpar hp N t hc hδ hf hN hlt
  have htol : (0 : K) < 2 ^ t * (1 / 10 ^ 8 + 1 / 10 ^ 5) := by positivity
  have hw0 : 0 ≤ w := by
    have h1 := hc.gap p le_rfl hsz
    have h2 := hw p le_rfl hsz
    linarith
  have hspan : ∀ s ≤ t, SpansAtMost p (p + 2 ^ s * (n - p)) (d s).kv (w / 2 ^ s) ∧
      DistinctInterior p (p + 2 ^ s * (n - p)) (d s).kv ∧
      knotFn (d s).kv p = 0 ∧ knotFn (d s).kv (p + 2 ^ s * (n - p)) = 1 ∧
      ∀ k < 3, coord (d s).ctrlpts k 0 = coord c.ctrlpts k 0 ∧
        coord (d s).ctrlpts k (p + 2 ^ s * (n - p) - 1) = coord c.ctrlpts k (n - 1) := by
    intro s
    induction s with
    | zero =>
      intro hs
      have hr := hround 0 hs
      have e : p + 2 ^ 0 * (n - p) = n := by rw [pow_zero]; omega
      have f1 := hr.first
      have f2 := hr.last
      rw [e] at f2 ⊢
      rw [hb0] at f1 f2
      rw [hr.knots.1, hb0, pow_zero, div_one]
      refine ⟨hw, hc.distinct (by linarith), (hc.clamped.left p le_rfl).trans hc.zero,
        (hc.clamped.right n le_rfl (by omega)).trans hc.one, fun k _ => ?_⟩
      unfold coord
      rw [f1, f2]
      exact ⟨rfl, rfl⟩
    | succ s ih =>
      intro hs
      obtain ⟨i1, i2, i3, i4, i5⟩ := ih (by omega)
      obtain ⟨hsame, ev, od⟩ := hstep s (by omega)
      have hr := hround (s + 1) hs
      have hr0 := hround s (by omega)
      have hcl0 := hr0.knots.2
      have hcl := hr.knots.2
      have f1 := hr.first
      have f2 := hr.last
      have hM0 : 0 < 2 ^ s * (n - p) := Nat.mul_pos (by positivity) (by omega)
      set M := 2 ^ s * (n - p) with hM
      have e : 2 ^ (s + 1) * (n - p) = 2 * M := by rw [hM, pow_succ]; ring
      rw [e] at f2 hcl ⊢
      rw [hr.knots.1] at hcl ⊢
      have hdist : DistinctInterior p (p + 2 * M) (b (s + 1)).kv := fun i h1 h2 => by
        obtain ⟨j, hj⟩ : ∃ j, i = p + 2 * j ∨ i = p + 2 * j + 1 := ⟨(i - p) / 2, by omega⟩
        have hg := i2 (p + j) (by omega) (by omega)
        rcases hj with rfl | rfl
        · rw [ev j (by omega), od j (by omega)]; linarith
        · rw [od j (by omega), show p + 2 * j + 1 + 1 = p + 2 * (j + 1) by ring, ev (j + 1) (by omega),
            ← add_assoc]
          linarith
      have z0 : knotFn (b (s + 1)).kv p = 0 := by have := ev 0 (by omega); simpa [i3] using this
      have z1 : knotFn (b (s + 1)).kv (p + 2 * M) = 1 := by rw [ev M le_rfl, i4]
      refine ⟨fun i h1 h2 => ?_, hdist, z0, z1, fun k hk => ?_⟩
      · obtain ⟨j, hj⟩ : ∃ j, i = p + 2 * j ∨ i = p + 2 * j + 1 := ⟨(i - p) / 2, by omega⟩
        have hg := i1 (p + j) (by omega) (by omega)
        have e2 : w / 2 ^ (s + 1) = w / 2 ^ s / 2 := by rw [pow_succ, div_div]
        rw [e2]
        rcases hj with rfl | rfl
        · rw [ev j (by omega), od j (by omega)]; linarith
        · rw [od j (by omega), show p + 2 * j + 1 + 1 = p + 2 * (j + 1) by ring, ev (j + 1) (by omega),
            ← add_assoc]
          linarith
      · have hbl : (b (s + 1)).ctrlpts.length = p + 2 * M := by rw [hr.points.1.1, e]
        have s0 := hsame k hk (knotFn (d s).kv p)
        have s1 := hsame k hk (knotFn (d s).kv (p + M))
        rw [hbl, hr.degree.1, hr0.degree.2, hr0.points.2.1] at s0 s1
        rw [i3] at s0
        have c0 := curve_first hcl0 (i2 p le_rfl (by omega)) (coord (d s).ctrlpts k)
        have c1 := curve_first hcl (hdist p le_rfl (by omega)) (coord (b (s + 1)).ctrlpts k)
        rw [← hcl0.left p le_rfl, i3] at c0
        rw [← hcl.left p le_rfl, z0] at c1
        rw [c0, c1] at s0
        rw [i4] at s1
        have c2 := curve_last hcl0 (coord (d s).ctrlpts k)
        have c3 := curve_last hcl (coord (b (s + 1)).ctrlpts k)
        rw [← hcl0.right _ le_rfl (by omega), i4] at c2
        rw [← hcl.right _ le_rfl (by omega), z1] at c3
        rw [c2, c3] at s1
        rw [← (i5 k hk).1, ← (i5 k hk).2, ← s0, ← s1]
        unfold coord
        rw [f1, f2]
        exact ⟨rfl, rfl⟩
  exact ⟨b, d, rows, hb0, hret, hw0, fun s hs => ⟨hround s hs, (hspan s hs).1, (hspan s hs).2.2⟩,
    fun s hs => (hstep s hs).1⟩

/-- Round `s` of `fit_curve_knot_insertion` has spans of length at most `w / 2 ^ s`, and its curve is at least as close to
the data of the round as any curve with these knots between the end points of the initial curve. -/
theorem fit_curve_knot_insertion_best {env : FitEnv K} (hls : IsLstsq env.lstsq)
    {data : List (List K)} (hpar : Parameterizes env data) {p : ℕ} (hp : 1 ≤ p) (N : ℤ) (t : ℕ)
    {n fuel : ℕ} {δ w : K} {c : Curve K} (hc : Spaced p n δ c)
    (hδ : 2 ^ t * (1 / 10 ^ 8 + 1 / 10 ^ 5) < δ) (hf : t < fuel)
    (hN : N ≤ ((p + 2 ^ t * (n - p) : ℕ) : ℤ)) (hlt : ∀ s < t, ((p + 2 ^ s * (n - p) : ℕ) : ℤ) < N)
    (hw : SpansAtMost p n c.kv w) :
    ∃ (b d : ℕ → Curve K) (rows : ℕ → List (List K)), b 0 = c ∧
      fitCurveKnotInsertion fuel env c data N = .ok (d t) ∧ 0 ≤ w ∧
      ∀ s ≤ t, parameterizeCurve env.num (env.curveLike (b s)) data = .ok (rows s) ∧
        SpansAtMost p (p + 2 ^ s * (n - p)) (d s).kv (w / 2 ^ s) ∧ Clamped p (p + 2 ^ s * (n - p)) (d s).kv ∧
        knotFn (d s).kv p = 0 ∧ knotFn (d s).kv (p + 2 ^ s * (n - p)) = 1 ∧
        (∀ r < data.length, 0 ≤ at2 (rows s) r 3 0 ∧ at2 (rows s) r 3 0 ≤ 1) ∧
        ∀ k < 3, ∀ z : ℕ → K, z 0 = coord c.ctrlpts k 0 →
          z (p + 2 ^ s * (n - p) - 1) = coord c.ctrlpts k (n - 1) →
          sqDist (rows s) (d s) k ≤ ∑ r ∈ range data.length,
            (curve (knotFn (d s).kv) p (p + 2 ^ s * (n - p)) z (at2 (rows s) r 3 0) - at2 (rows s) r k 0) ^ 2 := by
  obtain ⟨b, d, rows, hb0, hret, hw0, hall, -⟩ :=
    fit_curve_knot_insertion_spans hls.length hpar hp N t hc hδ hf hN hlt hw
  refine ⟨b, d, rows, hb0, hret, hw0, fun s hs => ?_⟩
  obtain ⟨hr, h1, h2, h3, h4⟩ := hall s hs
  have hsh := parameterizeCurve_range hr.parameters
  have hlen : (rows s).length = data.length := hsh.1.1
  refine ⟨hr.parameters, h1, hr.knots.2, h2, h3, fun r hr' => hsh.2 r (by omega), fun k hk z z0 z1 => ?_⟩
  have hopt := (hr.round hls).optimal k hk z (z0.trans (h4 k hk).1.symm)
    (by rw [hr.points.2.1]; exact z1.trans (h4 k hk).2.symm)
  refine hopt.trans ?_
  rw [hr.degree.2, hr.points.2.1, hlen]

/-- **C165.** In every round of `fit_curve_knot_insertion` the knot spans are half as long as in the round before, and if
the data of the round and the end points are Lipschitz in a coordinate, with the constant `L` and the parameters of the
round, the mean squared distance to the curve of the round is at most `(L (p + 1) w / 2 ^ s)²`, where `w` is the length
of the longest span before the first round. -/
theorem fit_curve_knot_insertion_lipschitz {env : FitEnv K} (hls : IsLstsq env.lstsq)
    {data : List (List K)} (hpar : Parameterizes env data) {p : ℕ} (hp : 1 ≤ p) (N : ℤ) (t : ℕ)
    {n fuel : ℕ} {δ w : K} {c : Curve K} (hc : Spaced p n δ c)
    (hδ : 2 ^ t * (1 / 10 ^ 8 + 1 / 10 ^ 5) < δ) (hf : t < fuel)
    (hN : N ≤ ((p + 2 ^ t * (n - p) : ℕ) : ℤ)) (hlt : ∀ s < t, ((p + 2 ^ s * (n - p) : ℕ) : ℤ) < N)
    (hw : SpansAtMost p n c.kv w) :
    ∃ (b d : ℕ → Curve K) (rows : ℕ → List (List K)), b 0 = c ∧
      fitCurveKnotInsertion fuel env c data N = .ok (d t) ∧
      ∀ s ≤ t, parameterizeCurve env.num (env.curveLike (b s)) data = .ok (rows s) ∧
        SpansAtMost p (p + 2 ^ s * (n - p)) (d s).kv (w / 2 ^ s) ∧
        ∀ k < 3, ∀ L, 0 ≤ L → LipschitzData L 0 1 (coord c.ctrlpts k 0) (coord c.ctrlpts k (n - 1)) data.length
            (fun r => at2 (rows s) r 3 0) (fun r => at2 (rows s) r k 0) →
          sqDist (rows s) (d s) k ≤ data.length * (L * ((p + 1) * (w / 2 ^ s))) ^ 2 := by
  obtain ⟨b, d, rows, hb0, hret, hw0, hall⟩ := fit_curve_knot_insertion_best hls hpar hp N t hc hδ hf hN hlt hw
  refine ⟨b, d, rows, hb0, hret, fun s hs => ?_⟩
  obtain ⟨h1, h2, hcl, h3, h4, hran, hbest⟩ := hall s hs
  refine ⟨h1, h2, fun k hk L hL hq => ?_⟩
  obtain ⟨z, z0, z1, hz, -⟩ := exists_close_curve hcl hp (h2.support hcl (by positivity)) hL (m := data.length)
    (t := fun r => at2 (rows s) r 3 0) (q := fun r => at2 (rows s) r k 0)
    (fun r hr' => by rw [h3, h4]; exact hran r hr') (by rw [h3, h4]; exact hq)
  exact (hbest k hk z z0 z1).trans (sum_sq_le_of_abs_le hz)

end

/-! ## Examples -/

/-- In one fit with a quadratic Bézier curve the mean squared distance is at most `4²`, in the `y`-coordinate. -/
example (ls : ℕ → List (List ℚ) → List ℚ → List ℚ) (hls : IsLstsq ls) :
    ∃ c', singleFitCurve ls exFitCurve exFitData = .ok c' ∧
      ∑ r ∈ range 3, (curve (knotFn exFitCurve.kv) 2 3 (coord c'.ctrlpts 1) (at2 exFitData r 3 0)
        - at2 exFitData r 1 0) ^ 2 ≤ (3 : ℕ) * (4 * 1) ^ 2 := by
  obtain ⟨c', h1, -, -, h2⟩ := single_fit_curve_lipschitz hls (c := exFitCurve) (data := exFitData) (m := 3) (n := 3)
    (by decide) exFitCurve_clamped (by decide +kernel) ⟨rfl, by decide +kernel⟩ ⟨rfl, by decide +kernel⟩
    (by intro r hr; interval_cases r <;> decide +kernel) (h := 1)
    (by intro i hi; interval_cases i <;> decide +kernel)
  exact ⟨c', h1, h2 1 (by norm_num) 4 (by norm_num) ⟨by decide +kernel, by decide +kernel, by decide +kernel⟩⟩

/-- The `y`-coordinates of the example change at a rate of at most 5, so after two rounds of insertion the mean squared
distance is at most `(5 · 3 / 4)²`, whatever the solver. -/
example (ls : ℕ → List (List ℚ) → List ℚ → List ℚ) (hls : IsLstsq ls) :
    ∃ c' rows, fitCurveKnotInsertion 3 (exEnv ls) exFitCurve exKnotData 5 = .ok c' ∧
      rows = [[1/4, 1, 0, 1/5], [1/2, 2, 1/2, 2/5], [3/4, 1, 1, 4/5]] ∧
      SpansAtMost 2 6 c'.kv (1 / 4) ∧ sqDist rows c' 1 ≤ 3 * (5 * (3 * (1 / 4))) ^ 2 := by
  have hrows : ∀ c, parameterizeCurve (exEnv ls).num ((exEnv ls).curveLike c) exKnotData
      = .ok [[1/4, 1, 0, 1/5], [1/2, 2, 1/2, 2/5], [3/4, 1, 1, 4/5]] := fun _ => by
    show parameterizeCurve ⟨fun l => (l.map fun x => |x|).sum, fun _ _ => true⟩
      ⟨3, fun u => .ok [u, 0, 0], fun u => .ok [[u, 0, 0], [1, 0, 0], [0, 0, 0]]⟩ exKnotData = _
    decide +kernel
  obtain ⟨b, d, rows, -, h1, h2⟩ := fit_curve_knot_insertion_lipschitz (env := exEnv ls) hls
    (exEnv_parameterizes ls) (p := 2) (by norm_num) 5 2 (n := 3) (fuel := 3) (w := 1) exFitCurve_spaced
    (by norm_num) (by norm_num) (by norm_num) (by intro s hs; interval_cases s <;> norm_num)
    (by intro i h1 h2; interval_cases i; decide +kernel)
  obtain ⟨h3, h4, h5⟩ := h2 2 le_rfl
  have e := Except.ok.inj (h3.symm.trans (hrows _))
  rw [e] at h5
  refine ⟨d 2, _, h1, rfl, by norm_num at h4 ⊢; exact h4, ?_⟩
  have := h5 1 (by norm_num) 5 (by norm_num)
    ⟨by decide +kernel, by decide +kernel, by decide +kernel⟩
  norm_num [exKnotData] at this ⊢
  exact this

def exFrameData : List (List ℚ) := [[99, 101, 100, 1/4, 1/2], [101, 99, 100, 3/4, 1/2]]

/-- Two data points inside a flat frame. -/
example (ls : ℕ → List (List ℚ) → List ℚ → List ℚ) (hls : IsLstsq ls) :
    ∃ s', singleFitSurface ls exWide exFrameData = .ok s' ∧
      ∑ r ∈ range 2, (surface (knotFn exWide.kvU) 1 4 (knotFn exWide.kvV) 1 3 (coord s'.ctrlpts 0)
          (at2 exFrameData r 3 0)
          (at2 exFrameData r 4 0)
        - at2 exFrameData r 0 0) ^ 2
        ≤ (2 : ℕ) * (4 * (2 / 3) + 2 * 1) ^ 2 := by
  obtain ⟨s', h1, -, h2⟩ := single_fit_surface_lipschitz hls (s := exWide) (m := 2)
    (data := exFrameData) exWide_clamped (by decide) (by decide)
    (by decide +kernel) (by decide +kernel) ⟨rfl, by decide +kernel⟩
    (by intro r hr; interval_cases r <;> decide +kernel) (by intro r hr; interval_cases r <;> decide +kernel)
    (h := 2 / 3) (h' := 1) (by decide +kernel) (by decide +kernel)
  exact ⟨s', h1, h2 0 (by norm_num) 4 2 (by norm_num) (by norm_num) ⟨by decide +kernel, by
    intro r hr i hi j hj
    change i < 4 at hi
    change j < 3 at hj
    interval_cases r <;> interval_cases i <;> interval_cases j <;> decide +kernel⟩⟩

end PySpline
