import Verif.Lemmas.Strict
import Verif.Lemmas.FitUniqueAux
import Verif.Props.Smooth
import Verif.Props.Variation
import Verif.Props.KnotFit
import Verif.Props.Surface

/-!
# C170: slopes of curves, and curves and surfaces that do not meet themselves
-/

set_option linter.unusedSectionVars false

namespace PySpline

open Spec

section
variable {K : Type} [Field K] [LinearOrder K] [IsStrictOrderedRing K]

/-- **C170.** The slopes of the control polygon, its vertices placed at the averages of `p` consecutive knots, bound
the slopes of the curve from both sides. -/
theorem single_point_slopes {p n : ℕ} {U : List K} {P : List (List K)} (hU : Clamped p n U) (hp : 1 ≤ p)
    (hP : Shape P n 3) {k : ℕ} (hk : k < 3) {m M : K}
    (hm : ∀ i, i + 1 < n → m * (knotFn U (i + p + 1) - knotFn U (i + 1)) ≤ (coord P k (i + 1) - coord P k i) * p)
    (hM : ∀ i, i + 1 < n → (coord P k (i + 1) - coord P k i) * p ≤ M * (knotFn U (i + p + 1) - knotFn U (i + 1)))
    {s t : K} (h0 : 0 ≤ s) (hst : s ≤ t) (h1 : t ≤ 1) (rs : Regular p n U s) (rt : Regular p n U t) :
    ∃ x y, Curve.singlePoint ⟨p, P, U⟩ s = .ok x ∧ Curve.singlePoint ⟨p, P, U⟩ t = .ok y ∧
      m * (t - s) ≤ y.getD k 0 - x.getD k 0 ∧ y.getD k 0 - x.getD k 0 ≤ M * (t - s) := by
  refine ⟨_, _, single_point_bspline_sum hU hp hP le_rfl h0 (hst.trans h1) rs,
    single_point_bspline_sum hU hp hP le_rfl (h0.trans hst) h1 rt, ?_⟩
  have a := curve_slope_ge hU hp hm rs.lo hst rt.hi
  have b := curve_slope_le hU hp hM rs.lo hst rt.hi
  interval_cases k <;> exact ⟨a, b⟩

/-- **C170.** If a coordinate of the control points never decreases, and grows somewhere among the `p + 1` control
points that act on each span, then it is strictly increasing along the curve. -/
theorem single_point_strictly_increasing {p n : ℕ} {U : List K} {P : List (List K)} (hU : Clamped p n U) (hp : 1 ≤ p)
    (hP : Shape P n 3) {k : ℕ} (hk : k < 3) (hmono : ∀ i, i + 1 < n → coord P k i ≤ coord P k (i + 1))
    (hspan : ∀ j, p ≤ j → j < n → knotFn U j < knotFn U (j + 1) → coord P k (j - p) < coord P k j) {s t : K}
    (h0 : 0 ≤ s) (hst : s < t) (h1 : t ≤ 1) (rs : Regular p n U s) (rt : Regular p n U t) :
    ∃ x y, Curve.singlePoint ⟨p, P, U⟩ s = .ok x ∧ Curve.singlePoint ⟨p, P, U⟩ t = .ok y ∧
      x.getD k 0 < y.getD k 0 := by
  refine ⟨_, _, single_point_bspline_sum hU hp hP le_rfl h0 (hst.le.trans h1) rs,
    single_point_bspline_sum hU hp hP le_rfl (h0.trans hst.le) h1 rt, ?_⟩
  have a := curve_strict hU hp hmono hspan rs.lo hst rt.hi
  interval_cases k <;> exact a

/-- **C170.** The condition on the spans is necessary: if the coordinate is the same for the `p + 1` control points of
a span, all points of the curve inside this span have it too. -/
theorem single_point_flat {p n : ℕ} {U : List K} {P : List (List K)} (hU : Clamped p n U) (hp : 1 ≤ p)
    (hP : Shape P n 3) {k : ℕ} (hk : k < 3) {j : ℕ} (hpj : p ≤ j)
    (hc : ∀ i, j - p ≤ i → i ≤ j → coord P k i = coord P k j) {s : K} (h0 : 0 ≤ s) (h1 : s ≤ 1)
    (hs : knotFn U j < s) (hs' : s < knotFn U (j + 1)) (rs : Regular p n U s) :
    ∃ x, Curve.singlePoint ⟨p, P, U⟩ s = .ok x ∧ x.getD k 0 = coord P k j := by
  refine ⟨_, single_point_bspline_sum hU hp hP le_rfl h0 h1 rs, ?_⟩
  have a := curve_flat hU hpj hc hs hs' rs.hi
  interval_cases k <;> exact a

/-- **C170.** Such a curve does not meet itself: the parameter of a point is unique. -/
theorem single_point_parameter_unique {p n : ℕ} {U : List K} {P : List (List K)} (hU : Clamped p n U) (hp : 1 ≤ p)
    (hP : Shape P n 3) {k : ℕ} (hk : k < 3) (hmono : ∀ i, i + 1 < n → coord P k i ≤ coord P k (i + 1))
    (hspan : ∀ j, p ≤ j → j < n → knotFn U j < knotFn U (j + 1) → coord P k (j - p) < coord P k j) {s t : K}
    (hs : 0 ≤ s ∧ s ≤ 1) (ht : 0 ≤ t ∧ t ≤ 1) (rs : Regular p n U s) (rt : Regular p n U t)
    (h : Curve.singlePoint ⟨p, P, U⟩ s = Curve.singlePoint ⟨p, P, U⟩ t) : s = t := by
  rcases lt_trichotomy s t with hst | hst | hst
  · obtain ⟨x, y, e1, e2, e3⟩ := single_point_strictly_increasing hU hp hP hk hmono hspan hs.1 hst ht.2 rs rt
    rw [e1, e2] at h
    cases h
    exact absurd e3 (lt_irrefl _)
  · exact hst
  · obtain ⟨x, y, e1, e2, e3⟩ := single_point_strictly_increasing hU hp hP hk hmono hspan ht.1 hst hs.2 rt rs
    rw [e1, e2] at h
    cases h
    exact absurd e3 (lt_irrefl _)

/-! ## Surfaces -/

/-- **C170.** If a coordinate of the control points increases strictly with the first index, it increases strictly
along the `u`-lines of the surface. -/
theorem surface_point_increasing_u {s : Surface K} (hs : ClampedSurface s) {k : ℕ} (hk : k < 3)
    (hc : ∀ i j, i + 1 < s.numU → j < s.numV →
      coord s.ctrlpts k (i * s.numV + j) < coord s.ctrlpts k ((i + 1) * s.numV + j)) {a b v : K}
    (h0 : 0 ≤ a) (hab : a < b) (h1 : b ≤ 1) (hv : 0 ≤ v ∧ v ≤ 1) (ra : Regular s.degreeU s.numU s.kvU a)
    (rb : Regular s.degreeU s.numU s.kvU b) (rv : Regular s.degreeV s.numV s.kvV v) :
    ∃ x y, s.singlePoint a v = .ok x ∧ s.singlePoint b v = .ok y ∧ x.getD k 0 < y.getD k 0 := by
  refine ⟨_, _, surface_point_tensor_sum hs ⟨h0, hab.le.trans h1⟩ hv ra rv,
    surface_point_tensor_sum hs ⟨h0.trans hab.le, h1⟩ hv rb rv, ?_⟩
  have key : s.value k a v < s.value k b v := by
    rw [value_eq_curve_u, value_eq_curve_u]
    have hstep : ∀ i, i + 1 < s.numU →
        curve (knotFn s.kvV) s.degreeV s.numV (fun j => coord s.ctrlpts k (i * s.numV + j)) v
          < curve (knotFn s.kvV) s.degreeV s.numV (fun j => coord s.ctrlpts k ((i + 1) * s.numV + j)) v := fun i hi =>
      curve_lt_curve hs.cv (fun j hj => hc i j hi hj) rv.lo rv.hi
    refine curve_strict hs.cu hs.du (fun i hi => (hstep i hi).le) (fun j h1 h2 _ => ?_) ra.lo hab rb.hi
    have hm := mono_of_step (n := s.numU) fun i hi => (hstep i hi).le
    have hd := hs.du
    have a1 := hm (j - s.degreeU) (j - 1) (by omega) (by omega)
    have a2 := hstep (j - 1) (by omega)
    rw [show j - 1 + 1 = j by omega] at a2
    exact a1.trans_lt a2
  interval_cases k <;> exact key

/-- **C170.** The same along the `v`-lines. -/
theorem surface_point_increasing_v {s : Surface K} (hs : ClampedSurface s) {k : ℕ} (hk : k < 3)
    (hc : ∀ i j, i < s.numU → j + 1 < s.numV →
      coord s.ctrlpts k (i * s.numV + j) < coord s.ctrlpts k (i * s.numV + (j + 1))) {a b u : K}
    (h0 : 0 ≤ a) (hab : a < b) (h1 : b ≤ 1) (hu : 0 ≤ u ∧ u ≤ 1) (ra : Regular s.degreeV s.numV s.kvV a)
    (rb : Regular s.degreeV s.numV s.kvV b) (ru : Regular s.degreeU s.numU s.kvU u) :
    ∃ x y, s.singlePoint u a = .ok x ∧ s.singlePoint u b = .ok y ∧ x.getD k 0 < y.getD k 0 := by
  refine ⟨_, _, surface_point_tensor_sum hs hu ⟨h0, hab.le.trans h1⟩ ru ra,
    surface_point_tensor_sum hs hu ⟨h0.trans hab.le, h1⟩ ru rb, ?_⟩
  have key : s.value k u a < s.value k u b := by
    rw [value_eq_curve_v, value_eq_curve_v]
    have hstep : ∀ j, j + 1 < s.numV →
        curve (knotFn s.kvU) s.degreeU s.numU (fun i => coord s.ctrlpts k (i * s.numV + j)) u
          < curve (knotFn s.kvU) s.degreeU s.numU (fun i => coord s.ctrlpts k (i * s.numV + (j + 1))) u := fun j hj =>
      curve_lt_curve hs.cu (fun i hi => hc i j hi hj) ru.lo ru.hi
    refine curve_strict hs.cv hs.dv (fun i hi => (hstep i hi).le) (fun j h1 h2 _ => ?_) ra.lo hab rb.hi
    have hm := mono_of_step (n := s.numV) fun i hi => (hstep i hi).le
    have hd := hs.dv
    have a1 := hm (j - s.degreeV) (j - 1) (by omega) (by omega)
    have a2 := hstep (j - 1) (by omega)
    rw [show j - 1 + 1 = j by omega] at a2
    exact a1.trans_lt a2
  interval_cases k <;> exact key

/-- **C170.** A height field, whose control points have `x` strictly increasing with the first index and independent
of the second, and `y` the other way round: the two parameters of a point of the surface are unique. -/
theorem surface_parameters_unique {s : Surface K} (hs : ClampedSurface s) {X Y : ℕ → K}
    (hX : ∀ i, i + 1 < s.numU → X i < X (i + 1)) (hY : ∀ j, j + 1 < s.numV → Y j < Y (j + 1))
    (hcX : ∀ i < s.numU, ∀ j < s.numV, coord s.ctrlpts 0 (i * s.numV + j) = X i)
    (hcY : ∀ i < s.numU, ∀ j < s.numV, coord s.ctrlpts 1 (i * s.numV + j) = Y j) {u v u' v' : K}
    (hu : 0 ≤ u ∧ u ≤ 1) (hv : 0 ≤ v ∧ v ≤ 1) (hu' : 0 ≤ u' ∧ u' ≤ 1) (hv' : 0 ≤ v' ∧ v' ≤ 1)
    (ru : Regular s.degreeU s.numU s.kvU u) (rv : Regular s.degreeV s.numV s.kvV v)
    (ru' : Regular s.degreeU s.numU s.kvU u') (rv' : Regular s.degreeV s.numV s.kvV v')
    (h : s.singlePoint u v = s.singlePoint u' v') : u = u' ∧ v = v' := by
  rw [surface_point_tensor_sum hs hu hv ru rv, surface_point_tensor_sum hs hu' hv' ru' rv'] at h
  have h := Except.ok.inj h
  have e0 : s.value 0 u v = s.value 0 u' v' := (List.cons.inj h).1
  have e1 : s.value 1 u v = s.value 1 u' v' := (List.cons.inj (List.cons.inj h).2).1
  have congr : ∀ {p n : ℕ} {U : List K} {c d : ℕ → K} (x : K), (∀ i < n, c i = d i) →
      curve (knotFn U) p n c x = curve (knotFn U) p n d x := fun x h =>
    Finset.sum_congr rfl fun i hi => by rw [h i (Finset.mem_range.1 hi)]
  have gX : ∀ {a b : K}, Regular s.degreeV s.numV s.kvV b →
      s.value 0 a b = curve (knotFn s.kvU) s.degreeU s.numU X a := fun {a b} rb => by
    rw [value_eq_curve_u]
    refine congr _ fun i hi => ?_
    rw [congr _ (hcX i hi), curve_const hs.cv rb.lo rb.hi]
  have gY : ∀ {a b : K}, Regular s.degreeU s.numU s.kvU a →
      s.value 1 a b = curve (knotFn s.kvV) s.degreeV s.numV Y b := fun {a b} ra => by
    rw [value_eq_curve_v]
    refine congr _ fun j hj => ?_
    rw [congr _ (fun i hi => hcY i hi j hj), curve_const hs.cu ra.lo ra.hi]
  rw [gX rv, gX rv'] at e0
  rw [gY ru, gY ru'] at e1
  have strict : ∀ {p n : ℕ} {U : List K} {c : ℕ → K}, Clamped p n U → 1 ≤ p → (∀ i, i + 1 < n → c i < c (i + 1)) →
      ∀ {x y : K}, Regular p n U x → Regular p n U y → x < y →
        curve (knotFn U) p n c x < curve (knotFn U) p n c y := by
    intro p n U c hU hp hc x y rx ry hxy
    refine curve_strict hU hp (fun i hi => (hc i hi).le) (fun j h1 h2 _ => ?_) rx.lo hxy ry.hi
    have a1 := mono_of_step (n := n) (fun i hi => (hc i hi).le) (j - p) (j - 1) (by omega) (by omega)
    have a2 := hc (j - 1) (by omega)
    rw [show j - 1 + 1 = j by omega] at a2
    exact a1.trans_lt a2
  constructor
  · rcases lt_trichotomy u u' with g | g | g
    · exact absurd e0 (strict hs.cu hs.du hX ru ru' g).ne
    · exact g
    · exact absurd e0 (strict hs.cu hs.du hX ru' ru g).ne'
  · rcases lt_trichotomy v v' with g | g | g
    · exact absurd e1 (strict hs.cv hs.dv hY rv rv' g).ne
    · exact g
    · exact absurd e1 (strict hs.cv hs.dv hY rv' rv g).ne'

/-! ## The initial curve -/

/-- **C170.** The curve that `initialize_curve` builds runs through the segment from `a` to `b` without turning back,
with a speed between `max(p, n - p) / (n - 1)` and `p (n - p) / (n - 1)` times that of the uniform motion. -/
theorem initialize_curve_speed {a b : List K} (ha : a.length = 3) (hb : b.length = 3) {p n : ℕ} (hp : 1 ≤ p)
    (h : p < n) (hn : n - p ≤ 900000) :
    ∃ (c : Curve K) (g : K → K), initializeCurve a b p n = .ok c ∧ g 0 = 0 ∧ g 1 = 1 ∧
      (∀ u, 0 ≤ u → u ≤ 1 → c.singlePoint u
        = .ok ((List.range 3).map fun k => a.getD k 0 + g u * (b.getD k 0 - a.getD k 0))) ∧
      ∀ s t, 0 ≤ s → s ≤ t → t ≤ 1 → (max p (n - p) : ℕ) / ((n : K) - 1) * (t - s) ≤ g t - g s ∧
        g t - g s ≤ p * ((n : K) - p) / ((n : K) - 1) * (t - s) := by
  obtain ⟨⟨p', P, U⟩, hc, rfl, hP, hv, hk, hU, hdist, hz, ho, -⟩ := initialize_curve_points ha hb h (by omega)
  dsimp only at *
  have hV := monotone_knotFn hU.mono
  have hp0 : (0 : K) < p' := by exact_mod_cast hp
  have hnp : (0 : K) < (n : K) - p' := by
    have : (p' : K) < n := by exact_mod_cast h
    linarith
  have hn1 : (0 : K) < (n : K) - 1 := by
    have : ((1 : ℕ) : K) < n := by exact_mod_cast (show 1 < n by omega)
    push_cast at this
    linarith
  have hval := fun i hi => (generateUniform_knot (K := K) (i := i) h hk hi).2
  have h0n : knotFn U n = 1 := by rw [hU.right n le_rfl (by omega), ho]
  have h0p : knotFn U p' = 0 := by rw [hU.left p' le_rfl, hz]
  have hreg : ∀ u, 0 ≤ u → u ≤ 1 → Regular p' n U u := by
    intro u hu0 hu1
    refine regular_of_distinct hU hdist hz ho hu0 hu1 fun hcl => ?_
    rw [abs_of_nonpos (by linarith)] at hcl
    have hgap : knotFn U (n - 1) ≤ 1 - 1 / 900000 := by
      have hle : 1 / 900000 ≤ 1 / ((n : K) - p') := by
        refine one_div_le_one_div_of_le hnp ?_
        have : ((n - p' : ℕ) : K) ≤ ((900000 : ℕ) : K) := by exact_mod_cast hn
        rw [Nat.cast_sub h.le] at this
        push_cast at this
        linarith
      rw [hval (n - 1) (by omega)]
      split
      · have : (1 : K) / 900000 ≤ 1 := by norm_num
        linarith
      · rw [if_pos (by omega), Nat.cast_sub (by omega), Nat.cast_one,
          show ((n : K) - 1 - p') / ((n : K) - p') = 1 - 1 / ((n : K) - p') by field_simp; ring]
        linarith
    refine hgap.trans ?_
    have : (1 : K) / 10 ^ 8 + 1 / 10 ^ 6 * 1 ≤ 1 / 900000 := by norm_num
    rw [mul_one] at this
    linarith
  set g : K → K := curve (knotFn U) p' n fun i => (i : K) / ((n : K) - 1) with hg
  have hpt : ∀ u, 0 ≤ u → u ≤ 1 → ∀ k < 3, curve (knotFn U) p' n (coord P k) u
      = a.getD k 0 + g u * (b.getD k 0 - a.getD k 0) := by
    intro u hu0 hu1 k hk
    have e : curve (knotFn U) p' n (coord P k) u = curve (knotFn U) p' n
        (fun i => a.getD k 0 + (b.getD k 0 - a.getD k 0) * ((i : K) / ((n : K) - 1))) u :=
      Finset.sum_congr rfl fun i hi => by rw [hv k hk i (Finset.mem_range.1 hi)]; ring
    rw [e, curve_add_mul, curve_const hU (hreg u hu0 hu1).lo (hreg u hu0 hu1).hi]
    ring
  have hdiff : ∀ i, i + 1 < n → 1 / ((n : K) - p') ≤ knotFn U (i + p' + 1) - knotFn U (i + 1) ∧
      knotFn U (i + p' + 1) - knotFn U (i + 1) ≤ p' / ((n : K) - p') ∧
      knotFn U (i + p' + 1) - knotFn U (i + 1) ≤ 1 := by
    intro i hi
    rw [hval (i + p' + 1) (by omega), hval (i + 1) (by omega), if_neg (show ¬ i + p' + 1 ≤ p' by omega)]
    have hn' : (1 : K) ≤ (n : K) - p' := by
      have : ((p' + 1 : ℕ) : K) ≤ n := by exact_mod_cast h
      push_cast at this
      linarith
    have c1 : ∀ {x y : ℕ}, x ≤ y → (x : K) ≤ y := fun h => by exact_mod_cast h
    have i0 : (0 : K) ≤ i := Nat.cast_nonneg i
    have p1 : (1 : K) ≤ p' := by exact_mod_cast hp
    by_cases A : i + 1 ≤ p' <;> by_cases B : i + p' + 1 < n
    · rw [if_pos A, if_pos B, sub_zero]
      have a := c1 A
      have b := c1 B
      push_cast at a b ⊢
      refine ⟨div_le_div_of_nonneg_right (by linarith) hnp.le, div_le_div_of_nonneg_right (by linarith) hnp.le, ?_⟩
      rw [div_le_one hnp]
      linarith
    · rw [if_pos A, if_neg B, sub_zero, div_le_one hnp, one_le_div hnp]
      have a := c1 A
      have b := c1 (not_lt.1 B)
      push_cast at a b
      exact ⟨hn', by linarith, le_rfl⟩
    · rw [if_neg A, if_pos hi, if_pos B, ← sub_div]
      have a := c1 (not_le.1 A)
      have b := c1 B
      push_cast at a b ⊢
      refine ⟨div_le_div_of_nonneg_right (by linarith) hnp.le, div_le_div_of_nonneg_right (by linarith) hnp.le, ?_⟩
      rw [div_le_one hnp]
      linarith
    · rw [if_neg A, if_pos hi, if_neg B, show (1 : K) = ((n : K) - p') / ((n : K) - p') from (div_self hnp.ne').symm,
        ← sub_div, div_self hnp.ne']
      have a := c1 (not_le.1 A)
      have b := c1 (not_lt.1 B)
      have c := c1 hi
      push_cast at a b c ⊢
      refine ⟨div_le_div_of_nonneg_right (by linarith) hnp.le, div_le_div_of_nonneg_right (by linarith) hnp.le, ?_⟩
      rw [div_le_one hnp]
      linarith
  refine ⟨_, g, hc, ?_, ?_, fun u hu0 hu1 => ?_, fun s t h0 hst h1 => ⟨?_, ?_⟩⟩
  · have := curve_first hU (hdist p' le_rfl h) fun i => (i : K) / ((n : K) - 1)
    rw [hz, Nat.cast_zero, zero_div] at this
    exact this
  · have := curve_last hU fun i => (i : K) / ((n : K) - 1)
    rw [ho, Nat.cast_sub (by omega), Nat.cast_one, div_self hn1.ne'] at this
    exact this
  · have r := hreg u hu0 hu1
    rw [single_point_bspline_sum hU hp hP le_rfl hu0 hu1 r, hpt u hu0 hu1 0 (by norm_num), hpt u hu0 hu1 1 (by norm_num),
      hpt u hu0 hu1 2 (by norm_num)]
    rfl
  · refine curve_slope_ge hU hp (fun i hi => ?_) (hreg s h0 (hst.trans h1)).lo hst (hreg t (h0.trans hst) h1).hi
    obtain ⟨-, d2, d3⟩ := hdiff i hi
    rw [← sub_div, Nat.cast_add, Nat.cast_one, add_sub_cancel_left, div_mul_eq_mul_div, div_mul_eq_mul_div, one_mul]
    refine div_le_div_of_nonneg_right ?_ hn1.le
    rcases max_choice p' (n - p') with e | e
    · rw [e]
      calc (p' : K) * _ ≤ p' * 1 := mul_le_mul_of_nonneg_left d3 hp0.le
        _ = p' := mul_one _
    · rw [e, Nat.cast_sub h.le, mul_comm, ← le_div_iff₀ hnp]
      exact d2
  · refine curve_slope_le hU hp (fun i hi => ?_) (hreg s h0 (hst.trans h1)).lo hst (hreg t (h0.trans hst) h1).hi
    obtain ⟨d1, -, -⟩ := hdiff i hi
    rw [← sub_div, Nat.cast_add, Nat.cast_one, add_sub_cancel_left, div_mul_eq_mul_div, div_mul_eq_mul_div, one_mul]
    refine div_le_div_of_nonneg_right ?_ hn1.le
    rw [div_le_iff₀ hnp] at d1
    calc (p' : K) = p' * 1 := (mul_one _).symm
      _ ≤ p' * _ := mul_le_mul_of_nonneg_left d1 hp0.le
      _ = _ := by ring

/-- **C170.** If the ends differ, different parameters give different points. -/
theorem initialize_curve_parameter_unique {a b : List K} (ha : a.length = 3) (hb : b.length = 3) (hab : a ≠ b) {p n : ℕ}
    (hp : 1 ≤ p) (h : p < n) (hn : n - p ≤ 900000) :
    ∃ c : Curve K, initializeCurve a b p n = .ok c ∧ ∀ s t : K, 0 ≤ s → s ≤ 1 → 0 ≤ t → t ≤ 1 →
      c.singlePoint s = c.singlePoint t → s = t := by
  obtain ⟨c, g, hc, -, -, hpt, hsl⟩ := initialize_curve_speed ha hb hp h hn
  have hpos : (0 : K) < (max p (n - p) : ℕ) / ((n : K) - 1) := by
    have : ((1 : ℕ) : K) < n := by exact_mod_cast (show 1 < n by omega)
    push_cast at this
    refine div_pos ?_ (by linarith)
    exact_mod_cast lt_of_lt_of_le hp (le_max_left _ _)
  obtain ⟨k, hk, hne⟩ : ∃ k < 3, a.getD k 0 ≠ b.getD k 0 := by
    by_contra hcon
    push Not at hcon
    refine hab (List.ext_getElem (by omega) fun k h1 h2 => ?_)
    have := hcon k (by omega)
    simpa [List.getD_eq_getElem?_getD, h1, h2] using this
  have hg : ∀ s t : K, 0 ≤ s → s < t → t ≤ 1 → g s ≠ g t := by
    intro s t h0 hst h1 e
    have h2 := (hsl s t h0 hst.le h1).1
    have h3 := mul_pos hpos (sub_pos.2 hst)
    rw [e] at h2
    linarith
  refine ⟨c, hc, fun s t s0 s1 t0 t1 he => ?_⟩
  rw [hpt s s0 s1, hpt t t0 t1] at he
  have e := congrArg (fun l => List.getD l k 0) (Except.ok.inj he)
  have e' : g s = g t := by
    have hb0 : b.getD k 0 - a.getD k 0 ≠ 0 := sub_ne_zero.2 (Ne.symm hne)
    refine mul_right_cancel₀ hb0 ?_
    interval_cases k <;> simpa using e
  rcases lt_trichotomy s t with q | q | q
  · exact absurd e' (hg s t s0 q t1)
  · exact q
  · exact absurd e'.symm (hg t s t0 q s1)

end

/-! ## The curve as a graph -/

/-- **C170.** Over the reals, with simple knots inside: every value of the coordinate between those of the two ends
is taken at exactly one parameter, so the curve is the graph of a function of this coordinate. -/
theorem single_point_graph {p n : ℕ} {U : List ℝ} {P : List (List ℝ)} (hU : Clamped p n U)
    (hdist : DistinctInterior p n U) (hz : knotFn U 0 = 0) (ho : knotFn U (n + p) = 1)
    (hgap : knotFn U (n - 1) ≤ 1 - (1 / 10 ^ 8 + 1 / 10 ^ 6)) (hp : 1 ≤ p) (hP : Shape P n 3) {k : ℕ} (hk : k < 3)
    (hmono : ∀ i, i + 1 < n → coord P k i ≤ coord P k (i + 1))
    (hspan : ∀ j, p ≤ j → j < n → coord P k (j - p) < coord P k j) {y : ℝ} (h0 : coord P k 0 ≤ y)
    (h1 : y ≤ coord P k (n - 1)) :
    ∃! u : ℝ, (0 ≤ u ∧ u ≤ 1) ∧ ∃ x, Curve.singlePoint ⟨p, P, U⟩ u = .ok x ∧ x.getD k 0 = y := by
  have hsz := hU.size
  have hn : knotFn U n = 1 := by rw [hU.right n le_rfl (by omega), ho]
  have hlast : knotFn U (n - 1) < knotFn U n := by
    have := hdist (n - 1) (by omega) (by omega)
    rwa [show n - 1 + 1 = n by omega] at this
  have hreg : ∀ u : ℝ, 0 ≤ u → u ≤ 1 → Regular p n U u := fun u hu0 hu1 => by
    refine regular_of_distinct hU hdist hz ho hu0 hu1 fun hc => ?_
    rw [abs_of_nonpos (by linarith)] at hc
    linarith
  obtain ⟨f, hf, hcont⟩ := single_point_smooth hU hdist hz ho hgap hp hP le_rfl
  have hget : ∀ u, ([f 0 u, f 1 u, f 2 u] : List ℝ).getD k 0 = f k u := by
    intro u
    interval_cases k <;> rfl
  have f0 : f k 0 = coord P k 0 := by
    have a := single_point_first hU hp hP hz (hdist p le_rfl hsz) ho.ge
    rw [hf 0 ⟨le_rfl, zero_le_one⟩] at a
    rw [← hget, Except.ok.inj a]
    rfl
  have f1 : f k 1 = coord P k (n - 1) := by
    have a := single_point_last hU hp hP ho hlast
    rw [hf 1 ⟨zero_le_one, le_rfl⟩] at a
    rw [← hget, Except.ok.inj a]
    rfl
  obtain ⟨u, hu, hfu⟩ := intermediate_value_Icc zero_le_one (hcont k hk).1
    (show y ∈ Set.Icc (f k 0) (f k 1) from ⟨by rw [f0]; exact h0, by rw [f1]; exact h1⟩)
  have strict : ∀ {s t : ℝ}, 0 ≤ s → s < t → t ≤ 1 → f k s < f k t := by
    intro s t hs hst ht
    obtain ⟨x, z, e1, e2, e3⟩ := single_point_strictly_increasing hU hp hP hk hmono (fun j a b _ => hspan j a b) hs hst ht
      (hreg s hs (hst.le.trans ht)) (hreg t (hs.trans hst.le) ht)
    rw [hf s ⟨hs, hst.le.trans ht⟩] at e1
    rw [hf t ⟨hs.trans hst.le, ht⟩] at e2
    rw [← hget, ← hget, Except.ok.inj e1, Except.ok.inj e2]
    exact e3
  refine ⟨u, ⟨hu, _, hf u hu, (hget u).trans hfu⟩, ?_⟩
  rintro t ⟨ht, x, ex, hx⟩
  rw [hf t ht] at ex
  rw [← Except.ok.inj ex, hget] at hx
  rcases lt_trichotomy t u with g | g | g
  · exact absurd (hx.trans hfu.symm) (strict ht.1 g hu.2).ne
  · exact g
  · exact absurd (hx.trans hfu.symm) (strict hu.1 g ht.2).ne'

/-! ## Concrete cases -/

/-- The first coordinate of `exP` grows by one per control point, the knot averages by `1/8` or `1/4`: slopes between
`4` and `8`. -/
example {s t : ℚ} (h0 : 0 ≤ s) (hst : s ≤ t) (h1 : t ≤ 1) :
    ∃ x y, Curve.singlePoint ⟨2, exP, exU⟩ s = .ok x ∧ Curve.singlePoint ⟨2, exP, exU⟩ t = .ok y ∧
      4 * (t - s) ≤ y.getD 0 0 - x.getD 0 0 ∧ y.getD 0 0 - x.getD 0 0 ≤ 8 * (t - s) :=
  single_point_slopes exU_clamped (by decide) exP_shape (by decide)
    (fun i hi => by have : i < 5 := by omega
                    interval_cases i <;> decide +kernel)
    (fun i hi => by have : i < 5 := by omega
                    interval_cases i <;> decide +kernel) h0 hst h1 (exU_regular h0 (hst.trans h1))
    (exU_regular (h0.trans hst) h1)

/-- Two equal first coordinates in a row do no harm for degree 2, three in a row do. -/
example : (∀ {s t : ℚ}, 0 ≤ s → s < t → t ≤ 1 → ∃ x y,
      Curve.singlePoint ⟨2, [[0, 0, 0], [0, 2, 0], [2, 0, 1], [2, 1, 0], [4, 4, 0], [4, 0, 2]], exU⟩ s = .ok x ∧
      Curve.singlePoint ⟨2, [[0, 0, 0], [0, 2, 0], [2, 0, 1], [2, 1, 0], [4, 4, 0], [4, 0, 2]], exU⟩ t = .ok y ∧
      x.getD 0 0 < y.getD 0 0) ∧
    Curve.singlePoint ⟨2, [[0, 0, 0], [2, 2, 0], [2, 0, 1], [2, 1, 0], [4, 4, 0], [4, 0, 2]], exU⟩ (3 / 10)
      = .ok [2, 33/50, 33/50] ∧
    Curve.singlePoint ⟨2, [[0, 0, 0], [2, 2, 0], [2, 0, 1], [2, 1, 0], [4, 4, 0], [4, 0, 2]], exU⟩ (2 / 5)
      = .ok [2, 17/50, 37/50] := by
  refine ⟨fun {s t} h0 hst h1 => ?_, by decide +kernel, by decide +kernel⟩
  refine single_point_strictly_increasing exU_clamped (by decide) ⟨rfl, by decide +kernel⟩ (by decide) (fun i hi => ?_)
    (fun j h1 h2 _ => ?_) h0 hst h1 (exU_regular h0 (hst.le.trans h1)) (exU_regular (h0.trans hst.le) h1)
  · have : i < 5 := by omega
    interval_cases i <;> decide +kernel
  · interval_cases j <;> decide +kernel

/-- `exS` is a height field. -/
example {u v u' v' : ℚ} (hu : 0 ≤ u ∧ u ≤ 1) (hv : 0 ≤ v ∧ v ≤ 1) (hu' : 0 ≤ u' ∧ u' ≤ 1) (hv' : 0 ≤ v' ∧ v' ≤ 1)
    (h : exS.singlePoint u v = exS.singlePoint u' v') : u = u' ∧ v = v' :=
  have ru : ∀ {x : ℚ}, 0 ≤ x → x ≤ 1 → Regular exS.degreeU exS.numU exS.kvU x := fun {x} h0 h1 =>
    regular_of_distinct exS_clamped.cu (fun i a b => by
      change 2 ≤ i at a; change i < 4 at b
      interval_cases i <;> decide +kernel) (by decide +kernel) (by decide +kernel) h0 h1 fun hc => by
        have e : knotFn exS.kvU (exS.numU - 1) = 1 / 2 := by decide +kernel
        rw [abs_of_nonpos (by linarith)] at hc
        rw [e]
        norm_num at hc
        linarith
  have rv : ∀ {x : ℚ}, 0 ≤ x → x ≤ 1 → Regular exS.degreeV exS.numV exS.kvV x := fun {x} h0 h1 =>
    regular_of_distinct exS_clamped.cv (fun i a b => by
      change 1 ≤ i at a; change i < 3 at b
      interval_cases i <;> decide +kernel) (by decide +kernel) (by decide +kernel) h0 h1 fun hc => by
        have e : knotFn exS.kvV (exS.numV - 1) = 1 / 2 := by decide +kernel
        rw [abs_of_nonpos (by linarith)] at hc
        rw [e]
        norm_num at hc
        linarith
  surface_parameters_unique exS_clamped (X := fun i => i) (Y := fun j => j) (fun i _ => by push_cast; linarith)
    (fun j _ => by push_cast; linarith)
    (fun i hi j hj => by
      change i < 4 at hi; change j < 3 at hj
      interval_cases i <;> interval_cases j <;> decide +kernel)
    (fun i hi j hj => by
      change i < 4 at hi; change j < 3 at hj
      interval_cases i <;> interval_cases j <;> decide +kernel)
    hu hv hu' hv' (ru hu.1 hu.2) (rv hv.1 hv.2) (ru hu'.1 hu'.2) (rv hv'.1 hv'.2) h

/-- A quadratic initial curve with four control points: `7/8` of three units are passed at `1/4`. -/
example : ∃ (c : Curve ℚ) (g : ℚ → ℚ), initializeCurve [0, 0, 0] [3, 0, 0] 2 4 = .ok c ∧
    (∀ u, 0 ≤ u → u ≤ 1 → c.singlePoint u
        = .ok ((List.range 3).map fun k => ([0, 0, 0] : List ℚ).getD k 0 + g u * (([3, 0, 0] : List ℚ).getD k 0 -
          ([0, 0, 0] : List ℚ).getD k 0))) ∧
    ∀ s t, 0 ≤ s → s ≤ t → t ≤ 1 → 2 / 3 * (t - s) ≤ g t - g s ∧ g t - g s ≤ 4 / 3 * (t - s) := by
  obtain ⟨c, g, h1, -, -, h2, h3⟩ := initialize_curve_speed (K := ℚ) (a := [0, 0, 0]) (b := [3, 0, 0]) (p := 2) (n := 4)
    rfl rfl (by decide) (by decide) (by decide)
  refine ⟨c, g, h1, h2, fun s t a b d => ?_⟩
  have := h3 s t a b d
  norm_num at this ⊢
  exact this

/-- The curve of `Props/Smooth.lean` with `x` coordinates `0, 1, 3, 4`. -/
example {y : ℝ} (h0 : 0 ≤ y) (h1 : y ≤ 4) : ∃! u : ℝ, (0 ≤ u ∧ u ≤ 1) ∧
    ∃ x, Curve.singlePoint ⟨2, [[0, 0, 0], [1, 2, 0], [3, 2, 0], [4, 0, 0]], exR⟩ u = .ok x ∧ x.getD 0 0 = y := by
  refine single_point_graph exR_clamped
    (fun i h1 h2 => by interval_cases i <;> (simp [exR, knotFn]; try norm_num)) (by simp [exR, knotFn]) (by simp [exR, knotFn])
    (by simp [exR, knotFn]; norm_num) (by decide) ⟨rfl, by simp⟩ (by decide) (fun i hi => ?_) (fun j a b => ?_)
    (by simpa [coord] using h0) (by simpa [coord] using h1)
  · have : i < 3 := by omega
    interval_cases i <;> norm_num [coord]
  · interval_cases j <;> norm_num [coord]

end PySpline
