import Verif.Lemmas.IeeeSessionEval
import Verif.Props.IeeeProblems

/-!
# C194: fitted curves and surfaces, evaluated in IEEE arithmetic
-/

set_option linter.unusedSectionVars false
set_option exponentiation.threshold 1100

namespace PySpline

open Spec Ext Finset

/-- **C194.** A curve of doubles on the knots of `generate_uniform`, of degree at most ten, with at most `2^19` control points of
size at most `X ≤ 2^1000`, evaluated by `single_point` in double precision with overflow and underflow at a double in `[0, 1]`:
a point is returned, and every possible result consists of three numbers that agree with the curve up to
`1e-14 X + (X + 1) 2^-1045`. -/
theorem uniform_curve_evaluates_binary64 {X : ℚ} (hX : X ≤ 2 ^ 1000) {p n : ℕ} (hp : 1 ≤ p) (hp10 : p ≤ 10) (hpn : p < n)
    (hn : n ≤ 2 ^ 19) {P : List (List ℚ)} {U : List ℚ} (hU : generateUniformFl fl64 p n = .ok U) (hP : Shape P n 3)
    (hst : StoredCurve bin64 X ⟨p, P, U⟩) {u : ℚ} (h0 : 0 ≤ u) (h1 : u ≤ 1) (hu : bin64 u = fin u) :
    (∃ pt, Curve.PointR bin64 (Curve.mk p P U).lift (fin u) pt) ∧
    ∀ pt, Curve.PointR bin64 (Curve.mk p P U).lift (fin u) pt → ∃ q : List ℚ, pt = q.map fin ∧ q.length = 3 ∧
      ∀ k < 3, |q.getD k 0 - curve (knotFn U) p n (coord P k) u| ≤ 1 / 10 ^ 14 * X + (X + 1) * (1 / 2 ^ 1045) := by
  have hk := uniform_double_unit hpn (hn.trans (by norm_num)) hU
  have hC : ∀ k < 3, ∀ i < n, |coord P k i| ≤ X := fun k hk i hi => (coord_of_forall_mem hP hst.pts hk hi).2
  obtain ⟨ex, all⟩ := single_point_binary64 hk.toClamped (uniform_double_gap hpn (hn.trans (by norm_num)) hU) hk.zero hk.one
    (uniform_double_last hpn hn hU) hp hp10 hP le_rfl h0 h1 hst.knots hu hC hX
  refine ⟨ex, fun pt hpt => ?_⟩
  obtain ⟨q, e, l, h⟩ := all pt hpt
  refine ⟨q, e, l, fun k hk3 => (h k hk3).trans ?_⟩
  have : curve (knotFn U) p n (fun i => |coord P k i|) u ≤ X := curve_le_bound hk.toClamped
    ⟨by rw [hk.left p le_rfl, hk.zero]; exact h0, by rw [hk.right n le_rfl (by omega), hk.one]; exact h1⟩ (hC k hk3)
  linarith [mul_le_mul_of_nonneg_left this (by positivity : (0 : ℚ) ≤ 1 / 10 ^ 14)]

/-- **C194.** The same for surfaces of degrees at most five, on any clamped knots of doubles over `[0, 1]` that are at least
`2^-1000` apart and whose last interior knot is away from `1`. -/
theorem stored_surface_evaluates_binary64 {X : ℚ} (hX : X ≤ 2 ^ 1000) {p n q m : ℕ} (hp : 1 ≤ p) (hp5 : p ≤ 5) (hq : 1 ≤ q)
    (hq5 : q ≤ 5) {P : List (List ℚ)} {U V : List ℚ} (ku : UnitKnots p n U) (kv : UnitKnots q m V)
    (gu : ∀ i, p ≤ i → i < n → 1 / 2 ^ 1000 ≤ knotFn U (i + 1) - knotFn U i)
    (gv : ∀ i, q ≤ i → i < m → 1 / 2 ^ 1000 ≤ knotFn V (i + 1) - knotFn V i)
    (lu : knotFn U (n - 1) ≤ 1 - 102 / 10 ^ 8) (lv : knotFn V (m - 1) ≤ 1 - 102 / 10 ^ 8) (hP : Shape P (n * m) 3)
    (hst : StoredSurface bin64 X ⟨p, q, n, m, P, U, V⟩) {u v : ℚ} (hu : 0 ≤ u ∧ u ≤ 1) (hv : 0 ≤ v ∧ v ≤ 1)
    (hu' : bin64 u = fin u) (hv' : bin64 v = fin v) :
    (∃ pt, Surface.PointR bin64 (Surface.mk p q n m P U V).lift (fin u) (fin v) pt) ∧
    ∀ pt, Surface.PointR bin64 (Surface.mk p q n m P U V).lift (fin u) (fin v) pt → ∃ w : List ℚ, pt = w.map fin ∧ w.length = 3 ∧
      ∀ k < 3, |w.getD k 0 - surface (knotFn U) p n (knotFn V) q m (coord P k) u v|
        ≤ 1 / 10 ^ 14 * X + (X + 1) * (1 / 2 ^ 1045) := by
  have sn := ku.size
  have sm := kv.size
  have hC : ∀ k < 3, ∀ i < n * m, |coord P k i| ≤ X := fun k hk i hi => (coord_of_forall_mem hP hst.pts hk hi).2
  have hX0 : 0 ≤ X := (abs_nonneg _).trans (hC 0 (by norm_num) 0 (Nat.mul_pos (by omega) (by omega)))
  obtain ⟨ex, all⟩ := surface_point_binary64 (s := ⟨p, q, n, m, P, U, V⟩) ⟨ku.toClamped, kv.toClamped, hp, hq, hP⟩ hp5 hq5
    gu gv ku kv lu lv hu hv hst.knotsU hst.knotsV hu' hv' hC hX
  refine ⟨ex, fun pt hpt => ?_⟩
  obtain ⟨w, e, l, h⟩ := all pt hpt
  refine ⟨w, e, l, fun k hk3 => (h k hk3).trans ?_⟩
  dsimp only
  have : surface (knotFn U) p n (knotFn V) q m (fun i => |coord P k i|) u v ≤ X := surface_le_bound ku.toClamped kv.toClamped
    ⟨by rw [ku.left p le_rfl, ku.zero]; exact hu.1, by rw [ku.right n le_rfl (by omega), ku.one]; exact hu.2⟩
    ⟨by rw [kv.left q le_rfl, kv.zero]; exact hv.1, by rw [kv.right m le_rfl (by omega), kv.one]; exact hv.2⟩
    fun i hi j hj => hC k hk3 _ (index_lt hi hj)
  have h2 : (X + 1) * (1 / 2 ^ 1050) ≤ (X + 1) * (1 / 2 ^ 1045) := mul_le_mul_of_nonneg_left
    (one_div_le_one_div_of_le (by positivity) (pow_le_pow_right₀ (by norm_num) (by norm_num))) (by linarith)
  linarith [mul_le_mul_of_nonneg_left this (by positivity : (0 : ℚ) ≤ 1 / 10 ^ 14)]

/-- **C194.** In particular on the knots of `generate_uniform`. -/
theorem uniform_surface_evaluates_binary64 {X : ℚ} (hX : X ≤ 2 ^ 1000) {p n q m : ℕ} (hp : 1 ≤ p) (hp5 : p ≤ 5) (hpn : p < n)
    (hn : n ≤ 2 ^ 19) (hq : 1 ≤ q) (hq5 : q ≤ 5) (hqm : q < m) (hm : m ≤ 2 ^ 19) {P : List (List ℚ)} {U V : List ℚ}
    (hU : generateUniformFl fl64 p n = .ok U) (hV : generateUniformFl fl64 q m = .ok V) (hP : Shape P (n * m) 3)
    (hst : StoredSurface bin64 X ⟨p, q, n, m, P, U, V⟩) {u v : ℚ} (hu : 0 ≤ u ∧ u ≤ 1) (hv : 0 ≤ v ∧ v ≤ 1)
    (hu' : bin64 u = fin u) (hv' : bin64 v = fin v) :
    (∃ pt, Surface.PointR bin64 (Surface.mk p q n m P U V).lift (fin u) (fin v) pt) ∧
    ∀ pt, Surface.PointR bin64 (Surface.mk p q n m P U V).lift (fin u) (fin v) pt → ∃ w : List ℚ, pt = w.map fin ∧ w.length = 3 ∧
      ∀ k < 3, |w.getD k 0 - surface (knotFn U) p n (knotFn V) q m (coord P k) u v|
        ≤ 1 / 10 ^ 14 * X + (X + 1) * (1 / 2 ^ 1045) :=
  stored_surface_evaluates_binary64 hX hp hp5 hq hq5 (uniform_double_unit hpn (hn.trans (by norm_num)) hU)
    (uniform_double_unit hqm (hm.trans (by norm_num)) hV) (uniform_double_gap hpn (hn.trans (by norm_num)) hU)
    (uniform_double_gap hqm (hm.trans (by norm_num)) hV) (uniform_double_last hpn hn hU) (uniform_double_last hqm hm hV) hP hst
    hu hv hu' hv'

/-- **C194.** If such a surface, with control points of size at most `2 B`, has its corner control points in four given points, those
of the top edge up to `B 2^-47`, then it evaluates at its corners to these points up to `B 2^-44`. -/
theorem stored_surface_corners_binary64 {B : ℚ} (hB0 : 1 / 2 ^ 1000 ≤ B) (hB1 : 2 * B ≤ 2 ^ 1000) {p n q m : ℕ} (hp : 1 ≤ p)
    (hp5 : p ≤ 5) (hq : 1 ≤ q) (hq5 : q ≤ 5) {P : List (List ℚ)} {U V : List ℚ} (ku : UnitKnots p n U) (kv : UnitKnots q m V)
    (gu : ∀ i, p ≤ i → i < n → 1 / 2 ^ 1000 ≤ knotFn U (i + 1) - knotFn U i)
    (gv : ∀ i, q ≤ i → i < m → 1 / 2 ^ 1000 ≤ knotFn V (i + 1) - knotFn V i)
    (lu : knotFn U (n - 1) ≤ 1 - 102 / 10 ^ 8) (lv : knotFn V (m - 1) ≤ 1 - 102 / 10 ^ 8) (hP : Shape P (n * m) 3)
    (hS : StoredSurface bin64 (2 * B) ⟨p, q, n, m, P, U, V⟩) {st et sb eb : List ℚ}
    (hc : ∀ k < 3, coord P k 0 = sb.getD k 0 ∧ coord P k ((n - 1) * m) = eb.getD k 0 ∧
      |coord P k (m - 1) - st.getD k 0| ≤ B / 2 ^ 47 ∧ |coord P k ((n - 1) * m + (m - 1)) - et.getD k 0| ≤ B / 2 ^ 47)
    {u v : ℚ} (hu : 0 ≤ u ∧ u ≤ 1) (hv : 0 ≤ v ∧ v ≤ 1) (hu' : bin64 u = fin u) (hv' : bin64 v = fin v) :
    (∃ pt, Surface.PointR bin64 (Surface.mk p q n m P U V).lift (fin u) (fin v) pt) ∧
    ∀ pt, Surface.PointR bin64 (Surface.mk p q n m P U V).lift (fin u) (fin v) pt → ∃ w : List ℚ, pt = w.map fin ∧ w.length = 3 ∧
      ∀ k < 3, |w.getD k 0| ≤ 2 * B + B / 2 ^ 44 ∧
        (u = 0 → v = 0 → |w.getD k 0 - sb.getD k 0| ≤ B / 2 ^ 44) ∧
        (u = 1 → v = 0 → |w.getD k 0 - eb.getD k 0| ≤ B / 2 ^ 44) ∧
        (u = 0 → v = 1 → |w.getD k 0 - st.getD k 0| ≤ B / 2 ^ 44) ∧
        (u = 1 → v = 1 → |w.getD k 0 - et.getD k 0| ≤ B / 2 ^ 44) := by
  have hB : 0 < B := lt_of_lt_of_le (by positivity) hB0
  have sn := ku.size
  have sm := kv.size
  obtain ⟨ex, all⟩ := stored_surface_evaluates_binary64 hB1 hp hp5 hq hq5 ku kv gu gv lu lv hP hS hu hv hu' hv'
  refine ⟨ex, fun pt hpt => ?_⟩
  obtain ⟨w, eq, l, hw⟩ := all pt hpt
  have hsh := eval_share hB0
  have h47 : 0 ≤ B / 2 ^ 47 := by positivity
  refine ⟨w, eq, l, fun k hk => ?_⟩
  have hwk := hw k hk
  have hck := hc k hk
  obtain ⟨v00, v10, v01, v11⟩ := value_corners (s := ⟨p, q, n, m, P, U, V⟩) ku kv k
  unfold Surface.value at v00 v10 v01 v11
  dsimp only at v00 v10 v01 v11
  have near : ∀ {x y z : ℚ}, |x - y| ≤ 1 / 10 ^ 14 * (2 * B) + (2 * B + 1) * (1 / 2 ^ 1045) → |y - z| ≤ B / 2 ^ 47 →
      |x - z| ≤ B / 2 ^ 44 := fun {x y z} h1 h2 => by
    have := abs_sub_le x y z
    exact this.trans ((add_le_add h1 h2).trans hsh)
  have zero : ∀ {x y : ℚ}, x = y → |x - y| ≤ B / 2 ^ 47 := fun h => by
    rw [h, sub_self, abs_zero]
    exact h47
  refine ⟨?_, ?_, ?_, ?_, ?_⟩
  · have hC : ∀ i < n, ∀ j < m, |coord P k (i * m + j)| ≤ 2 * B := fun i hi j hj =>
      (coord_of_forall_mem hP hS.pts hk (index_lt hi hj)).2
    have hr : knotFn U p ≤ u ∧ u ≤ knotFn U n :=
      ⟨by rw [ku.left p le_rfl, ku.zero]; exact hu.1, by rw [ku.right n le_rfl (by omega), ku.one]; exact hu.2⟩
    have hr' : knotFn V q ≤ v ∧ v ≤ knotFn V m :=
      ⟨by rw [kv.left q le_rfl, kv.zero]; exact hv.1, by rw [kv.right m le_rfl (by omega), kv.one]; exact hv.2⟩
    have a1 := surface_le_bound ku.toClamped kv.toClamped hr hr' (c := coord P k) fun i hi j hj => (abs_le.1 (hC i hi j hj)).2
    have a2 := surface_le_bound ku.toClamped kv.toClamped hr hr' (c := fun i => -coord P k i) (M := 2 * B) fun i hi j hj => by
      linarith [(abs_le.1 (hC i hi j hj)).1]
    have a3 : surface (knotFn U) p n (knotFn V) q m (fun i => -coord P k i) u v
        = -surface (knotFn U) p n (knotFn V) q m (coord P k) u v := by
      unfold surface
      simp only [neg_mul, sum_neg_distrib]
    rw [a3] at a2
    have := abs_le.1 (near hwk (zero rfl))
    exact abs_le.2 ⟨by linarith [this.1], by linarith [this.2]⟩
  · rintro rfl rfl
    exact near hwk (zero (v00.trans hck.1))
  · rintro rfl rfl
    exact near hwk (zero (v10.trans hck.2.1))
  · rintro rfl rfl
    exact near hwk (by rw [v01]; exact hck.2.2.1)
  · rintro rfl rfl
    exact near hwk (by rw [v11]; exact hck.2.2.2)
section
variable {E : Err → Prop} {B : ℚ} {ls : ℕ → List (List (Ext ℚ)) → List (Ext ℚ) → Py (List (Ext ℚ))}
  {inv : Curve (Ext ℚ) → List (Ext ℚ) → Py (Ext ℚ)}

/-- **C194.** A boundary fitted in double precision with fixed control points (C193), evaluated in double precision: every result
consists of numbers of size at most `B + B 2^-44`, and at the parameters `0` and `1` they agree with the end points that were
given to the problem up to `B 2^-44`. -/
theorem boundary_evaluates_binary64 (hB0 : 1 / 2 ^ 1000 ≤ B) (hB1 : B ≤ 2 ^ 1000) (hls : TameSolver bin64 (2 ^ 1023) B E ls)
    (hinv : TameCurveInversion bin64 E inv) {data : List (List ℚ)} (h3 : ∀ pt ∈ data, pt.length = 3)
    (hdata : ∀ pt ∈ data, ∀ x ∈ pt, bin64 x = fin x ∧ |x| ≤ B) {s e : List ℚ} (hs : s.length = 3) (he : e.length = 3)
    (hsB : ∀ x ∈ s, bin64 x = fin x ∧ |x| ≤ B) (heB : ∀ x ∈ e, bin64 x = fin x ∧ |x| ≤ B) {p n fuel : ℕ} (hp : 1 ≤ p)
    (hp10 : p ≤ 10) (hpn : p < n) (hn : 3 < n) (hn' : n ≤ 2 ^ 19) (hf : 0 < fuel)
    (hsize : 6 * p + n + data.length ≤ 10 ^ 8) {f : Fitted (Ext ℚ)}
    (hfit : BoundaryFitR bin64 fuel ls inv false (lift1 s) (lift1 e) p n (lift2 data) (.ok f)) {u : ℚ} (h0 : 0 ≤ u) (h1 : u ≤ 1)
    (hu : bin64 u = fin u) :
    (∃ pt, Curve.PointR bin64 f.fitCurve (fin u) pt) ∧
    ∀ pt, Curve.PointR bin64 f.fitCurve (fin u) pt → ∃ q : List ℚ, pt = q.map fin ∧ q.length = 3 ∧
      ∀ k < 3, |q.getD k 0| ≤ B + B / 2 ^ 44 ∧ (u = 0 → |q.getD k 0 - s.getD k 0| ≤ B / 2 ^ 44) ∧
        (u = 1 → |q.getD k 0 - e.getD k 0| ≤ B / 2 ^ 44) := by
  have hB : 0 < B := lt_of_lt_of_le (by positivity) hB0
  have hB2 : B ≤ 2 ^ 1019 := hB1.trans (pow_le_pow_right₀ (by norm_num) (by norm_num))
  rcases (boundary_fit_fixed_binary64 hB0 hB2 hls hinv h3 hdata hs he hsB heB hp hp10 hpn hn (hn'.trans (by norm_num)) hf
    hsize).2 _ hfit with ⟨_, _, h⟩ | ⟨P, U, f', h, hb, hU⟩
  · cases h
  cases h
  rw [hb.curve]
  obtain ⟨ex, all⟩ := uniform_curve_evaluates_binary64 hB1 hp hp10 hpn hn' hU hb.shape hb.stored h0 h1 hu
  refine ⟨ex, fun pt hpt => ?_⟩
  obtain ⟨q, eq, l, h⟩ := all pt hpt
  have hk := uniform_double_unit hpn (hn'.trans (by norm_num)) hU
  have hsh := eval_share hB0
  have hz : (0 : ℚ) < 1 / 2 ^ 1045 := by positivity
  have hx : 1 / 10 ^ 14 * B + (B + 1) * (1 / 2 ^ 1045) ≤ B / 2 ^ 44 := by
    have h1 : 0 ≤ 1 / 10 ^ 14 * B := by positivity
    have h2 : 0 ≤ B * (1 / 2 ^ 1045) := mul_nonneg hB.le hz.le
    have h3 : 0 ≤ B / 2 ^ 47 := by positivity
    generalize (1 : ℚ) / 2 ^ 1045 = z at *
    linarith
  have hC : ∀ k < 3, ∀ i < n, |coord P k i| ≤ B := fun k hk i hi => (coord_of_forall_mem hb.shape hb.stored.pts hk hi).2
  have hr : knotFn U p ≤ u ∧ u ≤ knotFn U n :=
    ⟨by rw [hk.left p le_rfl, hk.zero]; exact h0, by rw [hk.right n le_rfl (by omega), hk.one]; exact h1⟩
  refine ⟨q, eq, l, fun k hk3 => ?_⟩
  have hq := (h k hk3).trans hx
  refine ⟨?_, fun h => ?_, fun h => ?_⟩
  · have a1 := curve_le_bound hk.toClamped hr (c := coord P k) (M := B) fun i hi => (abs_le.1 (hC k hk3 i hi)).2
    have a2 := curve_le_bound hk.toClamped hr (c := fun i => -coord P k i) (M := B) fun i hi => by
      linarith [(abs_le.1 (hC k hk3 i hi)).1]
    have a3 : curve (knotFn U) p n (fun i => -coord P k i) u = -curve (knotFn U) p n (coord P k) u := by
      unfold curve
      rw [← sum_neg_distrib]
      exact sum_congr rfl fun i _ => by ring
    rw [a3] at a2
    have := abs_le.1 hq
    exact abs_le.2 ⟨by linarith [this.1], by linarith [this.2]⟩
  · subst h
    have := curve_first hk.toClamped hk.first (coord P k)
    rw [hk.zero] at this
    rw [this, coord, hb.start] at hq
    exact hq
  · subst h
    have := curve_last hk.toClamped (coord P k)
    rw [hk.one] at this
    rw [this, coord, hb.stop] at hq
    exact hq

end

section
variable {E : Err → Prop} {cinv : Curve (Ext ℚ) → List (Ext ℚ) → Py (Ext ℚ)}
  {sinv : Surface (Ext ℚ) → List (Ext ℚ) → Py (Ext ℚ × Ext ℚ)}

/-- **C194.** `session_evaluates_binary64` with any solver and any inversions that return doubles of the size in question or raise
exceptions of a class `E`. -/
theorem session_with_evaluates_binary64 {B : ℚ} (hB0 : 1 / 2 ^ 1000 ≤ B) (hB1 : 2 * B ≤ 2 ^ 1000)
    {ls : ℕ → List (List (Ext ℚ)) → List (Ext ℚ) → Py (List (Ext ℚ))}
    (hls : TameSolver bin64 (2 ^ 1023) B E ls)
    (hcI : TameCurveInversion bin64 E cinv) (hsI : TameSurfaceInversion bin64 E sinv)
    {st et sb eb : List ℚ} (hst : st.length = 3) (het : et.length = 3) (hsb : sb.length = 3) (heb : eb.length = 3)
    (hends : ∀ x ∈ st ++ et ++ sb ++ eb, bin64 x = fin x ∧ |x| ≤ B) {dt db data : List (List ℚ)}
    (h3 : ∀ pt ∈ dt ++ db ++ data, pt.length = 3)
    (hdata : ∀ pt ∈ dt ++ db ++ data, ∀ x ∈ pt, bin64 x = fin x ∧ |x| ≤ B) {p n q m fuel : ℕ} (hp : 1 ≤ p) (hp5 : p ≤ 5)
    (hpn : p < n) (hn : 3 < n) (hn' : n ≤ 2 ^ 19) (hq : 1 ≤ q) (hq5 : q ≤ 5) (hqm : q < m) (hm : m ≤ 2 ^ 19) (hf : 0 < fuel)
    (hsize : 200 + n * m + dt.length + db.length + data.length ≤ 10 ^ 8) {t b : Fitted (Ext ℚ)} {s : Surface (Ext ℚ)}
    {rows : List (List (Ext ℚ))}
    (ht : BoundaryFitR bin64 fuel ls cinv false (lift1 st)
      (lift1 et) p n (lift2 dt) (.ok t))
    (hb : BoundaryFitR bin64 fuel ls cinv false (lift1 sb)
      (lift1 eb) p n (lift2 db) (.ok b))
    (hs : InteriorFitR bin64 ls sinv t b q m (lift2 data)
      (.ok (s, rows)))
    {u v : ℚ} (hu : 0 ≤ u ∧ u ≤ 1) (hv : 0 ≤ v ∧ v ≤ 1) (hu' : bin64 u = fin u) (hv' : bin64 v = fin v) :
    (∃ pt, Surface.PointR bin64 s (fin u) (fin v) pt) ∧
    ∀ pt, Surface.PointR bin64 s (fin u) (fin v) pt → ∃ w : List ℚ, pt = w.map fin ∧ w.length = 3 ∧
      ∀ k < 3, |w.getD k 0| ≤ 2 * B + B / 2 ^ 44 ∧
        (u = 0 → v = 0 → |w.getD k 0 - sb.getD k 0| ≤ B / 2 ^ 44) ∧
        (u = 1 → v = 0 → |w.getD k 0 - eb.getD k 0| ≤ B / 2 ^ 44) ∧
        (u = 0 → v = 1 → |w.getD k 0 - st.getD k 0| ≤ B / 2 ^ 44) ∧
        (u = 1 → v = 1 → |w.getD k 0 - et.getD k 0| ≤ B / 2 ^ 44) := by
  have hB : 0 < B := lt_of_lt_of_le (by positivity) hB0
  have hB2 : 2 * B ≤ 2 ^ 1019 := hB1.trans (pow_le_pow_right₀ (by norm_num) (by norm_num))
  rcases (session_with_binary64 hB0 hB2 hls hcI hsI hst het hsb heb hends h3 hdata hp (by omega) hpn hn
    (hn'.trans (by norm_num)) hq (by omega) hqm hf hsize).2 _ _ ht hb with ⟨_, _, h | h⟩ | ⟨t', b', e1, e2, _, h⟩
  · cases h
  · cases h
  cases e1
  cases e2
  rcases h _ hs with ⟨_, _, h⟩ | ⟨P, U, V, rows', h, hP, hS, hU, hV, -, hc⟩
  · cases h
  cases h
  exact stored_surface_corners_binary64 hB0 hB1 hp hp5 hq hq5 (uniform_double_unit hpn (hn'.trans (by norm_num)) hU)
    (uniform_double_unit hqm (hm.trans (by norm_num)) hV) (uniform_double_gap hpn (hn'.trans (by norm_num)) hU)
    (uniform_double_gap hqm (hm.trans (by norm_num)) hV) (uniform_double_last hpn hn' hU) (uniform_double_last hqm hm hV) hP hS hc
    hu hv hu' hv'

end

section
variable {A : Arith ℚ} {eps1 eps2 : Ext ℚ} {maxIter : ℤ} {fuelI : ℕ}

/-- **C194.** The surface at the end of a session in double precision (C193), with degrees at most five, at most `2^19` control
points in each direction and numbers of size at most `B ≤ 2^999`, evaluated in double precision at doubles in `[0, 1]`: a point
is returned, and every possible result consists of numbers of size at most `2 B + B 2^-44`; at the four corners they agree with
the four end points that were given to the two boundary problems up to `B 2^-44`. -/
theorem session_evaluates_binary64 {B : ℚ} (hB0 : 1 / 2 ^ 1000 ≤ B) (hB1 : 2 * B ≤ 2 ^ 1000)
    {ls : ℕ → List (List (Ext ℚ)) → List (Ext ℚ) → Py (List (Ext ℚ))}
    (hls : TameSolver bin64 (2 ^ 1023) B (· ≠ .diverged) ls) (hA : A.Stored bin64) (hAt : A.Total) (hAp : A.Propagates)
    {cv : Curve (Ext ℚ) → CurveLike (Ext ℚ)} (hcv : ∀ c, (cv c).Checks ∧ (cv c).TotalE)
    {sv : Surface (Ext ℚ) → SurfLike (Ext ℚ)} (hsv : ∀ s, (sv s).Checks ∧ (sv s).TotalE)
    (hrow : ∀ s u v m, (sv s).ders u v = .ok m → ∀ row ∈ m, row ≠ []) (hfI : maxIter + 2 ≤ fuelI) (hfI1 : 1 ≤ fuelI)
    {st et sb eb : List ℚ} (hst : st.length = 3) (het : et.length = 3) (hsb : sb.length = 3) (heb : eb.length = 3)
    (hends : ∀ x ∈ st ++ et ++ sb ++ eb, bin64 x = fin x ∧ |x| ≤ B) {dt db data : List (List ℚ)}
    (h3 : ∀ pt ∈ dt ++ db ++ data, pt.length = 3)
    (hdata : ∀ pt ∈ dt ++ db ++ data, ∀ x ∈ pt, bin64 x = fin x ∧ |x| ≤ B) {p n q m fuel : ℕ} (hp : 1 ≤ p) (hp5 : p ≤ 5)
    (hpn : p < n) (hn : 3 < n) (hn' : n ≤ 2 ^ 19) (hq : 1 ≤ q) (hq5 : q ≤ 5) (hqm : q < m) (hm : m ≤ 2 ^ 19) (hf : 0 < fuel)
    (hsize : 200 + n * m + dt.length + db.length + data.length ≤ 10 ^ 8) {t b : Fitted (Ext ℚ)} {s : Surface (Ext ℚ)}
    {rows : List (List (Ext ℚ))}
    (ht : BoundaryFitR bin64 fuel ls (fun c pt => curveInversionA fuelI A (cv c) pt eps1 eps2 maxIter) false (lift1 st)
      (lift1 et) p n (lift2 dt) (.ok t))
    (hb : BoundaryFitR bin64 fuel ls (fun c pt => curveInversionA fuelI A (cv c) pt eps1 eps2 maxIter) false (lift1 sb)
      (lift1 eb) p n (lift2 db) (.ok b))
    (hs : InteriorFitR bin64 ls (fun s pt => surfaceInversionA fuelI A (sv s) pt eps1 eps2 maxIter) t b q m (lift2 data)
      (.ok (s, rows)))
    {u v : ℚ} (hu : 0 ≤ u ∧ u ≤ 1) (hv : 0 ≤ v ∧ v ≤ 1) (hu' : bin64 u = fin u) (hv' : bin64 v = fin v) :
    (∃ pt, Surface.PointR bin64 s (fin u) (fin v) pt) ∧
    ∀ pt, Surface.PointR bin64 s (fin u) (fin v) pt → ∃ w : List ℚ, pt = w.map fin ∧ w.length = 3 ∧
      ∀ k < 3, |w.getD k 0| ≤ 2 * B + B / 2 ^ 44 ∧
        (u = 0 → v = 0 → |w.getD k 0 - sb.getD k 0| ≤ B / 2 ^ 44) ∧
        (u = 1 → v = 0 → |w.getD k 0 - eb.getD k 0| ≤ B / 2 ^ 44) ∧
        (u = 0 → v = 1 → |w.getD k 0 - st.getD k 0| ≤ B / 2 ^ 44) ∧
        (u = 1 → v = 1 → |w.getD k 0 - et.getD k 0| ≤ B / 2 ^ 44) :=
  session_with_evaluates_binary64 hB0 hB1 hls (own_curve_inversion_tame (eps1 := eps1) (eps2 := eps2) hA hAt hcv hfI hfI1)
    (own_surface_inversion_tame (eps1 := eps1) (eps2 := eps2) (maxIter := maxIter) (fuelI := fuelI) hA hAt hAp hsv hrow
      (by omega) hfI1) hst het hsb heb hends h3 hdata hp hp5 hpn hn hn' hq hq5 hqm hm
    hf hsize ht hb hs hu hv hu' hv'

end

/-! ## Concrete cases -/

/-- C194: a parabola with a control point of size `2^900`, at the double next to one third. -/
example : (∃ pt, Curve.PointR bin64 (Curve.mk 2 [[0, 0, 0], [1, 2 ^ 900, 0], [2, 0, 1]] [0, 0, 0, 1, 1, 1]).lift
      (fin (fl64 (1 / 3))) pt) ∧
    ∀ pt, Curve.PointR bin64 (Curve.mk 2 [[0, 0, 0], [1, 2 ^ 900, 0], [2, 0, 1]] [0, 0, 0, 1, 1, 1]).lift
      (fin (fl64 (1 / 3))) pt → ∃ q : List ℚ, pt = q.map fin ∧ q.length = 3 := by
  obtain ⟨ex, all⟩ := uniform_curve_evaluates_binary64 (X := 2 ^ 900) (p := 2) (n := 3) (u := fl64 (1 / 3))
    (P := [[0, 0, 0], [1, 2 ^ 900, 0], [2, 0, 1]]) (U := [0, 0, 0, 1, 1, 1])
    (pow_le_pow_right₀ (by norm_num) (by norm_num)) (by norm_num) (by norm_num) (by norm_num) (by norm_num) (by decide +kernel)
    ⟨by decide, by decide +kernel⟩ ⟨by decide +kernel, by decide +kernel⟩ (by decide +kernel) (by decide +kernel)
    (by decide +kernel)
  exact ⟨ex, fun pt h => (all pt h).imp fun q hq => ⟨hq.1, hq.2.1⟩⟩

/-- C194: a boundary that is fitted and evaluated at its end. -/
example : ∃ f, BoundaryFitR bin64 1 exZeroSolver (fun _ _ => .ok 0) false (lift1 [0, 1, 0]) (lift1 [2, 1, 1 / 2]) 2 5
        (lift2 exKnotData) (.ok f) ∧ (∃ pt, Curve.PointR bin64 f.fitCurve 1 pt) ∧
      ∀ pt, Curve.PointR bin64 f.fitCurve 1 pt → ∃ q : List ℚ, pt = q.map fin ∧ |q.getD 2 0 - 1 / 2| ≤ 2 / 2 ^ 44 := by
  have hinv : TameCurveInversion bin64 (fun _ => False) fun _ _ => .ok (0 : Ext ℚ) :=
    fun _ _ => Or.inr ⟨0, rfl, by decide +kernel, le_rfl, zero_le_one⟩
  obtain ⟨⟨r, hr⟩, hall⟩ := boundary_fit_fixed_binary64 (B := 2) exTwo_size.1 exTwo_size.2 exZeroSolver_tame hinv
    (data := exKnotData) (s := [0, 1, 0]) (e := [2, 1, 1 / 2]) (p := 2) (n := 5) (fuel := 1) (by decide +kernel)
    (by decide +kernel) rfl rfl (by decide +kernel) (by decide +kernel) (by norm_num) (by norm_num) (by norm_num) (by norm_num)
    (by norm_num) (by norm_num) (by decide +kernel)
  rcases hall r hr with ⟨_, h, _⟩ | ⟨_, _, f, rfl, _⟩
  · exact h.elim
  obtain ⟨ex, all⟩ := boundary_evaluates_binary64 (B := 2) (u := 1) exTwo_size.1 (by decide +kernel) exZeroSolver_tame hinv
    (data := exKnotData) (s := [0, 1, 0]) (e := [2, 1, 1 / 2]) (p := 2) (n := 5) (fuel := 1) (by decide +kernel)
    (by decide +kernel) rfl rfl (by decide +kernel) (by decide +kernel) (by norm_num) (by norm_num) (by norm_num) (by norm_num)
    (by norm_num) (by norm_num) (by decide +kernel) hr (by norm_num) le_rfl (by decide +kernel)
  exact ⟨f, hr, ex, fun pt h => (all pt h).imp fun q hq => ⟨hq.1, (hq.2.2 2 (by norm_num)).2.2 rfl⟩⟩

/-- C194: the corner `(1, 0)` of the surface of a session. -/
example {t b : Fitted (Ext ℚ)} {s : Surface (Ext ℚ)} {rows : List (List (Ext ℚ))}
    (ht : BoundaryFitR bin64 1 exZeroSolver (fun c pt => curveInversionA 102 (ieeeArith bin64 (sumNormR bin64))
      (exGraphLike c) pt (bin64 (1 / 10 ^ 5)) (bin64 (1 / 10 ^ 5)) 100) false (lift1 [0, 1, 0]) (lift1 [2, 1, 0]) 2 5
      (lift2 exKnotData) (.ok t))
    (hb : BoundaryFitR bin64 1 exZeroSolver (fun c pt => curveInversionA 102 (ieeeArith bin64 (sumNormR bin64))
      (exGraphLike c) pt (bin64 (1 / 10 ^ 5)) (bin64 (1 / 10 ^ 5)) 100) false (lift1 [0, 0, 0]) (lift1 [2, 0, 1 / 2]) 2 5
      (lift2 exKnotData) (.ok b))
    (hs : InteriorFitR bin64 exZeroSolver (fun s pt => surfaceInversionA 102 (ieeeArith bin64 (sumNormR bin64))
      (exPlaneLike s) pt (bin64 (1 / 10 ^ 5)) (bin64 (1 / 10 ^ 5)) 100) t b 1 3 (lift2 [[1, 1, 1], [2, 1, 1]]) (.ok (s, rows))) :
    ∀ pt, Surface.PointR bin64 s 1 0 pt → ∃ w : List ℚ, pt = w.map fin ∧ |w.getD 2 0 - 1 / 2| ≤ 2 / 2 ^ 44 := by
  obtain ⟨-, all⟩ := session_evaluates_binary64 (B := 2) (u := 1) (v := 0) (eps1 := bin64 (1 / 10 ^ 5))
    (eps2 := bin64 (1 / 10 ^ 5)) (maxIter := 100)
    (fuelI := 102) (st := [0, 1, 0]) (et := [2, 1, 0]) (sb := [0, 0, 0]) (eb := [2, 0, 1 / 2]) (dt := exKnotData)
    (db := exKnotData) (data := [[1, 1, 1], [2, 1, 1]]) (p := 2) (n := 5) (q := 1) (m := 3) (fuel := 1) exTwo_size.1
    (by decide +kernel) (exZeroSolver_tame.mono fun _ h => h.elim) (ieeeArith_stored (sumNormR bin64)) (ieeeArith_total _ _)
    (ieeeArith_propagates _ (sumNormR_nan _)) exGraphLike_ok (fun s => (exPlaneLike_ok s).1) (fun s => (exPlaneLike_ok s).2)
    (by norm_num) (by norm_num) rfl rfl rfl rfl (by decide +kernel) (by decide +kernel) (by decide +kernel) (by norm_num)
    (by norm_num) (by norm_num) (by norm_num) (by norm_num) (by norm_num) (by norm_num) (by norm_num) (by norm_num) (by norm_num)
    (by decide +kernel) ht hb hs (by norm_num) (by norm_num) (by decide +kernel) (by decide +kernel)
  exact fun pt h => (all pt h).imp fun w hw => ⟨hw.1, (hw.2.2 2 (by norm_num)).2.2.1 rfl rfl⟩

/-- C194: a session that ends with a surface, and its corner `(1, 0)`. -/
example : ∃ tb bb s rows,
    BoundaryFitR bin64 3 exZeroSolver (fun _ _ => .ok 0) false (lift1 [0, 1, 0]) (lift1 [2, 1, 0]) 2 5 (lift2 exKnotData) (.ok tb) ∧
    BoundaryFitR bin64 3 exZeroSolver (fun _ _ => .ok 0) false (lift1 [0, 0, 0]) (lift1 [2, 0, 1 / 2]) 2 5 (lift2 exKnotData)
      (.ok bb) ∧
    InteriorFitR bin64 exZeroSolver (fun _ _ => .ok (0, 1)) tb bb 1 3 (lift2 [[1, 1, 1], [2, 1, 1]]) (.ok (s, rows)) ∧
    s.numU = 5 ∧ (∃ pt, Surface.PointR bin64 s 1 0 pt) ∧
    ∀ pt, Surface.PointR bin64 s 1 0 pt → ∃ w : List ℚ, pt = w.map fin ∧ |w.getD 2 0 - 1 / 2| ≤ 2 / 2 ^ 44 := by
  have hc : TameCurveInversion bin64 (fun _ => False) fun _ _ => .ok (0 : Ext ℚ) :=
    fun _ _ => Or.inr ⟨0, rfl, by decide +kernel, le_rfl, zero_le_one⟩
  have hi : TameSurfaceInversion bin64 (fun _ => False) fun _ _ => .ok ((0, 1) : Ext ℚ × Ext ℚ) :=
    fun _ _ => Or.inr ⟨0, 1, rfl, ⟨by decide +kernel, le_rfl, zero_le_one⟩, by decide +kernel, zero_le_one, le_rfl⟩
  obtain ⟨⟨⟨rt, hrt⟩, rb, hrb⟩, all⟩ := session_with_binary64 (B := 2)
    (st := [0, 1, 0]) (et := [2, 1, 0]) (sb := [0, 0, 0]) (eb := [2, 0, 1 / 2]) (dt := exKnotData)
    (db := exKnotData) (data := [[1, 1, 1], [2, 1, 1]]) (p := 2) (n := 5) (q := 1) (m := 3) (fuel := 3) exTwo_size.1
    (by decide +kernel) exZeroSolver_tame hc hi rfl rfl rfl rfl (by decide +kernel) (by decide +kernel) (by decide +kernel)
    (by norm_num) (by norm_num) (by norm_num) (by norm_num) (by norm_num) (by norm_num) (by norm_num) (by norm_num) (by norm_num) (by decide +kernel)
  rcases all rt rb hrt hrb with ⟨_, h, _⟩ | ⟨tb, bb, rfl, rfl, ⟨res, hres⟩, h⟩
  · exact h.elim
  rcases h res hres with ⟨_, h, _⟩ | ⟨P, U, V, rows, rfl, -⟩
  · exact h.elim
  obtain ⟨hx, hall⟩ := session_with_evaluates_binary64 (B := 2) (u := 1) (v := 0)
    (st := [0, 1, 0]) (et := [2, 1, 0]) (sb := [0, 0, 0]) (eb := [2, 0, 1 / 2]) (dt := exKnotData)
    (db := exKnotData) (data := [[1, 1, 1], [2, 1, 1]]) (p := 2) (n := 5) (q := 1) (m := 3) (fuel := 3) exTwo_size.1
    (by decide +kernel) exZeroSolver_tame hc hi rfl rfl rfl rfl (by decide +kernel) (by decide +kernel) (by decide +kernel)
    (by norm_num) (by norm_num) (by norm_num) (by norm_num) (by norm_num) (by norm_num) (by norm_num) (by norm_num) (by norm_num) (by norm_num) (by decide +kernel) hrt hrb hres (by norm_num) (by norm_num)
    (by decide +kernel) (by decide +kernel)
  exact ⟨tb, bb, _, _, hrt, hrb, hres, rfl, hx,
    fun pt h => (hall pt h).imp fun w hw => ⟨hw.1, (hw.2.2 2 (by norm_num)).2.2.1 rfl rfl⟩⟩

end PySpline
