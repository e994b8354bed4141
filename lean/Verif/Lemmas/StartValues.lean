import Verif.Lemmas.CurveMore
import Verif.Props.SurfaceMore
import Mathlib.Analysis.Real.Sqrt

/-!
# Lipschitz surfaces, distance to grids, norms
-/

set_option linter.unusedSectionVars false

namespace PySpline

open Spec Finset

section
variable {K : Type} [Field K] [LinearOrder K] [IsStrictOrderedRing K]

theorem curve_lipschitz_abs {p n : ℕ} {U : List K} (hU : Clamped p n U) (hp : 1 ≤ p) {c : ℕ → K} {L : K}
    (hc : ∀ i, i + 1 < n → |c (i + 1) - c i| * p ≤ L * (knotFn U (i + p + 1) - knotFn U (i + 1))) {s t : K}
    (hs : knotFn U p ≤ s ∧ s ≤ knotFn U n) (ht : knotFn U p ≤ t ∧ t ≤ knotFn U n) :
    |curve (knotFn U) p n c t - curve (knotFn U) p n c s| ≤ L * |t - s| := by
  rcases le_total s t with hst | hst
  · rw [abs_of_nonneg (sub_nonneg.2 hst)]
    exact curve_lipschitz hU hp hc hs.1 hst ht.2
  · rw [abs_sub_comm, abs_sub_comm t, abs_of_nonneg (sub_nonneg.2 hst)]
    exact curve_lipschitz hU hp hc ht.1 hst hs.2

/-- Curves with close coefficients are close. -/
theorem curve_sub_le {p n : ℕ} {U : List K} (hU : Clamped p n U) {c d : ℕ → K} {e w : K} {u : K}
    (hu : knotFn U p ≤ u ∧ u ≤ knotFn U n) (hw : 0 ≤ w) (h : ∀ i < n, |c i - d i| * w ≤ e) :
    |curve (knotFn U) p n c u - curve (knotFn U) p n d u| * w ≤ e := by
  have h1 : curve (knotFn U) p n c u - curve (knotFn U) p n d u
      = ∑ i ∈ range n, (c i - d i) * Nclosed (knotFn U) p n i u := by
    unfold curve
    rw [← sum_sub_distrib]
    exact sum_congr rfl fun i _ => by ring
  rw [h1]
  calc |∑ i ∈ range n, (c i - d i) * Nclosed (knotFn U) p n i u| * w
      ≤ (∑ i ∈ range n, |c i - d i| * Nclosed (knotFn U) p n i u) * w := by
        refine mul_le_mul_of_nonneg_right ((abs_sum_le_sum_abs _ _).trans (le_of_eq ?_)) hw
        refine sum_congr rfl fun i _ => ?_
        rw [abs_mul, abs_of_nonneg (Nclosed_nonneg (monotone_knotFn hU.mono) p n i u)]
    _ = ∑ i ∈ range n, (|c i - d i| * w) * Nclosed (knotFn U) p n i u := by
        rw [sum_mul]; exact sum_congr rfl fun i _ => by ring
    _ ≤ ∑ i ∈ range n, e * Nclosed (knotFn U) p n i u := sum_le_sum fun i hi =>
        mul_le_mul_of_nonneg_right (h i (mem_range.1 hi)) (Nclosed_nonneg (monotone_knotFn hU.mono) p n i u)
    _ = e := by rw [← mul_sum, sum_Nclosed hU hu.1 hu.2, mul_one]

theorem surface_eq_rows (U : ℕ → K) (p n : ℕ) (V : ℕ → K) (q m : ℕ) (c : ℕ → K) (u v : K) :
    surface U p n V q m c u v = curve U p n (fun i => curve V q m (fun j => c (i * m + j)) v) u := by
  unfold surface curve
  refine sum_congr rfl fun i _ => ?_
  rw [sum_mul]
  exact sum_congr rfl fun j _ => by ring

theorem surface_eq_columns (U : ℕ → K) (p n : ℕ) (V : ℕ → K) (q m : ℕ) (c : ℕ → K) (u v : K) :
    surface U p n V q m c u v = curve V q m (fun j => curve U p n (fun i => c (i * m + j)) u) v := by
  unfold surface curve
  rw [sum_comm]
  refine sum_congr rfl fun i _ => ?_
  rw [sum_mul]

/-- A tensor-product surface is Lipschitz in both parameters. -/
theorem surface_lipschitz {p n q m : ℕ} {U V : List K} (hU : Clamped p n U) (hV : Clamped q m V) (hp : 1 ≤ p)
    (hq : 1 ≤ q) {c : ℕ → K} {L M : K}
    (hL : ∀ i j, i + 1 < n → j < m → |c ((i + 1) * m + j) - c (i * m + j)| * p
      ≤ L * (knotFn U (i + p + 1) - knotFn U (i + 1)))
    (hM : ∀ i j, i < n → j + 1 < m → |c (i * m + (j + 1)) - c (i * m + j)| * q
      ≤ M * (knotFn V (j + q + 1) - knotFn V (j + 1))) {s t u v : K}
    (hs : knotFn U p ≤ s ∧ s ≤ knotFn U n) (hu : knotFn U p ≤ u ∧ u ≤ knotFn U n)
    (ht : knotFn V q ≤ t ∧ t ≤ knotFn V m) (hv : knotFn V q ≤ v ∧ v ≤ knotFn V m) :
    |surface (knotFn U) p n (knotFn V) q m c s t - surface (knotFn U) p n (knotFn V) q m c u v|
      ≤ L * |s - u| + M * |t - v| := by
  have a : |surface (knotFn U) p n (knotFn V) q m c s t - surface (knotFn U) p n (knotFn V) q m c u t|
      ≤ L * |s - u| := by
    rw [surface_eq_rows, surface_eq_rows]
    exact curve_lipschitz_abs hU hp (fun i hi => curve_sub_le hV ht (Nat.cast_nonneg p)
      fun j hj => hL i j hi hj) hu hs
  have b : |surface (knotFn U) p n (knotFn V) q m c u t - surface (knotFn U) p n (knotFn V) q m c u v|
      ≤ M * |t - v| := by
    rw [surface_eq_columns, surface_eq_columns]
    exact curve_lipschitz_abs hV hq (fun j hj => curve_sub_le hU hu (Nat.cast_nonneg q)
      fun i hi => hM i j hi hj) hv ht
  have := abs_sub_le (surface (knotFn U) p n (knotFn V) q m c s t) (surface (knotFn U) p n (knotFn V) q m c u t)
    (surface (knotFn U) p n (knotFn V) q m c u v)
  linarith

theorem nearest_nat (N : ℕ) : ∀ x : K, 0 ≤ x → x ≤ N → ∃ a ≤ N, |x - a| ≤ 1 / 2 := by
  induction N with
  | zero =>
    intro x h0 h1
    have : x = 0 := le_antisymm (by simpa using h1) h0
    exact ⟨0, le_rfl, by subst this; simp⟩
  | succ N ih =>
    intro x h0 h1
    by_cases h : x ≤ N
    · obtain ⟨a, ha, hx⟩ := ih x h0 h
      exact ⟨a, by omega, hx⟩
    · push_cast at h1
      rw [not_le] at h
      by_cases h' : x ≤ N + 1 / 2
      · exact ⟨N, by omega, by rw [abs_of_nonneg (by linarith)]; linarith⟩
      · rw [not_le] at h'
        exact ⟨N + 1, le_rfl, by push_cast; rw [abs_of_nonpos (by linarith)]; linarith⟩

/-- Every parameter is within half a step of a parameter of the grid. -/
theorem nearest_grid {n : ℕ} (hn : 0 < n) {u : K} (h0 : 0 ≤ u) (h1 : u ≤ 1) :
    ∃ a < 2 * n, |u - (a : K) / (2 * n - 1)| ≤ 1 / (2 * (2 * n - 1)) := by
  have e : ((2 * n - 1 : ℕ) : K) = 2 * n - 1 := by rw [Nat.cast_sub (by omega)]; push_cast; ring
  have hpos : (0 : K) < 2 * n - 1 := by
    rw [← e]; exact_mod_cast (by omega : 0 < 2 * n - 1)
  obtain ⟨a, ha, hx⟩ := nearest_nat (2 * n - 1) (u * (2 * n - 1)) (mul_nonneg h0 hpos.le)
    (by rw [e]; exact mul_le_of_le_one_left hpos.le h1)
  refine ⟨a, by omega, ?_⟩
  have : u - (a : K) / (2 * n - 1) = (u * (2 * n - 1) - a) / (2 * n - 1) := by field_simp
  rw [this, abs_div, abs_of_pos hpos, div_le_iff₀ hpos]
  refine hx.trans (le_of_eq ?_)
  field_simp

/-- What is used of a norm of vectors with three entries. -/
structure IsNorm (norm : List K → K) : Prop where
  triangle : ∀ a b c x y z, norm [a + x, b + y, c + z] ≤ norm [a, b, c] + norm [x, y, z]
  mono : ∀ {a b c x y z}, |a| ≤ x → |b| ≤ y → |c| ≤ z → norm [a, b, c] ≤ norm [x, y, z]

theorem isNorm_sum : IsNorm (fun l : List K => (l.map fun x => |x|).sum) where
  triangle a b c x y z := by
    simp only [List.map_cons, List.map_nil, List.sum_cons, List.sum_nil]
    linarith [abs_add_le a x, abs_add_le b y, abs_add_le c z]
  mono h1 h2 h3 := by
    simp only [List.map_cons, List.map_nil, List.sum_cons, List.sum_nil]
    linarith [le_abs_self (_ : K) |> h1.trans, le_abs_self (_ : K) |> h2.trans, le_abs_self (_ : K) |> h3.trans]

end

/-- `np.linalg.norm(r, 2)`. -/
noncomputable def euclid (l : List ℝ) : ℝ := Real.sqrt (l.map fun x => x ^ 2).sum

theorem isNorm_euclid : IsNorm euclid where
  triangle a b c x y z := by
    unfold euclid
    simp only [List.map_cons, List.map_nil, List.sum_cons, List.sum_nil, add_zero]
    set A := Real.sqrt (a ^ 2 + (b ^ 2 + c ^ 2)) with hA
    set B := Real.sqrt (x ^ 2 + (y ^ 2 + z ^ 2)) with hB
    have hA2 : A ^ 2 = a ^ 2 + (b ^ 2 + c ^ 2) := Real.sq_sqrt (by positivity)
    have hB2 : B ^ 2 = x ^ 2 + (y ^ 2 + z ^ 2) := Real.sq_sqrt (by positivity)
    have hA0 : 0 ≤ A := Real.sqrt_nonneg _
    have hB0 : 0 ≤ B := Real.sqrt_nonneg _
    have hd : a * x + b * y + c * z ≤ A * B := by
      refine (le_abs_self _).trans (abs_le_of_sq_le_sq ?_ (mul_nonneg hA0 hB0))
      rw [mul_pow, hA2, hB2]
      nlinarith [sq_nonneg (a * y - b * x), sq_nonneg (a * z - c * x), sq_nonneg (b * z - c * y)]
    rw [Real.sqrt_le_left (by linarith)]
    nlinarith
  mono h1 h2 h3 := by
    unfold euclid
    simp only [List.map_cons, List.map_nil, List.sum_cons, List.sum_nil, add_zero]
    refine Real.sqrt_le_sqrt ?_
    have h : ∀ {a x : ℝ}, |a| ≤ x → a ^ 2 ≤ x ^ 2 := fun h => sq_le_sq.2 (h.trans (le_abs_self _))
    exact add_le_add (h h1) (add_le_add (h h2) (h h3))

end PySpline
