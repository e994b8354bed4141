import Verif.Lemmas.AnyArithmetic
import Verif.Lemmas.StartValues
import Verif.Lemmas.Rounded

/-!
# The grid search with distances that are known up to a factor
-/

set_option linter.unusedSectionVars false

namespace PySpline

open Ext Spec Finset

section
variable {K : Type} [Field K] [LinearOrder K] [IsStrictOrderedRing K]

/-- The distance of two points with three coordinates, computed as `np.linalg.norm(p - q)`, is a number that differs
from the exact one by a factor between `c` and `1 / c`. -/
structure Arith.Measures (A : Arith K) (norm : List K → K) (c : K) : Prop where
  pos : 0 < c
  le_one : c ≤ 1
  dist : ∀ x y z a b e : K, ∃ d, A.norm [A.sub (fin x) (fin a), A.sub (fin y) (fin b), A.sub (fin z) (fin e)] = fin d ∧
    c * norm [x - a, y - b, z - e] ≤ d ∧ c * d ≤ norm [x - a, y - b, z - e]

theorem vsubA_three (A : Arith K) (x y z a b e : Ext K) :
    vsubA A [x, y, z] [a, b, e] = .ok [A.sub x a, A.sub y b, A.sub z e] := rfl

theorem IsNorm.nonneg {norm : List K → K} (h : IsNorm norm) {a b c : K} (ha : 0 ≤ a) (hb : 0 ≤ b) (hc : 0 ≤ c) :
    0 ≤ norm [a, b, c] := by
  have h0 : 0 ≤ norm [0, 0, 0] := by
    have := h.triangle 0 0 0 0 0 0
    simp only [add_zero] at this
    linarith
  exact h0.trans (h.mono (by simpa using ha) (by simpa using hb) (by simpa using hc))

/-- What a search by computed distances to computed points says about the exact points. -/
theorem nearly_closest {norm : List K → K} (hn : IsNorm norm) {c : K} (hc0 : 0 < c) (hc1 : c ≤ 1)
    {x y z : K} {Q G Q' G' T m l : ℕ → K} (hm : ∀ k < 3, |Q k - G k| ≤ m k) (hm' : ∀ k < 3, |Q' k - G' k| ≤ m k)
    (hl : ∀ k < 3, |T k - G' k| ≤ l k)
    (hbest : c ^ 2 * norm [x - Q 0, y - Q 1, z - Q 2] ≤ norm [x - Q' 0, y - Q' 1, z - Q' 2]) :
    norm [x - Q' 0, y - Q' 1, z - Q' 2] ≤ norm [x - T 0, y - T 1, z - T 2] + norm [l 0 + m 0, l 1 + m 1, l 2 + m 2] ∧
    c ^ 2 * norm [x - G 0, y - G 1, z - G 2]
      ≤ norm [x - T 0, y - T 1, z - T 2] + norm [l 0 + m 0, l 1 + m 1, l 2 + m 2] + norm [m 0, m 1, m 2] := by
  have h1 := hn.triangle (x - T 0) (y - T 1) (z - T 2) (T 0 - Q' 0) (T 1 - Q' 1) (T 2 - Q' 2)
  have h2 := hn.triangle (x - Q 0) (y - Q 1) (z - Q 2) (Q 0 - G 0) (Q 1 - G 1) (Q 2 - G 2)
  simp only [sub_add_sub_cancel] at h1 h2
  have a : ∀ k < 3, |T k - Q' k| ≤ l k + m k := by
    intro k hk
    have := abs_sub_le (T k) (G' k) (Q' k)
    rw [abs_sub_comm (G' k)] at this
    linarith [hl k hk, hm' k hk]
  have h3 := hn.mono (a 0 (by norm_num)) (a 1 (by norm_num)) (a 2 (by norm_num))
  have h4 := hn.mono (hm 0 (by norm_num)) (hm 1 (by norm_num)) (hm 2 (by norm_num))
  have hm0 : ∀ k < 3, 0 ≤ m k := fun k hk => (abs_nonneg _).trans (hm k hk)
  have h5 := hn.nonneg (hm0 0 (by norm_num)) (hm0 1 (by norm_num)) (hm0 2 (by norm_num))
  have hc2 : c ^ 2 ≤ 1 := pow_le_one₀ hc0.le hc1
  have hc2' : 0 ≤ c ^ 2 := by positivity
  refine ⟨by linarith, ?_⟩
  calc c ^ 2 * norm [x - G 0, y - G 1, z - G 2]
      ≤ c ^ 2 * (norm [x - Q 0, y - Q 1, z - Q 2] + norm [m 0, m 1, m 2]) :=
        mul_le_mul_of_nonneg_left (by linarith) hc2'
    _ ≤ c ^ 2 * norm [x - Q 0, y - Q 1, z - Q 2] + 1 * norm [m 0, m 1, m 2] := by
        rw [mul_add]
        exact add_le_add_right (mul_le_mul_of_nonneg_right hc2 h5) _
    _ ≤ _ := by linarith

/-- A grid parameter computed with two roundings. -/
theorem grid_rounded {ρ : K} {fl : K → K} (hf : Accurate ρ fl) {n a : ℕ} (hn : 0 < n) (ha : a < 2 * n) :
    |fl (fl (1 / (((2 * n : ℕ) : K) - 1)) * (a : K)) - (a : K) / (2 * n - 1)| ≤ (1 / ρ) ^ 2 - 1 := by
  have e : ((2 * n - 1 : ℕ) : K) = 2 * n - 1 := by rw [Nat.cast_sub (by omega)]; push_cast; ring
  have hpos : (0 : K) < 2 * n - 1 := by
    rw [← e]; exact_mod_cast (by omega : 0 < 2 * n - 1)
  have e2 : (((2 * n : ℕ) : K) - 1) = 2 * n - 1 := by push_cast; rfl
  rw [e2]
  have h1 : Near ρ 1 (fl (1 / (2 * n - 1))) (1 / (2 * n - 1) : K) := by
    have := (Near.refl hf.pos hf.le_one 0 (one_div_pos.2 hpos).le).fl hf
    simpa using this
  have h2 : Near ρ 1 (fl (1 / (2 * n - 1)) * (a : K)) (1 / (2 * n - 1) * (a : K)) := by
    refine ⟨mul_nonneg h1.1 (Nat.cast_nonneg a), ?_, ?_⟩
    · have := mul_le_mul_of_nonneg_right h1.2.1 (Nat.cast_nonneg (α := K) a)
      linarith
    · have := mul_le_mul_of_nonneg_right h1.2.2 (Nat.cast_nonneg (α := K) a)
      linarith
  have h3 := (h2.fl hf).abs_sub_le hf.pos hf.le_one
  rw [one_div_mul_eq_div] at h3
  refine h3.trans ?_
  have hle : (a : K) / (2 * n - 1) ≤ 1 := by
    rw [div_le_one hpos, ← e]
    exact_mod_cast (by omega : a ≤ 2 * n - 1)
  have hg : 0 ≤ (1 / ρ) ^ 2 - 1 := sub_nonneg.2 (one_le_pow₀ hf.one_le)
  exact mul_le_of_le_one_right hg hle

end

end PySpline

namespace PySpline

open Ext Spec Finset

section
variable {K : Type} [Field K] [LinearOrder K] [IsStrictOrderedRing K]

theorem lt_fin (a b : K) : lt (fin a) (fin b) = decide (a < b) := rfl

/-- From the computed distances `d` to the exact ones `D`. -/
theorem Best.measured {c : K} (hc0 : 0 < c) (hc1 : c ≤ 1) {D d : ℕ → K} {N : ℕ} (hlo : ∀ j, c * D j ≤ d j)
    (hhi : ∀ j, c * d j ≤ D j) {m : K} {k : ℕ} (h : Best d N m k) (hN : 0 < N) :
    ((∃ j < N, D j < c * 10 ^ 6) → ∀ j < N, c ^ 2 * D k ≤ D j) ∧ ((∀ j < N, 10 ^ 6 < c * D j) → k = 0) := by
  obtain ⟨h1, h2⟩ := h.nearest
  refine ⟨fun ⟨j, hj, hD⟩ i hi => ?_, fun hall => h2 fun j hj => ?_⟩
  · have hdj : d j < hugeDist := by
      have := (hhi j).trans_lt hD
      exact lt_of_mul_lt_mul_left this hc0.le
    have := (h1 ⟨j, hj, hdj⟩).1 i hi
    calc c ^ 2 * D k = c * (c * D k) := by ring
      _ ≤ c * d k := mul_le_mul_of_nonneg_left (hlo k) hc0.le
      _ ≤ c * d i := mul_le_mul_of_nonneg_left this hc0.le
      _ ≤ D i := hhi i
  · exact (hall j hj).le.trans (hlo j)

/-- A curve is bounded by its control points. -/
theorem curve_le_bound {p n : ℕ} {U : List K} (hU : Clamped p n U) {c : ℕ → K} {M u : K}
    (hu : knotFn U p ≤ u ∧ u ≤ knotFn U n) (h : ∀ i < n, c i ≤ M) : curve (knotFn U) p n c u ≤ M := by
  unfold curve
  calc ∑ i ∈ range n, c i * Nclosed (knotFn U) p n i u
      ≤ ∑ i ∈ range n, M * Nclosed (knotFn U) p n i u := sum_le_sum fun i hi =>
        mul_le_mul_of_nonneg_right (h i (mem_range.1 hi)) (Nclosed_nonneg (monotone_knotFn hU.mono) p n i u)
    _ = M := by rw [← mul_sum, sum_Nclosed hU hu.1 hu.2, mul_one]

theorem surface_le_bound {p n q m : ℕ} {U V : List K} (hU : Clamped p n U) (hV : Clamped q m V) {c : ℕ → K}
    {M u v : K} (hu : knotFn U p ≤ u ∧ u ≤ knotFn U n) (hv : knotFn V q ≤ v ∧ v ≤ knotFn V m)
    (h : ∀ i < n, ∀ j < m, c (i * m + j) ≤ M) : surface (knotFn U) p n (knotFn V) q m c u v ≤ M := by
  rw [surface_eq_rows]
  exact curve_le_bound hU hu fun i hi => curve_le_bound hV hv fun j hj => h i hi j hj

/-- The grid of `A` is the one computed with `fl`, and it is in `[0, 1]`. -/
structure Arith.RoundedGrid (A : Arith K) (fl : K → K) (n : ℕ) : Prop where
  eq : ∀ k < 2 * n, A.gridPoint (2 * n) k = fin (fl (fl (1 / (((2 * n : ℕ) : K) - 1)) * (k : K)))
  unit : ∀ k < 2 * n, 0 ≤ fl (fl (1 / (((2 * n : ℕ) : K) - 1)) * (k : K)) ∧
    fl (fl (1 / (((2 * n : ℕ) : K) - 1)) * (k : K)) ≤ 1

theorem Accurate.near_abs {ρ : K} {fl : K → K} (hr : Rounding fl) (hf : Accurate ρ fl) (x : K) :
    Near ρ 1 |fl x| |x| := by
  have h : |fl x| = fl |x| := by
    rcases le_total 0 x with h | h
    · rw [abs_of_nonneg h, abs_of_nonneg ((mul_nonneg hf.pos.le h).trans (hf.lower x h))]
    · have h' : 0 ≤ -x := neg_nonneg.2 h
      have := (mul_nonneg hf.pos.le h').trans (hf.lower _ h')
      rw [abs_of_nonpos h, hr.neg, abs_of_nonpos]
      rw [hr.neg] at this
      linarith
  rw [h]
  simpa using (Near.refl hf.pos hf.le_one 0 (abs_nonneg x)).fl hf

/-- A sum of products `≥ 0`, in whatever order it is computed. -/
theorem DotFl.near {ρ : K} {fl : K → K} (hf : Accurate ρ fl) {l : List (K × K)} {s : K} (h : DotFl fl l s)
    (hl : ∀ x ∈ l, 0 ≤ x.1 * x.2) : Near ρ l.length s (dotSum l) := by
  have p0 := hf.pos
  have p1 := hf.le_one
  induction h with
  | mul a b =>
    have h0 : 0 ≤ a * b := hl (a, b) (by simp)
    simpa [dotSum] using (Near.refl p0 p1 0 h0).fl hf
  | @add l m s t h1 h2 i1 i2 =>
    have l1 := h1.length_pos
    have l2 := h2.length_pos
    rw [dotSum_append, List.length_append]
    have a := (i1 fun x hx => hl x (by simp [hx])).mono p0 p1 (l := l.length + m.length - 1) (by omega)
    have b := (i2 fun x hx => hl x (by simp [hx])).mono p0 p1 (l := l.length + m.length - 1) (by omega)
    have := (a.add b).fl hf
    rwa [Nat.sub_add_cancel (by omega)] at this
  | @fma l s a b h1 i1 =>
    rw [dotSum_append, List.length_append]
    have h0 : 0 ≤ a * b := hl (a, b) (by simp)
    have c := i1 fun x hx => hl x (by simp [hx])
    have := (c.add (Near.refl p0 p1 l.length h0)).fl hf
    simpa [dotSum] using this
  | @perm l m s hp h1 i1 =>
    rw [← dotSum_perm hp, ← hp.length_eq]
    exact i1 fun x hx => hl x (hp.mem_iff.1 hx)

end

end PySpline
