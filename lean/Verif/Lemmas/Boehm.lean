import Verif.Lemmas.OneBasis
import Verif.Lemmas.KnotValues

/-!
# Boehm's knot insertion identity
-/

set_option linter.unusedSectionVars false

namespace PySpline

open Spec Finset

variable {K : Type} [Field K] [LinearOrder K] [IsStrictOrderedRing K]

/-- The knots with `u` put `r` times behind knot `k`. -/
def insKnots (V : ℕ → K) (k : ℕ) (u : K) (r : ℕ) : ℕ → K := fun i =>
  if i ≤ k then V i else if i ≤ k + r then u else V (i - r)

/-- The coefficients of Boehm's rule for one inserted knot. -/
def boehmA (V : ℕ → K) (p k : ℕ) (u : K) (i : ℕ) : K :=
  if i + p ≤ k then 1 else if k < i then 0 else (u - V i) / (V (i + p) - V i)

/-- Control points after one insertion. -/
def boehm (V : ℕ → K) (p k : ℕ) (u : K) (c : ℕ → K) : ℕ → K := fun i =>
  boehmA V p k u i * c i + (1 - boehmA V p k u i) * c (i - 1)

theorem N_congr {V V' : ℕ → K} {p i i' : ℕ} (h : ∀ j ≤ p + 1, V (i + j) = V' (i' + j)) (x : K) :
    N V p i x = N V' p i' x := by
  induction p generalizing i i' with
  | zero =>
    unfold N
    rw [show V i = V' i' from h 0 (by omega), h 1 (by omega)]
  | succ p ih =>
    unfold N
    rw [ih (i := i) (i' := i') fun j hj => h j (by omega),
      ih (i := i + 1) (i' := i' + 1) fun j hj => by
        have := h (j + 1) (by omega)
        rwa [show i + (j + 1) = i + 1 + j by omega, show i' + (j + 1) = i' + 1 + j by omega] at this]
    have e1 : V (i + p + 1) = V' (i' + p + 1) := h (p + 1) (by omega)
    have e2 : V (i + p + 2) = V' (i' + p + 2) := h (p + 2) (by omega)
    have e3 : V (i + 1) = V' (i' + 1) := h 1 (by omega)
    have e4 : V i = V' i' := h 0 (by omega)
    rw [e1, e2, e3, e4]

theorem N_degenerate {V : ℕ → K} (hV : Monotone V) {p i : ℕ} (h : V i = V (i + p + 1)) (x : K) :
    N V p i x = 0 := by
  refine N_zero_of_not_support hV ?_
  rw [← h]
  exact lt_or_ge x (V i)

/-- A basis function divided by the length of its support. -/
def G (V : ℕ → K) (p i : ℕ) (x : K) : K := N V p i x / (V (i + p + 1) - V i)

theorem N_succ_G (V : ℕ → K) (p i : ℕ) (x : K) :
    N V (p + 1) i x = (x - V i) * G V p i x + (V (i + p + 2) - x) * G V p (i + 1) x := by
  unfold G
  conv_lhs => unfold N
  rw [show i + 1 + p + 1 = i + p + 2 by omega]
  ring

theorem mul_G {V : ℕ → K} (hV : Monotone V) (p i : ℕ) (x : K) :
    (V (i + p + 1) - V i) * G V p i x = N V p i x := by
  unfold G
  by_cases h : V i = V (i + p + 1)
  · rw [N_degenerate hV h]; simp
  · rw [mul_div_cancel₀]
    exact sub_ne_zero.2 (Ne.symm h)

theorem insKnots_mono {V : ℕ → K} (hV : Monotone V) {k : ℕ} {u : K} (h1 : V k ≤ u)
    (h2 : u ≤ V (k + 1)) (r : ℕ) : Monotone (insKnots V k u r) := by
  refine monotone_nat_of_le_succ fun i => ?_
  unfold insKnots
  by_cases a : i + 1 ≤ k
  · rw [if_pos (by omega), if_pos a]; exact hV (by omega)
  rw [if_neg a]
  by_cases b : i ≤ k
  · rw [if_pos b]
    have : i = k := by omega
    subst this
    split
    · exact h1
    · exact hV (by omega)
  rw [if_neg b]
  by_cases c : i + 1 ≤ k + r
  · rw [if_pos (by omega), if_pos c]
  rw [if_neg c]
  split
  · exact h2.trans (hV (by omega))
  · exact hV (by omega)

section
variable {V : ℕ → K} {k : ℕ} {u : K}

theorem ins_le {i : ℕ} (h : i ≤ k) : insKnots V k u 1 i = V i := by
  unfold insKnots; rw [if_pos h]

theorem ins_mid {i : ℕ} (h : i = k + 1) : insKnots V k u 1 i = u := by
  unfold insKnots; rw [if_neg (by omega), if_pos (by omega)]

theorem ins_gt {i : ℕ} (h : k + 1 < i) : insKnots V k u 1 i = V (i - 1) := by
  unfold insKnots; rw [if_neg (by omega), if_neg (by omega)]

/-- Functions left of the inserted knot do not change. -/
theorem N_ins_left {p i : ℕ} (h : i + p + 1 ≤ k) (x : K) :
    N V p i x = N (insKnots V k u 1) p i x :=
  N_congr (fun j hj => by rw [ins_le (by omega)]) x

/-- Functions right of the inserted knot are shifted. -/
theorem N_ins_right {p i : ℕ} (h : k + 1 ≤ i) (x : K) :
    N V p i x = N (insKnots V k u 1) p (i + 1) x :=
  N_congr (fun j hj => by rw [ins_gt (by omega)]; congr 1; omega) x

theorem G_ins_left {p i : ℕ} (h : i + p + 1 ≤ k) (x : K) :
    G V p i x = G (insKnots V k u 1) p i x := by
  unfold G
  rw [← N_ins_left h, ins_le h, ins_le (by omega)]

theorem G_ins_right {p i : ℕ} (h : k + 1 ≤ i) (x : K) :
    G V p i x = G (insKnots V k u 1) p (i + 1) x := by
  unfold G
  rw [← N_ins_right h, ins_gt (by omega), ins_gt (by omega),
    show i + 1 + p + 1 - 1 = i + p + 1 by omega, Nat.add_sub_cancel]

/-- Boehm's identity in the range where it is not trivial. -/
theorem N_ins_mid (hV : Monotone V) (h1 : V k ≤ u) (h2 : u < V (k + 1)) (x : K) (p : ℕ) :
    ∀ i, i ≤ k → k ≤ i + p → N V p i x
      = (u - V i) * G (insKnots V k u 1) p i x
        + (V (i + p + 1) - u) * G (insKnots V k u 1) p (i + 1) x := by
  have hW := insKnots_mono hV h1 h2.le 1
  induction p with
  | zero =>
    intro i hi1 hi2
    have : i = k := by omega
    subst this
    have e1 := mul_G hW 0 i x
    have e2 := mul_G hW 0 (i + 1) x
    rw [ins_mid (by omega), ins_le le_rfl] at e1
    rw [ins_mid rfl, ins_gt (by omega)] at e2
    simp only [Nat.add_zero, Nat.add_sub_cancel] at e2 ⊢
    rw [e1, e2]
    unfold N
    rw [ins_mid rfl, ins_le le_rfl, ins_gt (by omega)]
    simp only [Nat.add_sub_cancel]
    by_cases a : V i ≤ x
    · by_cases b : x < V (i + 1)
      · by_cases c : x < u
        · simp [a, b, c, not_le.2 c]
        · simp [a, b, c, not_lt.1 c]
      · have : ¬ x < u := fun h => b (h.trans h2)
        simp [b, this]
    · have : ¬ u ≤ x := fun h => a (h1.trans h)
      simp [a, this]
  | succ p ih =>
    intro i hi1 hi2
    rw [N_succ_G V p i x]
    have r1 := N_succ_G (insKnots V k u 1) p i x
    have r2 := N_succ_G (insKnots V k u 1) p (i + 1) x
    rw [ins_le hi1] at r1
    rw [ins_gt (by omega : k + 1 < i + 1 + p + 2)] at r2
    have m1 := mul_G hW (p + 1) i x
    have m2 := mul_G hW (p + 1) (i + 1) x
    rw [ins_le hi1] at m1
    rw [ins_gt (by omega : k + 1 < i + 1 + (p + 1) + 1)] at m2
    rw [show i + 1 + p + 2 - 1 = i + p + 2 by omega] at r2
    rw [show i + 1 + (p + 1) + 1 - 1 = i + p + 2 by omega] at m2
    rw [show i + (p + 1) + 1 = i + p + 2 by omega] at m1 ⊢
    rw [show i + 1 + 1 = i + 2 by omega] at r2
    set W := insKnots V k u 1 with hWdef
    by_cases a : i + p + 1 ≤ k
    · -- k = i + p + 1
      have hk : k = i + p + 1 := by omega
      rw [G_ins_left (u := u) a]
      have e := ih (i + 1) (by omega) (by omega)
      have f := mul_G hV p (i + 1) x
      rw [e] at f
      rw [show i + 1 + p + 1 = i + p + 2 by omega] at f
      rw [← hWdef] at *
      have c1 : W (i + p + 2) = u := ins_mid (by omega)
      have c2 : W (i + 1) = V (i + 1) := ins_le (by omega)
      rw [c1] at m1 r1
      rw [c2] at m2 r2
      have d : V (i + p + 2) - V (i + 1) ≠ 0 := by
        have : V (i + 1) ≤ V k := hV (by omega)
        rw [show i + p + 2 = k + 1 by omega]
        intro h; linarith
      rw [show i + 1 + 1 = i + 2 by omega] at f
      refine mul_left_cancel₀ d ?_
      rw [r1] at m1
      rw [r2] at m2
      linear_combination (V (i + p + 2) - x) * f - (V (i + p + 2) - V (i + 1)) * m1
        - (V (i + p + 2) - u) * m2
    · by_cases b : i + 1 ≤ k
      · have e := ih (i + 1) b (by omega)
        have e' := ih i hi1 (by omega)
        have f := mul_G hV p (i + 1) x
        have f' := mul_G hV p i x
        rw [e] at f
        rw [e'] at f'
        rw [show i + 1 + p + 1 = i + p + 2 by omega, show i + 1 + 1 = i + 2 by omega] at f
        have c1 : W (i + p + 2) = V (i + p + 1) := ins_gt (by omega)
        have c2 : W (i + 1) = V (i + 1) := ins_le (by omega)
        rw [c1] at m1 r1
        rw [c2] at m2 r2
        have d : V (i + p + 2) - V (i + 1) ≠ 0 := by
          have : V (i + 1) ≤ V k := hV (by omega)
          have : V (k + 1) ≤ V (i + p + 2) := hV (by omega)
          intro h; linarith
        have d' : V (i + p + 1) - V i ≠ 0 := by
          have : V i ≤ V k := hV (by omega)
          have : V (k + 1) ≤ V (i + p + 1) := hV (by omega)
          intro h; linarith
        refine mul_left_cancel₀ (mul_ne_zero d d') ?_
        rw [r1] at m1
        rw [r2] at m2
        linear_combination (V (i + p + 2) - x) * (V (i + p + 1) - V i) * f
          + (x - V i) * (V (i + p + 2) - V (i + 1)) * f'
          - (u - V i) * (V (i + p + 2) - V (i + 1)) * m1
          - (V (i + p + 2) - u) * (V (i + p + 1) - V i) * m2
      · have hk : k = i := by omega
        have e' := ih i hi1 (by omega)
        have f' := mul_G hV p i x
        rw [e'] at f'
        rw [G_ins_right (u := u) (by omega : k + 1 ≤ i + 1), ← hWdef,
          show i + 1 + 1 = i + 2 by omega]
        have c1 : W (i + p + 2) = V (i + p + 1) := ins_gt (by omega)
        have c2 : W (i + 1) = u := ins_mid (by omega)
        rw [c1] at m1 r1
        rw [c2] at m2 r2
        have d' : V (i + p + 1) - V i ≠ 0 := by
          have : V i ≤ V k := hV (by omega)
          have : V (k + 1) ≤ V (i + p + 1) := hV (by omega)
          intro h; linarith
        refine mul_left_cancel₀ d' ?_
        rw [r1] at m1
        rw [r2] at m2
        linear_combination (x - V i) * f' - (u - V i) * m1 - (V (i + p + 1) - V i) * m2

/-- Boehm's identity. -/
theorem N_boehm (hV : Monotone V) (h1 : V k ≤ u) (h2 : u < V (k + 1)) (x : K) (p i : ℕ) :
    N V p i x = boehmA V p k u i * N (insKnots V k u 1) p i x
      + (1 - boehmA V p k u (i + 1)) * N (insKnots V k u 1) p (i + 1) x := by
  have hW := insKnots_mono hV h1 h2.le 1
  by_cases a : k < i
  · unfold boehmA
    rw [if_neg (by omega), if_pos a, if_neg (by omega), if_pos (by omega), N_ins_right (u := u) a]
    ring
  by_cases b : i + p + 1 ≤ k
  · unfold boehmA
    rw [if_pos (by omega), if_pos (by omega), N_ins_left (u := u) b]
    ring
  rw [N_ins_mid hV h1 h2 x p i (by omega) (by omega)]
  have m1 := mul_G hW p i x
  have m2 := mul_G hW p (i + 1) x
  congr 1
  · unfold boehmA
    by_cases c : i + p ≤ k
    · rw [if_pos c, ← m1, ins_mid (by omega), ins_le (by omega)]; ring
    · rw [if_neg c, if_neg a, ← m1, ins_gt (by omega), ins_le (by omega)]
      have : V i ≤ V k := hV (by omega)
      have : V (k + 1) ≤ V (i + p) := hV (by omega)
      have d : V (i + p) - V i ≠ 0 := by intro h; linarith
      rw [show i + p + 1 - 1 = i + p by omega]
      field_simp
  · unfold boehmA
    by_cases c : k < i + 1
    · rw [if_neg (by omega), if_pos c, ← m2, ins_gt (by omega), ins_mid (by omega)]
      rw [show i + 1 + p + 1 - 1 = i + p + 1 by omega]; ring
    · rw [if_neg (by omega), if_neg c, ← m2, ins_gt (by omega), ins_le (by omega)]
      have : V (i + 1) ≤ V k := hV (by omega)
      have : V (k + 1) ≤ V (i + 1 + p) := hV (by omega)
      have d : V (i + 1 + p) - V (i + 1) ≠ 0 := by intro h; linarith
      rw [show i + 1 + p + 1 - 1 = i + 1 + p by omega, show i + p + 1 = i + 1 + p by omega]
      field_simp
      ring

/-- One insertion does not change the spline. -/
theorem spline_boehm (hV : Monotone V) (h1 : V k ≤ u) (h2 : u < V (k + 1)) {p n : ℕ}
    (hp : p ≤ k) (hn : k < n) (c : ℕ → K) (x : K) :
    spline (insKnots V k u 1) p (n + 1) (boehm V p k u c) x = spline V p n c x := by
  unfold spline
  set W := insKnots V k u 1 with hW
  have e : ∑ i ∈ range n, c i * N V p i x
      = ∑ i ∈ range n, (c i * (boehmA V p k u i * N W p i x)
          + c i * ((1 - boehmA V p k u (i + 1)) * N W p (i + 1) x)) := by
    refine sum_congr rfl fun i _ => ?_
    rw [N_boehm hV h1 h2 x p i]; ring
  rw [e, sum_add_distrib]
  have s1 := sum_range_succ (fun i => c i * (boehmA V p k u i * N W p i x)) n
  have s2 := sum_range_succ' (fun i => c (i - 1) * ((1 - boehmA V p k u i) * N W p i x)) n
  have z1 : boehmA V p k u n = 0 := by
    unfold boehmA; rw [if_neg (by omega), if_pos hn]
  have z2 : boehmA V p k u 0 = 1 := by
    unfold boehmA; rw [if_pos (by omega)]
  simp only [z1, z2, Nat.add_sub_cancel, zero_mul, mul_zero, add_zero, sub_self] at s1 s2
  rw [← s1, ← s2, ← sum_add_distrib]
  refine sum_congr rfl fun i _ => ?_
  unfold boehm
  ring

end

end PySpline
