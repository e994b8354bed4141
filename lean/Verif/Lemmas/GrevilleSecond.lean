import Verif.Lemmas.Greville

/-!
# Second differences of control polygons: distance from the curve, knot insertion
-/

set_option linter.unusedSectionVars false

namespace PySpline

open Spec Finset

variable {K : Type} [Field K] [LinearOrder K] [IsStrictOrderedRing K]

/-- The control points of the derivative of a curve. -/
def slope (V : ℕ → K) (p : ℕ) (c : ℕ → K) (i : ℕ) : K := p * (c (i + 1) - c i) / (V (i + p + 1) - V (i + 1))

variable {p n : ℕ} {U : List K}

/-- Inserting a knot into a curve inserts it into the derivative. -/
theorem slope_boehm {V : ℕ → K} (hV : Monotone V) {k : ℕ} {u : K} (hp : 2 ≤ p) (hpk : p ≤ k) (hk : k < n)
    (h1 : V k < u) (h2 : u < V (k + 1)) (hgap : ∀ i, i + 1 < n → V (i + 1) < V (i + p + 1)) (c : ℕ → K) {i : ℕ}
    (hi : i < n) :
    slope (insKnots V k u 1) p (boehm V p k u c) i = boehm (fun i => V (i + 1)) (p - 1) (k - 1) u (slope V p c) i := by
  have ex : boehm V p k u c (i + 1) - boehm V p k u c i
      = boehmA V p k u (i + 1) * (c (i + 1) - c i) + (1 - boehmA V p k u i) * (c i - c (i - 1)) := by
    unfold boehm; rw [Nat.add_sub_cancel]; ring
  have hs : ∀ l, l + 1 < n → (p : K) * (c (l + 1) - c l) = slope V p c l * (V (l + p + 1) - V (l + 1)) := by
    intro l hl
    unfold slope
    rw [div_mul_cancel₀ _ (sub_pos.2 (hgap l hl)).ne']
  have hs' : 1 ≤ i → (p : K) * (c i - c (i - 1)) = slope V p c (i - 1) * (V (i + p) - V i) := by
    intro h
    have := hs (i - 1) (by omega)
    rwa [show i - 1 + 1 = i by omega, show i - 1 + p + 1 = i + p by omega] at this
  have hmul : (p : K) * (boehm V p k u c (i + 1) - boehm V p k u c i)
      = boehmA V p k u (i + 1) * (p * (c (i + 1) - c i)) + (1 - boehmA V p k u i) * (p * (c i - c (i - 1))) := by
    rw [ex]; ring
  conv_lhs => unfold slope
  rw [hmul]
  unfold boehm
  rcases lt_trichotomy (i + p) k with hlt | heq | hgt
  · -- left of the new knot
    have a1 : boehmA V p k u (i + 1) = 1 := by unfold boehmA; rw [if_pos (by omega)]
    have a0 : boehmA V p k u i = 1 := by unfold boehmA; rw [if_pos (by omega)]
    have b0 : boehmA (fun i => V (i + 1)) (p - 1) (k - 1) u i = 1 := by unfold boehmA; rw [if_pos (by omega)]
    have e1 : insKnots V k u 1 (i + p + 1) = V (i + p + 1) := by unfold insKnots; rw [if_pos (by omega)]
    have e2 : insKnots V k u 1 (i + 1) = V (i + 1) := by unfold insKnots; rw [if_pos (by omega)]
    rw [a1, a0, b0, e1, e2, sub_self, zero_mul, zero_mul, one_mul, one_mul]
    simp [slope]
  · have a1 : boehmA V p k u (i + 1) = (u - V (i + 1)) / (V (i + p + 1) - V (i + 1)) := by
      unfold boehmA; rw [if_neg (by omega), if_neg (by omega), show i + 1 + p = i + p + 1 by omega]
    have a0 : boehmA V p k u i = 1 := by unfold boehmA; rw [if_pos (by omega)]
    have b0 : boehmA (fun i => V (i + 1)) (p - 1) (k - 1) u i = 1 := by unfold boehmA; rw [if_pos (by omega)]
    have e1 : insKnots V k u 1 (i + p + 1) = u := by
      unfold insKnots; rw [if_neg (by omega), if_pos (by omega)]
    have e2 : insKnots V k u 1 (i + 1) = V (i + 1) := by unfold insKnots; rw [if_pos (by omega)]
    have hu : V (i + 1) < u := (hV (show i + 1 ≤ k by omega)).trans_lt h1
    have hd := (sub_pos.2 (hgap i (by omega))).ne'
    have hu' := (sub_pos.2 hu).ne'
    rw [a1, a0, b0, e1, e2, hs i (by omega), sub_self, zero_mul, one_mul, zero_mul, add_zero, add_zero]
    field_simp
  · rcases lt_trichotomy i k with hik | rfl | hik
    · have a1 : boehmA V p k u (i + 1) = (u - V (i + 1)) / (V (i + p + 1) - V (i + 1)) := by
        unfold boehmA; rw [if_neg (by omega), if_neg (by omega), show i + 1 + p = i + p + 1 by omega]
      have a0 : boehmA V p k u i = (u - V i) / (V (i + p) - V i) := by
        unfold boehmA; rw [if_neg (by omega), if_neg (by omega)]
      have b0 : boehmA (fun i => V (i + 1)) (p - 1) (k - 1) u i = (u - V (i + 1)) / (V (i + p) - V (i + 1)) := by
        unfold boehmA; rw [if_neg (by omega), if_neg (by omega)]; dsimp only; rw [show i + (p - 1) + 1 = i + p by omega]
      have e1 : insKnots V k u 1 (i + p + 1) = V (i + p) := by
        unfold insKnots; rw [if_neg (by omega), if_neg (by omega)]; congr 1
      have e2 : insKnots V k u 1 (i + 1) = V (i + 1) := by unfold insKnots; rw [if_pos (by omega)]
      have hu : V (i + 1) < u := (hV (show i + 1 ≤ k by omega)).trans_lt h1
      have hu2 : u < V (i + p) := h2.trans_le (hV (by omega))
      have hd := (sub_pos.2 (hgap i (by omega))).ne'
      have hd2 : V (i + p) - V i ≠ 0 := (sub_pos.2 ((hV (show i ≤ i + 1 by omega)).trans_lt (hu.trans hu2))).ne'
      have hd3 : V (i + p) - V (i + 1) ≠ 0 := (sub_pos.2 (hu.trans hu2)).ne'
      rw [a1, a0, b0, e1, e2, hs i (by omega), hs' (by omega)]
      field_simp
      ring
    · have a1 : boehmA V p i u (i + 1) = 0 := by
        unfold boehmA; rw [if_neg (by omega), if_pos (by omega)]
      have a0 : boehmA V p i u i = (u - V i) / (V (i + p) - V i) := by
        unfold boehmA; rw [if_neg (by omega), if_neg (by omega)]
      have b0 : boehmA (fun i => V (i + 1)) (p - 1) (i - 1) u i = 0 := by
        unfold boehmA; rw [if_neg (by omega), if_pos (by omega)]
      have e1 : insKnots V i u 1 (i + p + 1) = V (i + p) := by
        unfold insKnots; rw [if_neg (by omega), if_neg (by omega)]; congr 1
      have e2 : insKnots V i u 1 (i + 1) = u := by
        unfold insKnots; rw [if_neg (by omega), if_pos (by omega)]
      have hu2 : u < V (i + p) := h2.trans_le (hV (by omega))
      have hd2 : V (i + p) - V i ≠ 0 := (sub_pos.2 (h1.trans hu2)).ne'
      have hd3 : V (i + p) - u ≠ 0 := (sub_pos.2 hu2).ne'
      rw [a1, a0, b0, e1, e2, hs' (by omega)]
      field_simp
      ring
    · have a1 : boehmA V p k u (i + 1) = 0 := by
        unfold boehmA; rw [if_neg (by omega), if_pos (by omega)]
      have a0 : boehmA V p k u i = 0 := by
        unfold boehmA; rw [if_neg (by omega), if_pos (by omega)]
      have b0 : boehmA (fun i => V (i + 1)) (p - 1) (k - 1) u i = 0 := by
        unfold boehmA; rw [if_neg (by omega), if_pos (by omega)]
      have e1 : insKnots V k u 1 (i + p + 1) = V (i + p) := by
        unfold insKnots; rw [if_neg (by omega), if_neg (by omega)]; congr 1
      have e2 : insKnots V k u 1 (i + 1) = V i := by
        unfold insKnots; rw [if_neg (by omega), if_neg (by omega)]; congr 1
      rw [a1, a0, b0, e1, e2]
      unfold slope
      rw [show i - 1 + p + 1 = i + p by omega, show i - 1 + 1 = i by omega]
      ring

theorem insKnots_shift (V : ℕ → K) {k : ℕ} (hk : 1 ≤ k) (u : K) (i : ℕ) :
    insKnots (fun i => V (i + 1)) (k - 1) u 1 i = insKnots V k u 1 (i + 1) := by
  unfold insKnots
  by_cases a : i + 1 ≤ k
  · rw [if_pos (by omega), if_pos a]
  rw [if_neg (by omega), if_neg a]
  by_cases b : i + 1 ≤ k + 1
  · rw [if_pos (by omega), if_pos b]
  · rw [if_neg (by omega), if_neg b]
    dsimp only
    rw [show i - 1 + 1 = i + 1 - 1 by omega]

/-- The bound of the second derivative's control points survives Boehm's rule. -/
theorem boehm_second {V : ℕ → K} (hV : Monotone V) {k : ℕ} {u : K} (hp : 2 ≤ p) (hpk : p ≤ k) (hk : k < n)
    (h1 : V k < u) (h2 : u < V (k + 1)) (hgap : ∀ i, i + 1 < n → V (i + 1) < V (i + p + 1)) {c : ℕ → K} {M : K}
    (hc : ∀ i, i + 2 < n → |slope V p c (i + 1) - slope V p c i| * (p - 1 : ℕ) ≤ M * (V (i + p + 1) - V (i + 2))) :
    ∀ i, i + 2 < n + 1 → |slope (insKnots V k u 1) p (boehm V p k u c) (i + 1)
        - slope (insKnots V k u 1) p (boehm V p k u c) i| * (p - 1 : ℕ)
      ≤ M * (insKnots V k u 1 (i + p + 1) - insKnots V k u 1 (i + 2)) := by
  intro i hi
  have key := boehm_slopes (p := p - 1) (V := fun i => V (i + 1)) (fun a b h => hV (by omega)) (k := k - 1) (u := u)
    (by omega) (by omega) (by rw [show k - 1 + 1 = k by omega]; exact h1.le)
    (by rw [show k - 1 + 1 + 1 = k + 1 by omega]; exact h2) (c := slope V p c) (L := M) (n := n - 1)
    (by omega) (fun i hi => by
      rw [show i + (p - 1) + 1 + 1 = i + p + 1 by omega]
      exact hc i (by omega)) i (by omega)
  rw [insKnots_shift V (by omega), insKnots_shift V (by omega), show i + (p - 1) + 1 + 1 = i + p + 1 by omega] at key
  rw [slope_boehm hV hp hpk hk h1 h2 hgap c (by omega), slope_boehm hV hp hpk hk h1 h2 hgap c (by omega)]
  exact key

theorem insKnots_gap {V : ℕ → K} (hV : Monotone V) {k : ℕ} {u : K} (hp : 1 ≤ p) (hk : k < n)
    (h1 : V k < u) (h2 : u < V (k + 1)) (hgap : ∀ i, i + 1 < n → V (i + 1) < V (i + p + 1)) :
    ∀ i, i + 1 < n + 1 → insKnots V k u 1 (i + 1) < insKnots V k u 1 (i + p + 1) := by
  intro i hi
  unfold insKnots
  by_cases a : i + 1 ≤ k
  · rw [if_pos a]
    by_cases b : i + p + 1 ≤ k
    · rw [if_pos b]; exact hgap i (by omega)
    · rw [if_neg b]
      by_cases d : i + p + 1 ≤ k + 1
      · rw [if_pos d]; exact (hV a).trans_lt h1
      · rw [if_neg d]; exact (hV a).trans_lt (h1.trans (h2.trans_le (hV (by omega))))
  · rw [if_neg a, if_neg (by omega : ¬ i + p + 1 ≤ k)]
    by_cases b : i + 1 ≤ k + 1
    · rw [if_pos b, if_neg (by omega)]; exact h2.trans_le (hV (by omega))
    · rw [if_neg b, if_neg (by omega)]
      have := hgap (i - 1) (by omega)
      rwa [show i - 1 + 1 = i + 1 - 1 by omega, show i - 1 + p + 1 = i + p + 1 - 1 by omega] at this

/-- At its Greville abscissa the spline is within `2 M h²` of the coefficient. -/
theorem coeff_near_curve_second (hU : Clamped p n U) (hp : 2 ≤ p)
    (hgap : ∀ i, i + 1 < n → knotFn U (i + 1) < knotFn U (i + p + 1)) {c : ℕ → K} {M h : K} (hM : 0 ≤ M)
    (hc : ∀ i, i + 2 < n → |slope (knotFn U) p c (i + 1) - slope (knotFn U) p c i| * (p - 1 : ℕ)
      ≤ M * (knotFn U (i + p + 1) - knotFn U (i + 2)))
    (hh : ∀ i < n, knotFn U (i + p + 1) - knotFn U i ≤ h) {i : ℕ} (hi : i < n) :
    |c i - curve (knotFn U) p n c (greville (knotFn U) p i)| ≤ 2 * M * h ^ 2 := by
  have hsz := hU.size
  have hV := monotone_knotFn hU.mono
  have uL := hU.left p le_rfl
  have uR := hU.right n le_rfl (by omega)
  set V := knotFn U with hVdef
  have hp0 : (0 : K) < p := by exact_mod_cast (by omega : 0 < p)
  have hq0 : (0 : K) < (p - 1 : ℕ) := by exact_mod_cast (by omega : 0 < p - 1)
  have hh0 : 0 ≤ h := (sub_nonneg.2 (hV (by omega))).trans (hh i hi)
  obtain ⟨g1, g2⟩ := greville_bounds (p := p) (by omega) hV i
  set u := greville V p i with hu
  by_cases hlast : i + 1 = n
  · -- the last control point is on the curve
    have e : u = V (n + p) := by
      refine le_antisymm (g2.trans (hV (by omega))) ?_
      rw [← uR]
      exact (hV (by omega : n ≤ i + 1)).trans g1
    rw [e, curve_last hU, show n - 1 = i by omega, sub_self, abs_zero]
    positivity
  have hlo : V p ≤ u := by
    rw [uL]
    exact (hV (by omega)).trans g1
  have hhi : u ≤ V n := by
    rw [uR]
    exact g2.trans (hV (by omega))
  have hhi' : u ≤ V (n + p) := by rw [← uR]; exact hhi
  -- slopes near the active indices
  set ξ := greville V p with hξ
  set m := slope V p c with hm
  obtain ⟨η, hη⟩ : ∃ η : ℕ → K, η = fun l => greville (fun i => V (i + 1)) (p - 1) l := ⟨_, rfl⟩
  have ηb : ∀ l, V (l + 2) ≤ η l ∧ η l ≤ V (l + p) := by
    intro l
    have := greville_bounds (p := p - 1) (V := fun i => V (i + 1)) (by omega) (fun a b h => hV (by omega)) l
    rw [hη]
    rw [show l + (p - 1) + 1 = l + p by omega] at this
    exact this
  have hmη : ∀ a b, a ≤ b → b + 1 < n → |m b - m a| ≤ M * (η b - η a) := by
    intro a b hab
    induction b, hab using Nat.le_induction with
    | base => intro _; simp
    | succ b hab ih =>
      intro hb
      have s := hc b (by omega)
      rw [← le_div_iff₀ hq0, mul_div_assoc] at s
      have e : η (b + 1) - η b = (V (b + p + 1) - V (b + 2)) / (p - 1 : ℕ) := by
        rw [hη]
        have := greville_succ_sub (p := p - 1) (fun i => V (i + 1)) (by omega) b
        rwa [show b + (p - 1) + 1 + 1 = b + p + 1 by omega] at this
      rw [← e] at s
      have t := ih (by omega)
      calc |m (b + 1) - m a| = |(m (b + 1) - m b) + (m b - m a)| := by ring_nf
        _ ≤ |m (b + 1) - m b| + |m b - m a| := abs_add_le _ _
        _ ≤ M * (η (b + 1) - η b) + M * (η b - η a) := add_le_add s t
        _ = _ := by ring
  have hξm : Monotone ξ := monotone_nat_of_le_succ (greville_le (by omega) hV)
  have hΔ : ∀ l, l + 1 < n → c (l + 1) - c l = m l * (ξ (l + 1) - ξ l) := by
    intro l hl
    have hd := (sub_pos.2 (hgap l hl)).ne'
    rw [hξ, greville_succ_sub V (by omega), hm]
    unfold slope
    field_simp
  -- deviation of a coefficient from the line through its neighbour
  have near : ∀ j < n, V j ≤ u → u ≤ V (j + p + 1) → |c j - c i - m i * (ξ j - ξ i)| ≤ 2 * M * h ^ 2 := by
    intro j hj a b
    have hj1 := hh j hj
    have hi1 := hh i hi
    have v1 := (hV (show j ≤ j + 1 by omega))
    have w := greville_bounds (p := p) (by omega) hV j
    have hxj : |ξ j - ξ i| ≤ h := by
      show |ξ j - u| ≤ h
      have w1 := (hV (show j ≤ j + 1 by omega)).trans w.1
      have w2 := w.2.trans (hV (show j + p ≤ j + p + 1 by omega))
      rw [abs_le]; constructor <;> linarith
    have g1' := (hV (show i ≤ i + 1 by omega)).trans g1
    have g2' := g2.trans (hV (show i + p ≤ i + p + 1 by omega))
    have dev : |c j - c i - m i * (ξ j - ξ i)| ≤ M * (2 * h) * |ξ j - ξ i| := by
      rcases le_total i j with hij | hij
      · rw [abs_of_nonneg (sub_nonneg.2 (hξm hij))]
        have bnd : ∀ l, i ≤ l → l < j → |m l - m i| ≤ M * (2 * h) := by
          intro l h1 h2
          refine (hmη i l h1 (by omega)).trans (mul_le_mul_of_nonneg_left ?_ hM)
          have x1 := (ηb l).2.trans (hV (show l + p ≤ j + p + 1 by omega))
          have x2 := (hV (show i ≤ i + 2 by omega)).trans (ηb i).1
          linarith
        rw [abs_le]
        constructor
        · have := sub_le_slope (ξ := ξ) (c := fun l => - (c l - m i * ξ l)) (M := M * (2 * h)) hij fun l h1 h2 => by
            have e := hΔ l (by omega)
            have := (abs_le.1 (bnd l h1 h2)).1
            have := mul_le_mul_of_nonneg_right this (sub_nonneg.2 (hξm (show l ≤ l + 1 by omega)))
            linarith
          linarith
        · have := sub_le_slope (ξ := ξ) (c := fun l => c l - m i * ξ l) (M := M * (2 * h)) hij fun l h1 h2 => by
            have e := hΔ l (by omega)
            have := (abs_le.1 (bnd l h1 h2)).2
            have := mul_le_mul_of_nonneg_right this (sub_nonneg.2 (hξm (show l ≤ l + 1 by omega)))
            linarith
          linarith
      · rw [abs_sub_comm (ξ j), abs_of_nonneg (sub_nonneg.2 (hξm hij))]
        have bnd : ∀ l, j ≤ l → l < i → |m l - m i| ≤ M * (2 * h) := by
          intro l h1 h2
          rw [abs_sub_comm]
          refine (hmη l i h2.le (by omega)).trans (mul_le_mul_of_nonneg_left ?_ hM)
          have x1 := (ηb i).2.trans (hV (show i + p ≤ i + p + 1 by omega))
          have x2 := (hV (show j ≤ l + 2 by omega)).trans (ηb l).1
          linarith
        rw [abs_le]
        constructor
        · have := sub_le_slope (ξ := ξ) (c := fun l => c l - m i * ξ l) (M := M * (2 * h)) hij fun l h1 h2 => by
            have e := hΔ l (by omega)
            have := (abs_le.1 (bnd l h1 h2)).2
            have := mul_le_mul_of_nonneg_right this (sub_nonneg.2 (hξm (show l ≤ l + 1 by omega)))
            linarith
          linarith
        · have := sub_le_slope (ξ := ξ) (c := fun l => - (c l - m i * ξ l)) (M := M * (2 * h)) hij fun l h1 h2 => by
            have e := hΔ l (by omega)
            have := (abs_le.1 (bnd l h1 h2)).1
            have := mul_le_mul_of_nonneg_right this (sub_nonneg.2 (hξm (show l ≤ l + 1 by omega)))
            linarith
          linarith
    refine dev.trans ?_
    calc M * (2 * h) * |ξ j - ξ i| ≤ M * (2 * h) * h := mul_le_mul_of_nonneg_left hxj (by positivity)
      _ = 2 * M * h ^ 2 := by ring
  -- average
  have lin : ∀ σ : K, curve V p n (fun j => σ * (c j - c i - m i * (ξ j - ξ i))) u = σ * (curve V p n c u - c i) := by
    intro σ
    have g := curve_greville hU (by omega) hlo hhi
    have o := sum_Nclosed hU hlo hhi
    rw [← hVdef, ← hξ] at g
    rw [← hVdef] at o
    have e : ∀ j, σ * (c j - c i - m i * (ξ j - ξ i)) * Nclosed V p n j u = σ * (c j * Nclosed V p n j u)
        + (-(σ * m i)) * (ξ j * Nclosed V p n j u) + (σ * (m i * u - c i)) * Nclosed V p n j u := by
      intro j; rw [show ξ i = u from rfl]; ring
    have : curve V p n (fun j => σ * (c j - c i - m i * (ξ j - ξ i))) u = σ * curve V p n c u
        + (-(σ * m i)) * curve V p n ξ u + (σ * (m i * u - c i)) * ∑ j ∈ range n, Nclosed V p n j u := by
      unfold curve
      rw [mul_sum, mul_sum, mul_sum, ← sum_add_distrib, ← sum_add_distrib]
      exact sum_congr rfl fun j _ => e j
    rw [this, g, o]
    ring
  have hup := curve_le hU hlo hhi' (c := fun j => 1 * (c j - c i - m i * (ξ j - ξ i))) (b := 2 * M * h ^ 2)
    fun j hj a b => by have := (abs_le.1 (near j hj a b)).2; linarith
  have hdn := curve_le hU hlo hhi' (c := fun j => -1 * (c j - c i - m i * (ξ j - ξ i))) (b := 2 * M * h ^ 2)
    fun j hj a b => by have := (abs_le.1 (near j hj a b)).1; linarith
  rw [← hVdef, lin] at hup hdn
  rw [abs_le]
  constructor <;> linarith

end PySpline
