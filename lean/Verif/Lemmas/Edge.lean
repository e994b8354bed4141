import Verif.Props.Surface

/-!
# Values and derivatives of the polynomial pieces at the ends of the domain
-/

set_option linter.unusedSectionVars false

namespace PySpline

open Spec Finset Polynomial

variable {K : Type} [Field K] [LinearOrder K] [IsStrictOrderedRing K]

/-- The pieces of degree `q` at the left end of their span, if `q + 1` knots meet there. -/
theorem piece_eval_left {U : ℕ → K} {k : ℕ} (hlt : U k < U (k + 1)) (q : ℕ) (hq : q ≤ k)
    (h : ∀ j, k - q ≤ j → j ≤ k → U j = U k) (i : ℕ) :
    (piece U k q i).eval (U k) = if i + q = k then 1 else 0 := by
  induction q generalizing i with
  | zero => unfold piece; split <;> simp_all
  | succ q ih =>
    have ih := ih (by omega) (fun j h1 h2 => h j (by omega) h2)
    rw [piece_succ]
    simp only [eval_add, eval_mul, eval_C, eval_sub, eval_X, ih]
    by_cases h1 : i + q = k
    · rw [if_pos h1, if_neg (by omega), if_neg (by omega), h i (by omega) (by omega)]
      ring
    · rw [if_neg h1]
      by_cases h2 : i + 1 + q = k
      · rw [if_pos h2, if_pos (by omega)]
        unfold w
        rw [show i + 1 + q + 1 = k + 1 by omega, show i + q + 2 = k + 1 by omega, h (i + 1) (by omega) (by omega),
          mul_zero, zero_add, mul_one, one_div_mul_cancel (sub_ne_zero.2 hlt.ne')]
      · rw [if_neg h2, if_neg (by omega)]
        ring

/-- The pieces of degree `q` at the right end of their span, if `q + 1` knots meet there. -/
theorem piece_eval_right {U : ℕ → K} {k : ℕ} (hlt : U k < U (k + 1)) (q : ℕ)
    (h : ∀ j, k + 1 ≤ j → j ≤ k + 1 + q → U j = U (k + 1)) (i : ℕ) :
    (piece U k q i).eval (U (k + 1)) = if i = k then 1 else 0 := by
  induction q generalizing i with
  | zero => unfold piece; split <;> simp_all
  | succ q ih =>
    have ih := ih (fun j h1 h2 => h j h1 (by omega))
    rw [piece_succ]
    simp only [eval_add, eval_mul, eval_C, eval_sub, eval_X, ih]
    by_cases h1 : i = k
    · subst h1
      rw [if_pos rfl, if_neg (by omega)]
      unfold w
      rw [h (i + q + 1) (by omega) (by omega), one_div, mul_zero, add_zero, mul_one,
        inv_mul_cancel₀ (sub_ne_zero.2 hlt.ne')]
    · rw [if_neg h1]
      by_cases h2 : i + 1 = k
      · rw [if_pos h2, h (i + q + 2) (by omega) (by omega)]
        ring
      · rw [if_neg h2]
        ring

/-- The first derivative at the first knot involves the first two control values. -/
theorem sum_deriv_left {p n : ℕ} {U : List K} (hU : Clamped p n U) (hp : 1 ≤ p)
    (hlt : knotFn U p < knotFn U (p + 1)) (c : ℕ → K) :
    ∑ i ∈ range n, c i * (deriv 1 (piece (knotFn U) p p i)).eval (knotFn U p)
      = p / (knotFn U (p + 1) - knotFn U p) * (c 1 - c 0) := by
  obtain ⟨q, rfl⟩ : ∃ q, p = q + 1 := ⟨p - 1, by omega⟩
  have hsz := hU.size
  have hl : ∀ j, j ≤ q + 1 → knotFn U j = knotFn U (q + 1) := fun j hj => by
    rw [hU.left j hj, hU.left (q + 1) le_rfl]
  have e : ∀ i, (deriv 1 (piece (knotFn U) (q + 1) (q + 1) i)).eval (knotFn U (q + 1))
      = if i = 1 then ((q + 1 : ℕ) : K) / (knotFn U (q + 1 + 1) - knotFn U (q + 1)) else
        if i = 0 then -(((q + 1 : ℕ) : K) / (knotFn U (q + 1 + 1) - knotFn U (q + 1))) else 0 := by
    intro i
    have : deriv 1 (piece (knotFn U) (q + 1) (q + 1) i) = derivative (piece (knotFn U) (q + 1) (q + 1) i) := rfl
    rw [this, derivative_piece (monotone_knotFn hU.mono)]
    simp only [eval_sub, eval_mul, eval_C,
      piece_eval_left hlt q (by omega) fun j _ h2 => hl j h2]
    by_cases h1 : i = 1
    · subst h1
      rw [if_pos (by omega), if_neg (by omega), if_pos rfl]
      unfold w
      rw [show 1 + q + 1 = q + 1 + 1 by omega, hl 1 (by omega)]
      push_cast
      ring
    · rw [if_neg (by omega), if_neg h1]
      by_cases h0 : i = 0
      · subst h0
        rw [if_pos (by omega), if_pos rfl]
        unfold w
        rw [show 0 + 1 + q + 1 = q + 1 + 1 by omega, hl (0 + 1) (by omega)]
        push_cast
        ring
      · rw [if_neg (by omega), if_neg h0]
        ring
  rw [sum_congr rfl fun i _ => by rw [e i]]
  rw [← sum_subset (s₁ := range 2) (fun x hx => by rw [mem_range] at *; omega) (fun i _ hi => by
    rw [mem_range] at hi
    rw [if_neg (by omega), if_neg (by omega), mul_zero])]
  rw [sum_range_succ, sum_range_one]
  simp
  ring

/-- The first derivative at the last knot involves the last two control values. -/
theorem sum_deriv_right {p n : ℕ} {U : List K} (hU : Clamped p n U) (hp : 1 ≤ p)
    (hlt : knotFn U (n - 1) < knotFn U n) (c : ℕ → K) :
    ∑ i ∈ range n, c i * (deriv 1 (piece (knotFn U) (n - 1) p i)).eval (knotFn U n)
      = p / (knotFn U n - knotFn U (n - 1)) * (c (n - 1) - c (n - 2)) := by
  obtain ⟨q, rfl⟩ : ∃ q, p = q + 1 := ⟨p - 1, by omega⟩
  have hsz := hU.size
  obtain ⟨m, rfl⟩ : ∃ m, n = m + 2 := ⟨n - 2, by omega⟩
  rw [show m + 2 - 1 = m + 1 by omega, show m + 2 - 2 = m by omega] at *
  have hl : ∀ j, m + 1 + 1 ≤ j → j ≤ m + 1 + 1 + q → knotFn U j = knotFn U (m + 1 + 1) := fun j h1 h2 => by
    rw [hU.right j h1 (by omega), hU.right (m + 1 + 1) le_rfl (by omega)]
  have e : ∀ i, (deriv 1 (piece (knotFn U) (m + 1) (q + 1) i)).eval (knotFn U (m + 2))
      = if i = m + 1 then ((q + 1 : ℕ) : K) / (knotFn U (m + 2) - knotFn U (m + 1)) else
        if i = m then -(((q + 1 : ℕ) : K) / (knotFn U (m + 2) - knotFn U (m + 1))) else 0 := by
    intro i
    have : deriv 1 (piece (knotFn U) (m + 1) (q + 1) i) = derivative (piece (knotFn U) (m + 1) (q + 1) i) := rfl
    rw [this, derivative_piece (monotone_knotFn hU.mono)]
    simp only [eval_sub, eval_mul, eval_C, show knotFn U (m + 2) = knotFn U (m + 1 + 1) from rfl,
      piece_eval_right (U := knotFn U) (k := m + 1) hlt q hl]
    by_cases h1 : i = m + 1
    · subst h1
      rw [if_pos rfl, if_neg (by omega), if_pos rfl]
      unfold w
      rw [hl (m + 1 + q + 1) (by omega) (by omega)]
      push_cast
      ring
    · rw [if_neg h1, if_neg h1]
      by_cases h0 : i = m
      · subst h0
        rw [if_pos rfl, if_pos rfl]
        unfold w
        rw [hl (i + 1 + q + 1) (by omega) (by omega)]
        push_cast
        ring
      · rw [if_neg (by omega), if_neg h0]
        ring
  rw [sum_congr rfl fun i _ => by rw [e i]]
  rw [sum_range_succ, sum_range_succ, sum_eq_zero fun i hi => ?_]
  · simp
    ring
  · rw [mem_range] at hi
    rw [if_neg (by omega), if_neg (by omega), mul_zero]

/-- A parameter in a span: the span at the first knot. -/
theorem span_first {p n m : ℕ} {U : List K} (hU : Clamped p n U) (hlt : knotFn U p < knotFn U (p + 1))
    (h1 : knotFn U m ≤ knotFn U p) (h2 : p ≤ m) : m = p := by
  have hV := monotone_knotFn hU.mono
  by_contra hne
  exact absurd (hlt.trans_le ((hV (show p + 1 ≤ m by omega)).trans h1)) (lt_irrefl _)

theorem span_last {p n m : ℕ} {U : List K} (hU : Clamped p n U) (hlt : knotFn U (n - 1) < knotFn U n)
    (h1 : knotFn U n ≤ knotFn U (m + 1)) (h2 : m < n) : m = n - 1 := by
  have hV := monotone_knotFn hU.mono
  by_contra hne
  exact absurd (hlt.trans_le (h1.trans (hV (show m + 1 ≤ n - 1 by omega)))) (lt_irrefl _)

/-- `surface_derivatives_layout` with the bounds of the spans. -/
theorem surface_derivatives_spans (norm : List K → K) {s : Surface K} (hs : SurfaceOk s) {u v : K}
    (hu : 0 ≤ u ∧ u ≤ 1) (hv : 0 ≤ v ∧ v ≤ 1) (ru : Regular s.degreeU s.numU s.kvU u)
    (rv : Regular s.degreeV s.numV s.kvV v) (hcu : Clamped s.degreeU s.numU s.kvU) (hcv : Clamped s.degreeV s.numV s.kvV)
    (orderU orderV : ℕ) :
    ∃ m k, (s.degreeU ≤ m ∧ m < s.numU) ∧ (s.degreeV ≤ k ∧ k < s.numV) ∧ knotFn s.kvU m ≤ u ∧ u ≤ knotFn s.kvU (m + 1) ∧
      knotFn s.kvV k ≤ v ∧ v ≤ knotFn s.kvV (k + 1) ∧
      knotFn s.kvU m < knotFn s.kvU (m + 1) ∧ knotFn s.kvV k < knotFn s.kvV (k + 1) ∧
      ∀ normalize, ∃ rows, s.derivatives norm u v orderU orderV normalize = .ok rows ∧
        rows.length = (min orderU s.degreeU + 1) * (min orderV s.degreeV + 1) ∧
        ∀ a ≤ min orderU s.degreeU, ∀ b ≤ min orderV s.degreeV,
          rows.getD (a * (min orderV s.degreeV + 1) + b) [] =
            scaledRow norm normalize (a == 0 && b == 0) ((List.range 3).map fun c =>
              patchDeriv (knotFn s.kvU) m s.degreeU s.numU (knotFn s.kvV) k s.degreeV s.numV
                (coord s.ctrlpts c) a b u v) := by
  obtain ⟨m, k, h1, h2, h3, h4, h5, h6, h⟩ := surface_derivatives_layout norm hs hu hv ru rv orderU orderV
  have bounds : ∀ {p n m : ℕ} {U : List K}, Clamped p n U → knotFn U m < knotFn U (m + 1) → p ≤ m ∧ m < n := by
    intro p n m U hU hlt
    constructor
    · by_contra hc
      rw [hU.left m (by omega), hU.left (m + 1) (by omega)] at hlt
      exact absurd hlt (lt_irrefl _)
    · by_contra hc
      have hlen := hU.len
      have beyond : ∀ j, n ≤ j → knotFn U j = knotFn U (n + p) := by
        intro j hj
        by_cases hjl : j ≤ n + p
        · exact hU.right j hj hjl
        · unfold knotFn
          rw [List.getD_eq_getElem?_getD, List.getElem?_eq_none (by omega), List.getD_eq_getElem?_getD,
            List.getLastD_eq_getLast?, List.getLast?_eq_getElem?, show U.length - 1 = n + p by omega,
            List.getElem?_eq_getElem (by omega)]
          rfl
      rw [beyond m (by omega), beyond (m + 1) (by omega)] at hlt
      exact absurd hlt (lt_irrefl _)
  exact ⟨m, k, bounds hcu h5, bounds hcv h6, h1, h2, h3, h4, h5, h6, h⟩

end PySpline
