import Verif.Model.BSpline
import Verif.Props.OneBasis

/-!
# Helper lemmas for curve and surface evaluation
-/

set_option linter.unusedSectionVars false

namespace PySpline

open Spec Polynomial

variable {K : Type} [Field K] [LinearOrder K] [IsStrictOrderedRing K]

theorem validateKnot_iff (u : K) : validateKnot u = true ↔ 0 ≤ u ∧ u ≤ 1 := by
  simp [validateKnot]

theorem clipBound_nat {n : ℕ} {i : ℤ} (a : ℕ) (hi : i = a) (ha : a ≤ n) : clipBound n i = a := by
  subst hi
  unfold clipBound
  rw [if_neg (by omega)]
  simp [ha]

theorem pySlice_nat {α : Type} (l : List α) (lo hi : ℤ) (a b : ℕ) (d : α) (hlo : lo = a)
    (hhi : hi = (a + b : ℕ)) (h : a + b ≤ l.length) :
    pySlice l lo hi = (List.range b).map fun r => l.getD (a + r) d := by
  unfold pySlice
  rw [clipBound_nat a hlo (by omega), clipBound_nat (a + b) hhi h]
  refine List.ext_getElem (by simp; omega) fun r h1 h2 => ?_
  have hr : r < b := by simpa using h2
  simp [List.getElem?_eq_getElem (show a + r < l.length by omega), List.getD_eq_getElem?_getD]

theorem dot_map_range (f g : ℕ → K) (n : ℕ) :
    dot ((List.range n).map f) ((List.range n).map g) = .ok (∑ r ∈ Finset.range n, f r * g r) := by
  unfold dot
  rw [if_pos (by simp)]
  congr 1
  rw [← sum_map_range]
  congr 1
  refine List.ext_getElem (by simp) fun r h1 h2 => by simp

theorem column_rows (P : List (List K)) (a b c : ℕ) (ci : ℤ) (hc : ci = c)
    (h : ∀ r < b, c < (P.getD (a + r) []).length) :
    column ((List.range b).map fun r => P.getD (a + r) []) ci
      = .ok ((List.range b).map fun r => coord P c (a + r)) := by
  unfold column
  rw [mapPy_eq_ok _ (fun row => row.getD c 0)]
  · rw [List.map_map]; rfl
  · intro x hx
    obtain ⟨r, hr, rfl⟩ := List.mem_map.1 hx
    exact pyGet_nat _ _ c 0 hc (h r (List.mem_range.1 hr))

theorem column_all {P : List (List K)} {n d : ℕ} (hP : Shape P n d) (ci : ℤ) (c : ℕ) (hc : ci = c)
    (hcd : c < d) : column P ci = .ok ((List.range n).map (coord P c)) := by
  have e : P = (List.range n).map fun r => P.getD (0 + r) [] := by
    refine List.ext_getElem (by simp [hP.1]) fun r h1 h2 => ?_
    simp [List.getD_eq_getElem?_getD, List.getElem?_eq_getElem h1]
  conv_lhs => rw [e]
  rw [column_rows P 0 n c ci hc fun r hr => by rw [hP.row (by omega)]; exact hcd]
  simp

/-- What `single_point` computes once the span is known. -/
theorem singlePoint_of_span {p n d m : ℕ} {U : List K} {P : List (List K)} {u : K}
    (hU : KnotVector p n U) (hP : Shape P n d) (hd : 3 ≤ d) (h0 : 0 ≤ u) (h1 : u ≤ 1)
    (hspan : findSpan n p u U = .ok (m : ℤ)) (hpm : p ≤ m) (hmn : m < n)
    (hs : knotFn U m < knotFn U (m + 1)) :
    Curve.singlePoint ⟨p, P, U⟩ u = .ok ((List.range 3).map fun c =>
      ∑ r ∈ Finset.range (p + 1),
        (piece (knotFn U) m p (m - p + r)).eval u * coord P c (m - p + r)) := by
  have hlen := hU.len
  have hPl := hP.1
  unfold Curve.singlePoint
  rw [if_neg (by rw [(validateKnot_iff u).2 ⟨h0, h1⟩]; simp)]
  dsimp only
  rw [hPl, hspan, ok_bind, basis_functions_pieces hU.mono u hpm (by omega) hs, ok_bind,
    pySlice_nat P _ _ (m - p) (p + 1) [] (by omega) (by omega) (by omega)]
  have hc : ∀ c < 3, ∀ r < p + 1, c < (P.getD (m - p + r) []).length := fun c hc r hr => by
    rw [hP.row (by omega)]; omega
  rw [column_rows P _ _ 0 0 rfl (hc 0 (by omega)), ok_bind, dot_map_range, ok_bind,
    column_rows P _ _ 1 1 rfl (hc 1 (by omega)), ok_bind, dot_map_range, ok_bind,
    column_rows P _ _ 2 2 rfl (hc 2 (by omega)), ok_bind, dot_map_range, ok_bind]
  rfl

/-- A sum over the active control points is the sum over all of them. -/
theorem sum_active {p n m : ℕ} (hpm : p ≤ m) (hmn : m < n) (c f : ℕ → K)
    (hz : ∀ i, i + p < m ∨ m < i → f i = 0) :
    ∑ r ∈ Finset.range (p + 1), f (m - p + r) * c (m - p + r)
      = ∑ i ∈ Finset.range n, c i * f i := by
  have e : n = (m - p) + ((p + 1) + (n - (m + 1))) := by omega
  conv_rhs => rw [e, Finset.sum_range_add, Finset.sum_range_add]
  have h1 : ∑ x ∈ Finset.range (m - p), c x * f x = 0 :=
    Finset.sum_eq_zero fun x hx => by
      rw [hz x (Or.inl (by have := Finset.mem_range.1 hx; omega)), mul_zero]
  have h2 : ∑ x ∈ Finset.range (n - (m + 1)), c (m - p + (p + 1 + x)) * f (m - p + (p + 1 + x)) = 0 :=
    Finset.sum_eq_zero fun x hx => by rw [hz _ (Or.inr (by omega)), mul_zero]
  rw [h1, h2, zero_add, add_zero]
  exact Finset.sum_congr rfl fun r _ => mul_comm _ _

/-- The span found at a regular parameter: non-empty and containing the parameter. -/
theorem findSpan_regular {p n : ℕ} {U : List K} {u : K} (hU : KnotVector p n U)
    (hr : Regular p n U u) :
    ∃ m : ℕ, findSpan n p u U = .ok (m : ℤ) ∧ p ≤ m ∧ m < n ∧ knotFn U m ≤ u ∧
      u ≤ knotFn U (m + 1) ∧ knotFn U m < knotFn U (m + 1) := by
  have hV := monotone_knotFn hU.mono
  obtain ⟨m, h1, h2, h3, h4⟩ := find_span_on_domain hU hr.lo hr.hi
  have h5 : knotFn U m ≤ u ∧ u ≤ knotFn U (m + 1) := by
    rcases h4 with h4 | ⟨h4, rfl⟩
    · exact h4
    · unfold nearEnd isclose atolDefault at h4
      refine ⟨hr.last (by simpa using h4), ?_⟩
      rw [show n - 1 + 1 = n by omega]
      exact hr.hi
  refine ⟨m, h1, h2, h3, h5.1, h5.2, ?_⟩
  refine lt_of_le_of_ne (hV (by omega)) fun he => ?_
  exact absurd (hr.simple m h2 h3 (le_antisymm (h5.2.trans he.symm.le) h5.1)) (by rw [he]; exact lt_irrefl _)

/-- At a regular parameter the pieces of the span found are the basis functions. -/
theorem piece_eq_Nclosed {p n m : ℕ} {U : List K} {u : K} (hU : Clamped p n U) (hp : 1 ≤ p)
    (hr : Regular p n U u) (hmn : m < n) (hpm : p ≤ m) (h1 : knotFn U m ≤ u)
    (h2 : u ≤ knotFn U (m + 1)) (hs : knotFn U m < knotFn U (m + 1)) (i : ℕ) (hi : i < n) :
    (piece (knotFn U) m p i).eval u = Nclosed (knotFn U) p n i u := by
  have hV := monotone_knotFn hU.mono
  have hn : knotFn U n = knotFn U (n + p) := hU.right n le_rfl (by omega)
  unfold Nclosed
  by_cases hlast : u = knotFn U (n + p)
  · rw [if_pos hlast]
    have hm : m = n - 1 := by
      by_contra hne
      have he : u = knotFn U (m + 1) :=
        le_antisymm h2 (by rw [hlast]; exact hV (by omega))
      have := hr.simple (m + 1) (by omega) (by omega) he
      have h3 : knotFn U (m + 1 + 1) ≤ knotFn U (n + p) := hV (by omega)
      rw [← he, hlast] at this
      exact absurd (this.trans_le h3) (lt_irrefl _)
    subst hm
    rw [piece_at_right_end (m := p) ?_ ?_ p le_rfl]
    · by_cases h : i = n - 1
      · rw [if_pos h, if_pos (by omega)]
      · rw [if_neg h, if_neg (by omega)]
    · intro j hj
      rw [hlast]
      exact hU.right _ (by omega) (by omega)
    · refine hs.trans_le ?_
      rw [hlast]
      exact hV (by omega)
  · rw [if_neg hlast]
    rcases lt_or_eq_of_le h2 with h | h
    · exact (N_eq_piece hV h1 h p i).symm
    · have hm1 : m + 1 < n := by
        by_contra hc
        have : m + 1 = n := by omega
        exact hlast (by rw [h, this, hn])
      have h3 := hr.simple (m + 1) (by omega) hm1 h
      rw [N_eq_piece hV (k := m + 1) h.symm.le (by rw [h]; exact h3)]
      refine piece_continuous (m := 1) (h ▸ hs) ?_ (by rw [h]; exact h3) hp i
      intro j hj
      have : j = 0 := by omega
      rw [this, h]

end PySpline
