import Verif.Props.KnotFit
import Verif.Props.Surface

/-!
# C183: degree one
-/

set_option linter.unusedSectionVars false

namespace PySpline

open Spec Polynomial

variable {K : Type} [Field K] [LinearOrder K] [IsStrictOrderedRing K]

private theorem eval_one_left (V : ℕ → K) {k : ℕ} (hk : 1 ≤ k) (u : K) :
    (piece V k 1 (k - 1)).eval u = (V (k + 1) - u) / (V (k + 1) - V k) := by
  obtain ⟨m, rfl⟩ : ∃ m, k = m + 1 := ⟨k - 1, by omega⟩
  simp [piece, div_eq_mul_inv, mul_comm]

private theorem eval_one_right (V : ℕ → K) (k : ℕ) (u : K) :
    (piece V k 1 k).eval u = (u - V k) / (V (k + 1) - V k) := by
  simp [piece, div_eq_mul_inv, mul_comm]

private theorem span_unique {p n : ℕ} {U : List K} {u : K} {k m : ℕ} (hU : KnotVector p n U) (hr : Regular p n U u)
    (hk : p ≤ k) (hkn : k < n) (k1 : knotFn U k ≤ u) (k2 : u ≤ knotFn U (k + 1)) (hm : p ≤ m) (hmn : m < n)
    (m1 : knotFn U m ≤ u) (m2 : u ≤ knotFn U (m + 1)) :
    m = k ∨ (m + 1 = k ∧ u = knotFn U k) ∨ (k + 1 = m ∧ u = knotFn U m) := by
  have hV := monotone_knotFn hU.mono
  have key : ∀ {a b : ℕ}, p ≤ a → b < n → knotFn U b ≤ u → u ≤ knotFn U (a + 1) → a < b →
      a + 1 = b ∧ u = knotFn U b := by
    intro a b ha hb b1 a2 hab
    have e : u = knotFn U (a + 1) := le_antisymm a2 ((hV (by omega)).trans b1)
    have h := hr.simple (a + 1) (by omega) (by omega) e
    have : a + 1 = b := by
      by_contra hne
      have : knotFn U (a + 2) ≤ knotFn U b := hV (by omega)
      linarith
    exact ⟨this, by rw [← this]; exact e⟩
  rcases lt_trichotomy m k with h | h | h
  · exact .inr (.inl (key hm hkn k1 m2 h))
  · exact .inl h
  · exact .inr (.inr (key hk hmn m1 k2 h))

private theorem weights {n : ℕ} {U : List K} {u : K} {k a : ℕ} (hU : KnotVector 1 n U) (hr : Regular 1 n U u)
    (hk : 1 ≤ k) (hkn : k < n) (k1 : knotFn U k ≤ u) (k2 : u ≤ knotFn U (k + 1)) (ks : knotFn U k < knotFn U (k + 1))
    (ha : 1 ≤ a) (han : a < n) (a1 : knotFn U a ≤ u) (a2 : u ≤ knotFn U (a + 1)) (as : knotFn U a < knotFn U (a + 1))
    (f : ℕ → K) : f (a - 1) * ((knotFn U (a + 1) - u) / (knotFn U (a + 1) - knotFn U a))
      + f a * ((u - knotFn U a) / (knotFn U (a + 1) - knotFn U a))
      = (1 - (u - knotFn U k) / (knotFn U (k + 1) - knotFn U k)) * f (k - 1)
        + (u - knotFn U k) / (knotFn U (k + 1) - knotFn U k) * f k := by
  have h1 := (sub_pos.2 ks).ne'
  have h2 := (sub_pos.2 as).ne'
  rcases span_unique hU hr hk hkn k1 k2 ha han a1 a2 with rfl | ⟨rfl, e⟩ | ⟨rfl, e⟩
  · field_simp
    ring
  · rw [e, sub_self, zero_div, zero_div, div_self h2, Nat.add_sub_cancel]
    ring
  · rw [e, sub_self, zero_div, div_self h2, div_self h1, Nat.add_sub_cancel]
    ring

/-- **C183.** A curve of degree one is its control polygon: between the knots `U[k]` and `U[k+1]` it runs through the
segment between the control points `k - 1` and `k`, with constant speed. -/
theorem single_point_degree_one {n d : ℕ} {U : List K} {P : List (List K)} {u : K} (hU : KnotVector 1 n U)
    (hP : Shape P n d) (hd : 3 ≤ d) (h0 : 0 ≤ u) (h1 : u ≤ 1) (hr : Regular 1 n U u) {k : ℕ} (hk : 1 ≤ k) (hkn : k < n)
    (k1 : knotFn U k ≤ u) (k2 : u ≤ knotFn U (k + 1)) (hs : knotFn U k < knotFn U (k + 1)) :
    Curve.singlePoint ⟨1, P, U⟩ u = .ok ((List.range 3).map fun c => coord P c (k - 1)
      + (u - knotFn U k) / (knotFn U (k + 1) - knotFn U k) * (coord P c k - coord P c (k - 1))) := by
  obtain ⟨m, hm, hpm, hmn, m1, m2, hms⟩ := findSpan_regular hU hr
  rw [singlePoint_of_span hU hP hd h0 h1 hm hpm hmn hms]
  congr 1
  refine List.map_congr_left fun c _ => ?_
  rw [Finset.sum_range_succ, Finset.sum_range_one, show m - 1 + 1 = m by omega, Nat.add_zero, eval_one_left _ hpm,
    eval_one_right]
  linear_combination weights hU hr hk hkn k1 k2 hs hpm hmn m1 m2 hms (coord P c)

/-- **C183.** With distinct knots it runs through every control point, at the knots. -/
theorem single_point_degree_one_knot {n : ℕ} {U : List K} {P : List (List K)} (hU : Clamped 1 n U) (hP : Shape P n 3)
    (hd : DistinctInterior 1 n U) (h0 : knotFn U 0 = 0) (h1 : knotFn U (n + 1) = 1) {i : ℕ} (hi : i < n)
    (hr : Regular 1 n U (knotFn U (i + 1))) :
    Curve.singlePoint ⟨1, P, U⟩ (knotFn U (i + 1)) = .ok (P.getD i []) := by
  have hV := monotone_knotFn hU.mono
  have hn := hU.size
  have l : (P.getD i []).length = 3 := hP.row (by omega)
  have row : P.getD i [] = (List.range 3).map fun c => coord P c i := by
    obtain ⟨x, y, z, e⟩ := List.length_eq_three.1 l
    unfold coord
    rw [e]
    rfl
  have b0 : 0 ≤ knotFn U (i + 1) := by rw [← h0]; exact hV (by omega)
  have b1 : knotFn U (i + 1) ≤ 1 := by rw [← h1]; exact hV (by omega)
  rw [row]
  rcases Nat.eq_zero_or_pos i with rfl | hpos
  · rw [single_point_degree_one hU.toKnotVector hP le_rfl b0 b1 hr le_rfl hn le_rfl (hV (by omega)) (hd 1 le_rfl hn)]
    simp
  · have hs := hd i hpos hi
    rw [single_point_degree_one hU.toKnotVector hP le_rfl b0 b1 hr hpos hi hs.le le_rfl hs,
      div_self (sub_pos.2 hs).ne']
    simp

/-- **C183.** A surface of degree one in both directions consists of bilinear patches. -/
theorem surface_point_degree_one {n m : ℕ} {U V : List K} {P : List (List K)} {u v : K} (hU : KnotVector 1 n U)
    (hV : KnotVector 1 m V) (hP : Shape P (n * m) 3) (hu : 0 ≤ u ∧ u ≤ 1) (hv : 0 ≤ v ∧ v ≤ 1) (ru : Regular 1 n U u)
    (rv : Regular 1 m V v) {k l : ℕ} (hk : 1 ≤ k) (hkn : k < n) (k1 : knotFn U k ≤ u) (k2 : u ≤ knotFn U (k + 1))
    (ks : knotFn U k < knotFn U (k + 1)) (hl : 1 ≤ l) (hlm : l < m) (l1 : knotFn V l ≤ v) (l2 : v ≤ knotFn V (l + 1))
    (ls : knotFn V l < knotFn V (l + 1)) :
    let s := (u - knotFn U k) / (knotFn U (k + 1) - knotFn U k)
    let t := (v - knotFn V l) / (knotFn V (l + 1) - knotFn V l)
    Surface.singlePoint ⟨1, 1, n, m, P, U, V⟩ u v = .ok ((List.range 3).map fun c =>
      (1 - s) * ((1 - t) * coord P c ((k - 1) * m + (l - 1)) + t * coord P c ((k - 1) * m + l))
        + s * ((1 - t) * coord P c (k * m + (l - 1)) + t * coord P c (k * m + l))) := by
  obtain ⟨a, ha, a1, an, a2, a3, as⟩ := findSpan_regular hU ru
  obtain ⟨b, hb, b1, bn, b2, b3, bs⟩ := findSpan_regular hV rv
  intro s t
  rw [surfacePoint_of_span (s := ⟨1, 1, n, m, P, U, V⟩) ⟨hU, hV, hP⟩ hu hv ha a1 an as hb b1 bn bs]
  congr 1
  refine List.map_congr_left fun c _ => ?_
  rw [Finset.sum_range_succ, Finset.sum_range_one, Finset.sum_range_succ, Finset.sum_range_one, Finset.sum_range_succ,
    Finset.sum_range_one, show a - 1 + 1 = a by omega, show b - 1 + 1 = b by omega, Nat.add_zero, Nat.add_zero,
    eval_one_left _ a1, eval_one_left _ b1, eval_one_right, eval_one_right]
  have e1 := weights hV rv hl hlm l1 l2 ls b1 bn b2 b3 bs fun j => coord P c ((k - 1) * m + j)
  have e2 := weights hV rv hl hlm l1 l2 ls b1 bn b2 b3 bs fun j => coord P c (k * m + j)
  have e3 := weights hU ru hk hkn k1 k2 ks a1 an a2 a3 as fun i => coord P c (i * m + (b - 1))
  have e4 := weights hU ru hk hkn k1 k2 ks a1 an a2 a3 as fun i => coord P c (i * m + b)
  change _ = (1 - _) * ((1 - (v - knotFn V l) / (knotFn V (l + 1) - knotFn V l)) * _ + _)
    + _ * ((1 - (v - knotFn V l) / (knotFn V (l + 1) - knotFn V l)) * _ + _)
  rw [← e1, ← e2]
  linear_combination ((knotFn V (b + 1) - v) / (knotFn V (b + 1) - knotFn V b)) * e3
    + ((v - knotFn V b) / (knotFn V (b + 1) - knotFn V b)) * e4

/-- **C183.** An initial curve of degree one runs through the segment between its end points with constant speed, for
every number of control points and every parameter. -/
theorem initialize_curve_degree_one {s e : List K} (hs : s.length = 3) (he : e.length = 3) {n : ℕ} (hn : 2 ≤ n) :
    ∃ c : Curve K, initializeCurve s e 1 n = .ok c ∧ ∀ u : K, 0 ≤ u → u ≤ 1 →
      c.singlePoint u = .ok ((List.range 3).map fun k => s.getD k 0 + u * (e.getD k 0 - s.getD k 0)) := by
  obtain ⟨⟨p, P, U⟩, hc, rfl, hP, hv, -, hU, hd, h0, h1, hg⟩ := initialize_curve_points hs he (p := 1) (by omega) hn
  dsimp only at *
  refine ⟨_, hc, fun u hu0 hu1 => ?_⟩
  have hn0 : (0 : K) < (n : K) - 1 := by
    have : (2 : K) ≤ n := by exact_mod_cast hn
    linarith
  have kn : ∀ i, i + 1 ≤ n → knotFn U (i + 1) = (i : K) / ((n : K) - 1) := by
    intro i
    induction i with
    | zero => intro _; rw [hU.left 1 le_rfl, h0, Nat.cast_zero, zero_div]
    | succ i ih =>
      intro hi
      have := hg (i + 1) (by omega) (by omega)
      rw [ih (by omega)] at this
      push_cast at this ⊢
      linear_combination this
  obtain ⟨m, hm, hpm, hmn, -⟩ := find_span_on_domain hU.toKnotVector (u := u) (by rw [hU.left 1 le_rfl, h0]; exact hu0)
    (by rw [hU.right n le_rfl (by omega), h1]; exact hu1)
  rw [singlePoint_of_span hU.toKnotVector hP le_rfl hu0 hu1 hm hpm hmn (hd m hpm hmn)]
  congr 1
  refine List.map_congr_left fun k hk => ?_
  rw [Finset.sum_range_succ, Finset.sum_range_one, show m - 1 + 1 = m by omega, Nat.add_zero, eval_one_left _ hpm,
    eval_one_right, hv k (List.mem_range.1 hk) _ (by omega), hv k (List.mem_range.1 hk) _ hmn]
  obtain ⟨j, rfl⟩ : ∃ j, m = j + 1 := ⟨m - 1, by omega⟩
  rw [kn j (by omega), kn (j + 1) (by omega), Nat.add_sub_cancel]
  push_cast
  have : ((j : K) + 1) / ((n : K) - 1) - j / ((n : K) - 1) = 1 / ((n : K) - 1) := by ring
  rw [this]
  field_simp
  ring

/-- **C183**, example: knots `0, 0, 1/4, 1, 1`, control points `(0,0,0)`, `(1,2,0)`, `(5,2,4)`. -/
example :
    Curve.singlePoint (⟨1, [[0, 0, 0], [1, 2, 0], [5, 2, 4]], [0, 0, 1/4, 1, 1]⟩ : Curve ℚ) (1/8) = .ok [1/2, 1, 0] ∧
    Curve.singlePoint (⟨1, [[0, 0, 0], [1, 2, 0], [5, 2, 4]], [0, 0, 1/4, 1, 1]⟩ : Curve ℚ) (1/4) = .ok [1, 2, 0] ∧
    Curve.singlePoint (⟨1, [[0, 0, 0], [1, 2, 0], [5, 2, 4]], [0, 0, 1/4, 1, 1]⟩ : Curve ℚ) (1/2) = .ok [7/3, 2, 4/3] := by
  decide +kernel

/-- **C183**, example: a bilinear patch, the middle of the hyperbolic paraboloid. -/
example : Surface.singlePoint (⟨1, 1, 2, 2, [[0, 0, 0], [0, 1, 0], [1, 0, 0], [1, 1, 4]], [0, 0, 1, 1], [0, 0, 1, 1]⟩
    : Surface ℚ) (1/2) (1/2) = .ok [1/2, 1/2, 1] := by
  decide +kernel

/-- **C183.** The condition that `u` is not taken for the last knot is needed: with a last span shorter than the
tolerance of `find_span` the curve leaves its polygon, here by 99 times the length of the last segment. -/
theorem single_point_degree_one_witness :
    Curve.singlePoint (⟨1, [[0, 0, 0], [1, 0, 0], [1, 1, 0]], [0, 0, 1 - 1 / 10 ^ 8, 1, 1]⟩ : Curve ℚ) (1 - 1 / 10 ^ 6)
      = .ok [1, -99, 0] := by
  decide +kernel

end PySpline
