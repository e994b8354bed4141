import Verif.Lemmas.Zeros
import Verif.Props.Fitting

/-!
# Auxiliary lemmas for `Props/FitUnique.lean`
-/

set_option linter.unusedSectionVars false

namespace PySpline

open Spec Finset

variable {K : Type} [Field K] [LinearOrder K] [IsStrictOrderedRing K]

section
variable {m : ℕ} {F : (ℕ → K) → ℕ → K}

/-- A minimizer over an affine space of coefficients satisfies the normal equations. -/
theorem normal_of_least (hF : ∀ x e s r, F (fun i => x i + s * e i) r = F x r + s * F e r) {free : (ℕ → K) → Prop}
    {x : ℕ → K} {d : ℕ → K}
    (h : ∀ s e, free e → ∑ r ∈ range m, (F x r - d r) ^ 2 ≤ ∑ r ∈ range m, (F (fun i => x i + s * e i) r - d r) ^ 2)
    {e : ℕ → K} (he : free e) : ∑ r ∈ range m, (F x r - d r) * F e r = 0 := by
  set B := ∑ r ∈ range m, (F x r - d r) * F e r with hB
  set S := ∑ r ∈ range m, F e r ^ 2 with hS
  have hS0 : 0 ≤ S := sum_nonneg fun r _ => sq_nonneg _
  have key : ∀ s, 0 ≤ 2 * s * B + s ^ 2 * S := by
    intro s
    have h1 := h s e he
    have h2 : ∑ r ∈ range m, (F (fun i => x i + s * e i) r - d r) ^ 2
        = ∑ r ∈ range m, (F x r - d r) ^ 2 + (2 * s * B + s ^ 2 * S) := by
      rw [hB, hS, mul_sum, mul_sum, ← sum_add_distrib, ← sum_add_distrib]
      refine sum_congr rfl fun r _ => ?_
      rw [hF]
      ring
    linarith
  by_contra hne
  rcases hS0.eq_or_lt with h0 | h0
  · have := key (-B)
    rw [← h0] at this
    nlinarith [mul_self_pos.2 hne]
  · have := key (-B / S)
    have e1 : 2 * (-B / S) * B + (-B / S) ^ 2 * S = - (B * B) / S := by
      field_simp
      ring
    rw [e1] at this
    have h3 : 0 < B * B / S := div_pos (mul_self_pos.2 hne) h0
    rw [neg_div] at this
    linarith

end

section
variable {p n m : ℕ} {U : List K}

theorem curve_add_mul (x e : ℕ → K) (s u : K) :
    curve (knotFn U) p n (fun i => x i + s * e i) u = curve (knotFn U) p n x u + s * curve (knotFn U) p n e u := by
  unfold curve
  rw [mul_sum, ← sum_add_distrib]
  exact sum_congr rfl fun i _ => by ring

end

section
variable {ls : ℕ → List (List K) → List K → List K} {c : Curve K} {data : List (List K)} {m n : ℕ}

/-- The result of `single_fit_curve` satisfies the normal equations in every coordinate. -/
theorem single_fit_curve_normal (hls : IsLstsq ls) (hU : Clamped c.degree n c.kv)
    (hfirst : knotFn c.kv c.degree < knotFn c.kv (c.degree + 1)) (hP : Shape c.ctrlpts n 3) (hd : Shape data m 4)
    (hdom : ∀ r < m, knotFn c.kv c.degree ≤ at2 data r 3 0 ∧ at2 data r 3 0 ≤ knotFn c.kv n) :
    ∃ c', singleFitCurve ls c data = .ok c' ∧ c'.degree = c.degree ∧ c'.kv = c.kv ∧ Shape c'.ctrlpts n 3 ∧
      ∀ k < 3, coord c'.ctrlpts k 0 = coord c.ctrlpts k 0 ∧ coord c'.ctrlpts k (n - 1) = coord c.ctrlpts k (n - 1) ∧
        ∀ e : ℕ → K, e 0 = 0 → e (n - 1) = 0 →
          ∑ r ∈ range m, (curve (knotFn c.kv) c.degree n (coord c'.ctrlpts k) (at2 data r 3 0) - at2 data r k 0)
            * curve (knotFn c.kv) c.degree n e (at2 data r 3 0) = 0 := by
  obtain ⟨c', h, h1, h2, h3, h4, hopt⟩ := single_fit_curve_optimal hls hU hfirst hP hd hdom
  refine ⟨c', h, h1, h2, h3, fun k hk => ⟨(h4 k hk).1, (h4 k hk).2, fun e e0 e1 => ?_⟩⟩
  refine normal_of_least (F := fun x r => curve (knotFn c.kv) c.degree n x (at2 data r 3 0))
    (d := fun r => at2 data r k 0) (free := fun e => e 0 = 0 ∧ e (n - 1) = 0)
    (fun x e s r => curve_add_mul x e s _) (fun s e he => ?_) ⟨e0, e1⟩
  refine hopt k hk _ ?_ ?_
  · rw [he.1, (h4 k hk).1]; ring
  · rw [he.2, (h4 k hk).2]; ring

/-- Two 2-D arrays of points with the same coordinates are equal. -/
theorem rows_ext {P Q : List (List K)} {n d : ℕ} (hP : Shape P n d) (hQ : Shape Q n d)
    (h : ∀ k < d, ∀ i < n, coord P k i = coord Q k i) : P = Q := by
  refine List.ext_getElem (hP.1.trans hQ.1.symm) fun i h1 h2 => ?_
  have hi : i < n := hP.1 ▸ h1
  have r1 : (P[i]).length = d := hP.2 _ (List.getElem_mem h1)
  have r2 : (Q[i]).length = d := hQ.2 _ (List.getElem_mem h2)
  refine List.ext_getElem (r1.trans r2.symm) fun k h3 h4 => ?_
  have := h k (r1 ▸ h3) i hi
  unfold coord at this
  simpa [List.getD_eq_getElem?_getD, h1, h2, h3, h4] using this

theorem coord_map_affineRow {A : ℕ → ℕ → K} {b : ℕ → K} {P : List (List K)} (hP : Shape P n 3) {i k : ℕ} (hi : i < n)
    (hk : k < 3) : coord (P.map (affineRow A b)) k i
      = A k 0 * coord P 0 i + A k 1 * coord P 1 i + A k 2 * coord P 2 i + b k := by
  have hi' : i < P.length := by rw [hP.1]; exact hi
  unfold coord affineRow
  simp [List.getD_eq_getElem?_getD, List.getElem?_eq_getElem hi', hk]

theorem Shape.map_affineRow {A : ℕ → ℕ → K} {b : ℕ → K} {P : List (List K)} (hP : Shape P n 3) :
    Shape (P.map (affineRow A b)) n 3 := by
  refine ⟨by simp [hP.1], fun row hrow => ?_⟩
  obtain ⟨r, -, rfl⟩ := List.mem_map.1 hrow
  simp [affineRow]

theorem sum_getD_map (l : List (List K)) : ∀ {m : ℕ}, l.length = m → ∀ f : List K → K,
    ∑ r ∈ range m, f (l.getD r []) = (l.map f).sum := by
  induction l with
  | nil => rintro m rfl f; simp
  | cons a l ih =>
    rintro m rfl f
    rw [List.length_cons, sum_range_succ', List.map_cons, List.sum_cons, ← ih rfl f, add_comm]
    simp

end

section
variable {ls : ℕ → List (List K) → List K → List K} {s : Surface K} {data : List (List K)} {m : ℕ}

theorem surface_add_mul (x e : ℕ → K) (q u v : K) :
    surface (knotFn s.kvU) s.degreeU s.numU (knotFn s.kvV) s.degreeV s.numV (fun i => x i + q * e i) u v
      = surface (knotFn s.kvU) s.degreeU s.numU (knotFn s.kvV) s.degreeV s.numV x u v
        + q * surface (knotFn s.kvU) s.degreeU s.numU (knotFn s.kvV) s.degreeV s.numV e u v := by
  unfold surface
  rw [mul_sum, ← sum_add_distrib]
  refine sum_congr rfl fun i _ => ?_
  rw [mul_sum, ← sum_add_distrib]
  exact sum_congr rfl fun j _ => by ring

theorem rows_ext_grid {P Q : List (List K)} {a b d : ℕ} (hP : Shape P (a * b) d) (hQ : Shape Q (a * b) d)
    (h : ∀ k < d, ∀ i < a, ∀ j < b, coord P k (i * b + j) = coord Q k (i * b + j)) : P = Q := by
  refine rows_ext hP hQ fun k hk i hi => ?_
  have hb : 0 < b := Nat.pos_of_ne_zero fun h => by simp [h] at hi
  have := h k hk (i / b) (Nat.div_lt_of_lt_mul (by rwa [mul_comm] at hi)) (i % b) (Nat.mod_lt _ hb)
  rwa [mul_comm, Nat.div_add_mod] at this

end

section Examples

end Examples

end PySpline
