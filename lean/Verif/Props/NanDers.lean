import Verif.Lemmas.ExtendedDers
import Verif.Props.Nan

/-!
# C148: a division by zero is visible in every derivative
-/

set_option linter.unusedSectionVars false

namespace PySpline

open Ext Spec

section
variable {K : Type} [Field K] [LinearOrder K] [IsStrictOrderedRing K]

/-- **C148**, derivatives of basis functions up to the degree.  `basis_function_ders` always returns a
table of `p + 1` rows and `order + 1` columns: the exact one if the span is not empty, and otherwise no
entry is finite. -/
theorem basis_function_ders_visible {U : List K} (hU : U.Pairwise (· ≤ ·)) {k p order : ℕ} (u : K) (hp1 : 1 ≤ p)
    (hp : p ≤ k) (hk : k + p < U.length) (ho : order ≤ p) :
    (knotFn U k < knotFn U (k + 1) → ∃ D, basisFunctionDers (k : ℤ) u p U order = .ok D ∧
      basisFunctionDersE (k : ℤ) (fin u) p (U.map fin) order = .ok (D.map (List.map fin))) ∧
    (knotFn U k = knotFn U (k + 1) → ∃ D, basisFunctionDersE (k : ℤ) (fin u) p (U.map fin) order = .ok D ∧
      D.length = p + 1 ∧ ∀ row ∈ D, row.length = order + 1 ∧ ∀ x ∈ row, ∀ y, x ≠ fin y) := by
  refine ⟨fun h => ?_, fun h => ?_⟩
  · have e := basis_function_ders_derivatives hU u hp (by omega) h (order := order)
    exact ⟨_, e, (basisFunctionDersE_follows _ _ _ _ _).value e⟩
  · obtain ⟨D, h1, h2, h3⟩ := basisFunctionDersE_empty (u := u) hp1 hp hk ho h
    refine ⟨D, h1, h2.1, fun row hrow => ⟨h2.2 row hrow, fun x hx y => ?_⟩⟩
    obtain ⟨r, hr, rfl⟩ := List.getElem_of_mem hrow
    obtain ⟨m, hm, rfl⟩ := List.getElem_of_mem hx
    have hrl : r < p + 1 := by rw [← h2.1]; exact hr
    have hml : m < order + 1 := by rw [← h2.2 _ hrow]; exact hm
    have := h3 r (by omega) m (by omega)
    unfold at2 at this
    rw [List.getD_eq_getElem?_getD, List.getD_eq_getElem?_getD, List.getElem?_eq_getElem hr, Option.getD_some,
      List.getElem?_eq_getElem hm, Option.getD_some] at this
    exact not_fin this y

/-- **C148**, derivatives of surfaces.  On the domain `derivatives` does not raise, whatever the orders
and `normalize` are.  If the spans of both directions are not empty it returns the exact array; if one
of them is empty, no entry of the array is finite. -/
theorem surface_derivatives_visible (norm : List K → K) {s : Surface K} (hs : SurfaceOk s) (hp : 1 ≤ s.degreeU)
    (hq : 1 ≤ s.degreeV) {u v : K} (hu : 0 ≤ u ∧ u ≤ 1) (hv : 0 ≤ v ∧ v ≤ 1)
    (hud : knotFn s.kvU s.degreeU ≤ u ∧ u ≤ knotFn s.kvU s.numU)
    (hvd : knotFn s.kvV s.degreeV ≤ v ∧ v ≤ knotFn s.kvV s.numV) (orderU orderV : ℕ) (normalize : Bool) :
    ∃ (m k : ℕ) (D : List (List (Ext K))), findSpan s.numU s.degreeU u s.kvU = .ok (m : ℤ) ∧
      findSpan s.numV s.degreeV v s.kvV = .ok (k : ℤ) ∧
      s.lift.derivativesE norm (fin u) (fin v) orderU orderV normalize = .ok D ∧
      D.length = (min orderU s.degreeU + 1) * (min orderV s.degreeV + 1) ∧ (∀ row ∈ D, row.length = 3) ∧
      (knotFn s.kvU m < knotFn s.kvU (m + 1) → knotFn s.kvV k < knotFn s.kvV (k + 1) →
        ∃ E, s.derivatives norm u v orderU orderV normalize = .ok E ∧ D = E.map (List.map fin)) ∧
      (knotFn s.kvU m = knotFn s.kvU (m + 1) ∨ knotFn s.kvV k = knotFn s.kvV (k + 1) →
        ∀ row ∈ D, ∀ x ∈ row, ∀ y, x ≠ fin y) := by
  obtain ⟨m, hm, hpm, hmn, -⟩ := find_span_on_domain hs.ku hud.1 hud.2
  obtain ⟨k, hk, hqk, hkn, -⟩ := find_span_on_domain hs.kv hvd.1 hvd.2
  have hlu := hs.ku.len
  have hlv := hs.kv.len
  have hmE : findSpanE s.numU s.degreeU (fin u) (s.kvU.map fin) = .ok (m : ℤ) := by
    rw [(find_span_extended _ _ _ _).1, hm]
  have hkE : findSpanE s.numV s.degreeV (fin v) (s.kvV.map fin) = .ok (k : ℤ) := by
    rw [(find_span_extended _ _ _ _).1, hk]
  have hle : knotFn s.kvU m ≤ knotFn s.kvU (m + 1) := monotone_knotFn hs.ku.mono (by omega)
  have hle' : knotFn s.kvV k ≤ knotFn s.kvV (k + 1) := monotone_knotFn hs.kv.mono (by omega)
  obtain ⟨M, hM, hMs⟩ := basisFunctionDersE_total (s.kvU.map fin) m s.degreeU (min orderU s.degreeU) (fin u) hp hpm
    (by simp; omega) (by omega)
  obtain ⟨N, hN, hNs⟩ := basisFunctionDersE_total (s.kvV.map fin) k s.degreeV (min orderV s.degreeV) (fin v) hq hqk
    (by simp; omega) (by omega)
  by_cases h : knotFn s.kvU m = knotFn s.kvU (m + 1) ∨ knotFn s.kvV k = knotFn s.kvV (k + 1)
  · obtain ⟨D, hD, hDs, hDq⟩ := surfaceDerivativesE_absorb absorbing_nonfin norm hs hu hv hmE hpm hmn hkE hqk hkn
      orderU orderV normalize hM hMs hN hNs (h.imp (fun h => by
        obtain ⟨M', h1, -, h3⟩ := basisFunctionDersE_empty (u := u) (order := min orderU s.degreeU) hp hpm
          (by omega) (by omega) h
        rw [hM] at h1
        rw [Except.ok.inj h1]
        exact h3) fun h => by
        obtain ⟨N', h1, -, h3⟩ := basisFunctionDersE_empty (u := v) (order := min orderV s.degreeV) hq hqk
          (by omega) (by omega) h
        rw [hN] at h1
        rw [Except.ok.inj h1]
        exact h3)
    refine ⟨m, k, D, hm, hk, hD, hDs.1, hDs.2, fun e1 e2 => ?_, fun _ row hrow x hx => not_fin (hDq row hrow x hx)⟩
    rcases h with h | h
    · exact absurd h e1.ne
    · exact absurd h e2.ne
  · obtain ⟨D, hD, hDs, -⟩ := surfaceDerivativesE_absorb (Q := fun _ => True)
      ⟨fun _ _ _ => trivial, fun _ _ _ => trivial, fun _ _ _ => trivial, fun _ _ _ => trivial,
        fun _ _ _ => trivial⟩ norm hs hu hv hmE hpm hmn hkE hqk hkn
      orderU orderV normalize hM hMs hN hNs (Or.inl fun _ _ _ _ => trivial)
    have h' := not_or.1 h
    have hE := surfaceDerivatives_of_span norm hs hu hv hm hpm hmn (lt_of_le_of_ne hle h'.1) hk hqk hkn
      (lt_of_le_of_ne hle' h'.2) orderU orderV normalize
    refine ⟨m, k, D, hm, hk, hD, hDs.1, hDs.2, fun _ _ => ⟨_, hE, ?_⟩, fun e => absurd e h⟩
    have := (surface_derivativesE_follows norm s u v orderU orderV normalize).value hE
    rw [hD] at this
    exact Except.ok.inj this

end

/-- Non-vacuity: values and derivatives on the empty span between the two knots `1/2`, and on the span
before it. -/
example :
    basisFunctionDersE 3 (fin (1/2 : ℚ)) 2 ([0, 0, 0, 1/2, 1/2, 1, 1, 1].map fin) 2
      = .ok [[nan, nan, inf false], [nan, nan, inf true], [nan, nan, inf false]] ∧
    basisFunctionDersE 2 (fin (1/4 : ℚ)) 2 ([0, 0, 0, 1/2, 1/2, 1, 1, 1].map fin) 2
      = .ok [[fin (1/4), fin (-2), fin 8], [fin (1/2), fin 0, fin (-16)], [fin (1/4), fin 2, fin 8]] := by
  decide +kernel

/-- A surface whose `u` direction has the double knot `1/2`. -/
def exNanSurface : Surface ℚ :=
  ⟨2, 1, 6, 2, (List.range 12).map fun i => [(i : ℚ), 0, 1], exDouble, [0, 0, 1, 1]⟩

example : exNanSurface.lift.derivativesE (fun _ => 1) (fin (1/2)) (fin (1/2)) 0 1 true
      = .ok [[nan, nan, nan], [nan, nan, nan]] ∧
    exNanSurface.lift.derivativesE (fun _ => 1) (fin (3/8)) (fin (1/2)) 0 1 false
      = .ok [[fin (19/4), fin 0, fin 1], [fin 1, fin 0, fin 0]] := by
  decide +kernel

end PySpline
