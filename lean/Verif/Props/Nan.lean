import Verif.Lemmas.ExtendedPoints
import Verif.Props.Extended

/-!
# C148: a division by zero is always visible in the result
-/

set_option linter.unusedSectionVars false

namespace PySpline

open Ext Spec

section
variable {K : Type} [Field K] [LinearOrder K] [IsStrictOrderedRing K]

/-- **C148**, basis functions.  `basis_functions` always returns `p + 1` values: the exact ones if the
span is not empty, and otherwise none of them is finite; at the repeated knot all are NaN. -/
theorem basis_functions_visible {U : List K} (hU : U.Pairwise (· ≤ ·)) {k p : ℕ} (u : K) (hp1 : 1 ≤ p)
    (hp : p ≤ k) (hk : k + p < U.length) :
    (knotFn U k < knotFn U (k + 1) → ∃ N, basisFunctions (k : ℤ) u p U = .ok N ∧
      basisFunctionsE (k : ℤ) (fin u) p (U.map fin) = .ok (N.map fin)) ∧
    (knotFn U k = knotFn U (k + 1) → ∃ N, basisFunctionsE (k : ℤ) (fin u) p (U.map fin) = .ok N ∧
      N.length = p + 1 ∧ (∀ x ∈ N, ∀ y, x ≠ fin y) ∧ (u = knotFn U k → ∀ x ∈ N, x = nan)) := by
  refine ⟨fun h => ?_, fun h => ?_⟩
  · obtain ⟨N, hN⟩ := (basis_functions_finite_iff hU u hp1 hp hk).1.2 h
    exact ⟨N, hN, (basisFunctionsE_follows _ _ _ _).value hN⟩
  · obtain ⟨N, h1, h2, h3, h4⟩ := basisFunctionsE_empty (u := u) hp1 hp hk h
    refine ⟨N, h1, h2, fun x hx y e => ?_, h4⟩
    have := h3 x hx
    rw [e] at this
    exact Bool.noConfusion (this : true = false)

theorem not_fin {x : Ext K} (h : x.isFin = false) (y : K) : x ≠ fin y := by
  rintro rfl
  exact Bool.noConfusion (h : true = false)

/-- **C148**, curves.  On the domain `single_point` does not raise.  If the span it looks at is not
empty it returns the exact point; if the span is empty no coordinate is finite, and all are NaN at the
repeated knot. -/
theorem curve_point_visible {p n d : ℕ} {U : List K} {P : List (List K)} (hU : KnotVector p n U)
    (hp : 1 ≤ p) (hP : Shape P n d) (hd : 3 ≤ d) {u : K} (h0 : 0 ≤ u) (h1 : u ≤ 1) (hlo : knotFn U p ≤ u)
    (hhi : u ≤ knotFn U n) :
    ∃ (m : ℕ) (x y z : Ext K), findSpan n p u U = .ok (m : ℤ) ∧
      (Curve.lift ⟨p, P, U⟩).singlePointE (fin u) = .ok [x, y, z] ∧
      (knotFn U m < knotFn U (m + 1) → ∃ a b c, Curve.singlePoint ⟨p, P, U⟩ u = .ok [a, b, c] ∧
        x = fin a ∧ y = fin b ∧ z = fin c) ∧
      (knotFn U m = knotFn U (m + 1) → ∀ t, x ≠ fin t ∧ y ≠ fin t ∧ z ≠ fin t) ∧
      (knotFn U m = knotFn U (m + 1) → u = knotFn U m → x = nan ∧ y = nan ∧ z = nan) := by
  obtain ⟨m, hm, hpm, hmn, -⟩ := find_span_on_domain hU hlo hhi
  have hlen := hU.len
  have hmE : findSpanE n p (fin u) (U.map fin) = .ok (m : ℤ) := by
    rw [(find_span_extended n p u U).1, hm]
  have hle : knotFn U m ≤ knotFn U (m + 1) := monotone_knotFn hU.mono (by omega)
  rcases hle.lt_or_eq with h | h
  · have hpt := singlePoint_of_span hU hP hd h0 h1 hm hpm hmn h
    have hptE := (singlePointE_follows ⟨p, P, U⟩ u).value hpt
    refine ⟨m, _, _, _, hm, hptE, fun _ => ⟨_, _, _, hpt, rfl, rfl, rfl⟩, fun e => absurd e h.ne,
      fun e => absurd e h.ne⟩
  · obtain ⟨N, hN, hl, hq, hnan⟩ := basisFunctionsE_empty (u := u) hp hpm (by omega) h
    obtain ⟨x, y, z, hE, qx, qy, qz⟩ := singlePointE_absorb absorbing_nonfin hP hd ⟨h0, h1⟩ hmE hpm hmn hN hl hq
    refine ⟨m, x, y, z, hm, hE, fun e => absurd h e.ne, fun _ t => ⟨not_fin qx t, not_fin qy t, not_fin qz t⟩,
      fun _ hu => ?_⟩
    obtain ⟨x', y', z', hE', qx', qy', qz'⟩ :=
      singlePointE_absorb absorbing_nan hP hd ⟨h0, h1⟩ hmE hpm hmn hN hl (hnan hu)
    rw [hE] at hE'
    have := Except.ok.inj hE'
    simp only [List.cons.injEq, and_true] at this
    rw [this.1, this.2.1, this.2.2]
    exact ⟨qx', qy', qz'⟩

/-- **C148**, surfaces.  On the domain `single_point` does not raise.  If the spans of both directions
are not empty it returns the exact point; if one of them is empty no coordinate is finite, and all are
NaN if the parameter of that direction is the repeated knot. -/
theorem surface_point_visible {s : Surface K} (hs : SurfaceOk s) (hp : 1 ≤ s.degreeU) (hq : 1 ≤ s.degreeV)
    {u v : K} (hu : 0 ≤ u ∧ u ≤ 1) (hv : 0 ≤ v ∧ v ≤ 1)
    (hud : knotFn s.kvU s.degreeU ≤ u ∧ u ≤ knotFn s.kvU s.numU)
    (hvd : knotFn s.kvV s.degreeV ≤ v ∧ v ≤ knotFn s.kvV s.numV) :
    ∃ (m k : ℕ) (x y z : Ext K), findSpan s.numU s.degreeU u s.kvU = .ok (m : ℤ) ∧
      findSpan s.numV s.degreeV v s.kvV = .ok (k : ℤ) ∧
      s.lift.singlePointE (fin u) (fin v) = .ok [x, y, z] ∧
      (knotFn s.kvU m < knotFn s.kvU (m + 1) → knotFn s.kvV k < knotFn s.kvV (k + 1) →
        ∃ a b c, s.singlePoint u v = .ok [a, b, c] ∧ x = fin a ∧ y = fin b ∧ z = fin c) ∧
      (knotFn s.kvU m = knotFn s.kvU (m + 1) ∨ knotFn s.kvV k = knotFn s.kvV (k + 1) →
        ∀ t, x ≠ fin t ∧ y ≠ fin t ∧ z ≠ fin t) ∧
      ((knotFn s.kvU m = knotFn s.kvU (m + 1) ∧ u = knotFn s.kvU m) ∨
        (knotFn s.kvV k = knotFn s.kvV (k + 1) ∧ v = knotFn s.kvV k) → x = nan ∧ y = nan ∧ z = nan) := by
  obtain ⟨m, hm, hpm, hmn, -⟩ := find_span_on_domain hs.ku hud.1 hud.2
  obtain ⟨k, hk, hqk, hkn, -⟩ := find_span_on_domain hs.kv hvd.1 hvd.2
  have hlu := hs.ku.len
  have hlv := hs.kv.len
  have hmE : findSpanE s.numU s.degreeU (fin u) (s.kvU.map fin) = .ok (m : ℤ) := by
    rw [(find_span_extended _ _ _ _).1, hm]
  have hkE : findSpanE s.numV s.degreeV (fin v) (s.kvV.map fin) = .ok (k : ℤ) := by
    rw [(find_span_extended _ _ _ _).1, hk]
  have hle : knotFn s.kvU m ≤ knotFn s.kvU (m + 1) := monotone_knotFn hs.ku.mono (by omega)
  have hle' : knotFn s.kvV k ≤ knotFn s.kvV (k + 1) := monotone_knotFn hs.kv.mono (by omega)
  by_cases h : knotFn s.kvU m = knotFn s.kvU (m + 1) ∨ knotFn s.kvV k = knotFn s.kvV (k + 1)
  · obtain ⟨M, hM, hMl⟩ := basisFunctionsE_total (s.kvU.map fin) m s.degreeU (fin u) hpm (by simp; omega)
    obtain ⟨N, hN, hNl⟩ := basisFunctionsE_total (s.kvV.map fin) k s.degreeV (fin v) hqk (by simp; omega)
    have eM : knotFn s.kvU m = knotFn s.kvU (m + 1) → (∀ x ∈ M, x.isFin = false) ∧
        (u = knotFn s.kvU m → ∀ x ∈ M, x = nan) := fun h => by
      obtain ⟨M', h1, -, h3, h4⟩ := basisFunctionsE_empty (u := u) hp hpm (by omega) h
      rw [hM] at h1
      rw [Except.ok.inj h1]
      exact ⟨h3, h4⟩
    have eN : knotFn s.kvV k = knotFn s.kvV (k + 1) → (∀ x ∈ N, x.isFin = false) ∧
        (v = knotFn s.kvV k → ∀ x ∈ N, x = nan) := fun h => by
      obtain ⟨N', h1, -, h3, h4⟩ := basisFunctionsE_empty (u := v) hq hqk (by omega) h
      rw [hN] at h1
      rw [Except.ok.inj h1]
      exact ⟨h3, h4⟩
    obtain ⟨x, y, z, hE, qx, qy, qz⟩ := surfacePointE_absorb absorbing_nonfin hs hu hv hmE hpm hmn hkE hqk hkn
      hM hMl hN hNl (h.imp (fun h => (eM h).1) fun h => (eN h).1)
    refine ⟨m, k, x, y, z, hm, hk, hE, fun e1 e2 => ?_, fun _ t => ⟨not_fin qx t, not_fin qy t, not_fin qz t⟩,
      fun hr => ?_⟩
    · rcases h with h | h
      · exact absurd h e1.ne
      · exact absurd h e2.ne
    · obtain ⟨x', y', z', hE', qx', qy', qz'⟩ := surfacePointE_absorb absorbing_nan hs hu hv hmE hpm hmn hkE hqk hkn
        hM hMl hN hNl (hr.imp (fun h => (eM h.1).2 h.2) fun h => (eN h.1).2 h.2)
      rw [hE] at hE'
      have := Except.ok.inj hE'
      simp only [List.cons.injEq, and_true] at this
      rw [this.1, this.2.1, this.2.2]
      exact ⟨qx', qy', qz'⟩
  · push Not at h
    have hpt := surfacePoint_of_span hs hu hv hm hpm hmn (lt_of_le_of_ne hle h.1) hk hqk hkn
      (lt_of_le_of_ne hle' h.2)
    have hptE := (surface_singlePointE_follows s u v).value hpt
    refine ⟨m, k, _, _, _, hm, hk, hptE, fun _ _ => ⟨_, _, _, hpt, rfl, rfl, rfl⟩,
      fun e => ?_, fun e => ?_⟩
    · rcases e with e | e
      · exact absurd e h.1
      · exact absurd e h.2
    · rcases e with e | e
      · exact absurd e.1 h.1
      · exact absurd e.1 h.2

end

/-! ## Concrete cases -/

/-- A curve with a double interior knot, evaluated there. -/
def exNanCurve : Curve ℚ :=
  ⟨2, [[0, 0, 0], [1, 0, 0], [2, 1, 0], [3, 1, 0], [4, 0, 0], [5, 0, 1]], exDouble⟩

example : exNanCurve.lift.singlePointE (fin (1/2)) = .ok [nan, nan, nan] ∧
    exNanCurve.lift.singlePointE (fin (3/8)) = .ok [fin (17/8), fin (7/8), fin 0] := by decide +kernel

end PySpline
