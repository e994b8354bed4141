import Verif.Lemmas.IeeeSolveMatrix
import Verif.Props.RoundedSolve

/-!
# C189: complete fits in IEEE arithmetic with overflow and underflow
-/

set_option linter.unusedSectionVars false
set_option exponentiation.threshold 1100

namespace PySpline

open Spec Ext Finset

section
variable {K : Type} [Field K] [LinearOrder K]

/-! ## Agreement with the model without overflow -/

theorem setColumnE_follows (m : List (List K)) (c : ℤ) (v : List K) :
    Follows lift2 (setColumn m c v) (setColumnE (lift2 m) c (lift1 v)) := by
  unfold setColumn setColumnE
  refine Follows.ite (by rw [List.length_map, List.length_map]) ?_ (Follows.error _)
  have e : (lift2 m).zip (lift1 v) = (m.zip v).map (Prod.map lift1 fin) := by rw [List.zip_map]
  rw [e]
  exact Follows.mapPy (f := Prod.map lift1 fin) (F := fun rx : List K × K => pySet rx.1 c rx.2)
    (G := fun rx : List (Ext K) × Ext K => pySet rx.1 c rx.2) (fun rx => Follows.set _ _ rfl) _

theorem linearFitFixedR_follows (fl : K → K) {ls : ℕ → List (List K) → List K → List K}
    {lsR : ℕ → List (List (Ext K)) → List (Ext K) → Py (List (Ext K))}
    (hls : ∀ n A b, lsR n (lift2 A) (lift1 b) = .ok (lift1 (ls n A b))) (R : List (List K)) (Q P : List K)
    (fixed : List Bool) : Follows lift1 (linearFitFixedFl fl ls R Q P fixed)
      (linearFitFixedR (fun x => fin (fl x)) lsR (lift2 R) (lift1 Q) (lift1 P) fixed) := by
  unfold linearFitFixedFl linearFitFixedR
  dsimp only
  rw [List.length_map, List.length_map]
  refine Follows.bind (f := id) (Follows.forN rfl fun i s => Follows.of_eq ?_) fun nf => ?_
  · dsimp only [id]
    rcases pyGet fixed i with e | f <;> rfl
  dsimp only [id]
  refine Follows.ite Iff.rfl (Follows.ok rfl) ?_
  rw [zeros2E_lift, zeros2E_lift, replicate_zero]
  refine Follows.bind (f := Prod.map lift2 (Prod.map lift2 (Prod.map lift1 id))) (Follows.forN rfl ?_) ?_
  · rintro i ⟨A, F, q, j, k⟩
    dsimp only [Prod.map, id]
    refine Follows.bind (f := id) (Follows.of_eq (by rcases pyGet fixed i with e | f <;> rfl)) fun f => ?_
    refine Follows.bind (columnE_follows _ _) fun col => ?_
    dsimp only [id]
    refine Follows.ite Iff.rfl ?_ ?_
    · refine Follows.bind (setColumnE_follows _ _ _) fun F => ?_
      refine Follows.bind (Follows.get _ _) fun p => ?_
      have e : (lift1 col).map (fun x => rnd (fun x => fin (fl x)) (x * fin p)) = lift1 (col.map fun x => fl (x * p)) := by
        show _ = List.map fin (List.map _ col)
        rw [List.map_map, List.map_map]; rfl
      rw [e]
      refine Follows.bind (vaddE_follows _ _) fun s => Follows.ok ?_
      have e : (lift1 s).map (rnd fun x => fin (fl x)) = lift1 (s.map fl) := by
        show _ = List.map fin (List.map _ s)
        rw [List.map_map, List.map_map]; rfl
      rw [e]
      rfl
    · exact Follows.bind (setColumnE_follows _ _ _) fun F => Follows.ok rfl
  rintro ⟨A, F, q, j, k⟩
  dsimp only [Prod.map, id]
  refine Follows.bind (vsubE_follows _ _) fun b => ?_
  have e : (lift1 b).map (rnd fun x => fin (fl x)) = lift1 (b.map fl) := by
    show _ = List.map fin (List.map _ b)
    rw [List.map_map, List.map_map]; rfl
  rw [e, hls, ok_bind]
  refine Follows.bind (f := Prod.map lift1 id) (Follows.forN ?_ ?_) fun s => Follows.ok rfl
  · rw [replicate_zero]; rfl
  rintro i ⟨x, j⟩
  dsimp only [Prod.map, id]
  refine Follows.bind (f := id) (Follows.of_eq (by rcases pyGet fixed i with e | f <;> rfl)) fun f => ?_
  dsimp only [id]
  refine Follows.ite Iff.rfl ?_ ?_
  · exact Follows.bind (Follows.get _ _) fun p => Follows.bind (Follows.set _ _ rfl) fun x => Follows.ok rfl
  · exact Follows.bind (Follows.get _ _) fun p => Follows.bind (Follows.set _ _ rfl) fun x => Follows.ok rfl

/-- **C189.** Without overflow `linear_fit_fixed` is the function in rounded arithmetic: if the rounding never overflows and
the solver finds the same numbers, so does `linear_fit_fixed`, and it raises the same exceptions. -/
theorem linear_fit_fixed_ieee_agrees (fl : K → K) {ls : ℕ → List (List K) → List K → List K}
    {lsR : ℕ → List (List (Ext K)) → List (Ext K) → Py (List (Ext K))}
    (hls : ∀ n A b, lsR n (lift2 A) (lift1 b) = .ok (lift1 (ls n A b))) (R : List (List K)) (Q P : List K)
    (fixed : List Bool) : linearFitFixedFl fl ls R Q P fixed = .error .nonfinite ∨
      linearFitFixedR (fun x => fin (fl x)) lsR (lift2 R) (lift1 Q) (lift1 P) fixed
        = (linearFitFixedFl fl ls R Q P fixed).map lift1 :=
  Follows.iff (linearFitFixedR_follows fl hls R Q P fixed)

/-! ## What no overflow can change -/

/-- **C189.** Whatever the rounding, the solver and the numbers (infinities and NaN included): if `linear_fit_fixed`
returns, it returns as many entries as it was given, and the fixed ones as they were. -/
theorem linear_fit_fixed_ieee_keeps {rd : K → Ext K} {ls : ℕ → List (List (Ext K)) → List (Ext K) → Py (List (Ext K))}
    {R : List (List (Ext K))} {Q P x : List (Ext K)} {fixed : List Bool}
    (h : linearFitFixedR rd ls R Q P fixed = .ok x) :
    x.length = P.length ∧ ∀ i < P.length, fixed.getD i false = true → x.getD i 0 = P.getD i 0 := by
  unfold linearFitFixedR at h
  obtain ⟨nf, -, h⟩ := bind_eq_ok h
  split at h
  · cases h; exact ⟨rfl, fun _ _ _ => rfl⟩
  obtain ⟨⟨_, _, Qf, _, _⟩, -, h⟩ := bind_eq_ok h
  obtain ⟨b, -, h⟩ := bind_eq_ok h
  obtain ⟨free, -, h⟩ := bind_eq_ok h
  dsimp only at h
  obtain ⟨⟨full, _⟩, hl, h⟩ := bind_eq_ok h
  cases h
  refine forN_ok (fun i (st : List (Ext K) × ℕ) => st.1.length = P.length ∧
    ∀ j < i, fixed.getD j false = true → st.1.getD j 0 = P.getD j 0) hl (Nat.zero_le _)
    ⟨by simp, fun j hj => absurd hj (by omega)⟩ ?_
  rintro i ⟨s, j⟩ ⟨s', j'⟩ - hi ⟨h1, h2⟩ hs
  dsimp only at h1 h2 hs ⊢
  obtain ⟨f, hf, hs⟩ := bind_eq_ok hs
  have hf' := (pyGet_ok_nat false hf).2
  split at hs
  · obtain ⟨p, hp, hs⟩ := bind_eq_ok hs
    obtain ⟨w, hw, hs⟩ := bind_eq_ok hs
    cases hs
    obtain ⟨hlt, rfl⟩ := pySet_ok_nat hw
    refine ⟨by simp [h1], fun k hk hfk => ?_⟩
    rw [getD_set _ _ _ _ _ hlt]
    by_cases e : k = i
    · subst e; rw [if_pos rfl]; exact (pyGet_ok_nat 0 hp).2.symm
    · rw [if_neg e]; exact h2 k (by omega) hfk
  · rename_i hff
    obtain ⟨p, hp, hs⟩ := bind_eq_ok hs
    obtain ⟨w, hw, hs⟩ := bind_eq_ok hs
    cases hs
    obtain ⟨hlt, rfl⟩ := pySet_ok_nat hw
    refine ⟨by simp [h1], fun k hk hfk => ?_⟩
    rw [getD_set _ _ _ _ _ hlt]
    by_cases e : k = i
    · subst e; rw [hf'] at hfk; exact absurd hfk hff
    · rw [if_neg e]; exact h2 k (by omega) hfk

/-- The three columns. -/
theorem fit_columns_ieee_keeps {rd : K → Ext K} {ls : ℕ → List (List (Ext K)) → List (Ext K) → Py (List (Ext K))}
    {M data P new : List (List (Ext K))} {fixed : List Bool} (h : fitColumnsR rd ls M data P fixed = .ok new) :
    Shape new P.length 3 ∧ ∀ i < P.length, fixed.getD i false = true → ∀ k < 3, at2 new i k 0 = at2 P i k 0 := by
  have hcol : ∀ {c : ℕ} {v : List (Ext K)}, columnE P (c : ℤ) = .ok v →
      v.length = P.length ∧ ∀ i < P.length, v.getD i 0 = at2 P i c 0 := fun h =>
    ⟨mapPy_length h, fun i hi => (pyGet_ok_nat 0 (mapPy_getD h [] 0 i hi)).2.symm⟩
  unfold fitColumnsR at h
  obtain ⟨qx, -, h⟩ := bind_eq_ok h
  obtain ⟨px, hpx, h⟩ := bind_eq_ok h
  obtain ⟨x, hx, h⟩ := bind_eq_ok h
  obtain ⟨qy, -, h⟩ := bind_eq_ok h
  obtain ⟨py, hpy, h⟩ := bind_eq_ok h
  obtain ⟨y, hy, h⟩ := bind_eq_ok h
  obtain ⟨qz, -, h⟩ := bind_eq_ok h
  obtain ⟨pz, hpz, h⟩ := bind_eq_ok h
  obtain ⟨z, hz, h⟩ := bind_eq_ok h
  obtain ⟨lx, fx⟩ := linear_fit_fixed_ieee_keeps hx
  obtain ⟨ly, fy⟩ := linear_fit_fixed_ieee_keeps hy
  obtain ⟨lz, fz⟩ := linear_fit_fixed_ieee_keeps hz
  obtain ⟨cx, gx⟩ := hcol (c := 0) hpx
  obtain ⟨cy, gy⟩ := hcol (c := 1) hpy
  obtain ⟨cz, gz⟩ := hcol (c := 2) hpz
  rw [cx] at lx fx
  rw [cy] at ly fy
  rw [cz] at lz fz
  unfold columnStack3E at h
  split at h
  · cases h
    refine ⟨⟨by simp [lx], fun row hrow => ?_⟩, fun i hi hf k hk => ?_⟩
    · obtain ⟨i, -, rfl⟩ := List.mem_map.1 hrow; rfl
    · have e : ((List.range x.length).map fun i => [x.getD i 0, y.getD i 0, z.getD i 0]).getD i []
          = [x.getD i 0, y.getD i 0, z.getD i 0] := by
        simp [List.getD_eq_getElem?_getD, show i < x.length by omega]
      unfold at2
      rw [e]
      match k, hk with
      | 0, _ => exact (fx i hi hf).trans (gx i hi)
      | 1, _ => exact (fy i hi hf).trans (gy i hi)
      | 2, _ => exact (fz i hi hf).trans (gz i hi)
  · cases h

/-- **C189.** Whatever overflows and whatever the solver returns: a curve that `single_fit_curve` returns has the degree, the
knots, the number of control points and the two ends of the given one. -/
theorem single_fit_curve_ieee_keeps {rd : K → Ext K} {ls : ℕ → List (List (Ext K)) → List (Ext K) → Py (List (Ext K))}
    {c c' : Curve (Ext K)} {data : List (List (Ext K))} (h : SingleFitCurveR rd ls c data (.ok c')) :
    c'.degree = c.degree ∧ c'.kv = c.kv ∧ Shape c'.ctrlpts c.ctrlpts.length 3 ∧
      ∀ k < 3, at2 c'.ctrlpts 0 k 0 = at2 c.ctrlpts 0 k 0 ∧
        at2 c'.ctrlpts (c.ctrlpts.length - 1) k 0 = at2 c.ctrlpts (c.ctrlpts.length - 1) k 0 := by
  rcases h with ⟨e, -, h⟩ | ⟨M, check, -, -, h⟩
  · cases h
  obtain ⟨_, -, h⟩ := bind_eq_ok h.symm
  obtain ⟨f, hf, h⟩ := bind_eq_ok h
  obtain ⟨new, hnew, h⟩ := bind_eq_ok h
  cases h
  have hn := curveMask_ok hf
  obtain ⟨f', hf', hl, hv⟩ := curveMask_eq hn
  rw [hf] at hf'
  cases hf'
  obtain ⟨hs, hk⟩ := fit_columns_ieee_keeps hnew
  exact ⟨rfl, rfl, hs, fun k hk3 => ⟨hk 0 hn (by rw [hv 0 hn]; simp) k hk3,
    hk _ (by omega) (by rw [hv _ (by omega), decide_eq_true_iff]; omega) k hk3⟩⟩

/-- **C189** for `single_fit_surface`: degrees, knots, numbers and the boundary are kept. -/
theorem single_fit_surface_ieee_keeps {rd : K → Ext K} {ls : ℕ → List (List (Ext K)) → List (Ext K) → Py (List (Ext K))}
    {s s' : Surface (Ext K)} {data : List (List (Ext K))} (hlen : s.ctrlpts.length = s.numU * s.numV) (hu : 0 < s.numU)
    (hv : 0 < s.numV) (h : SingleFitSurfaceR rd ls s data (.ok s')) :
    (∃ P, s' = { s with ctrlpts := P }) ∧ Shape s'.ctrlpts (s.numU * s.numV) 3 ∧
      ∀ i < s.numU, ∀ j < s.numV, i = 0 ∨ i + 1 = s.numU ∨ j = 0 ∨ j + 1 = s.numV → ∀ k < 3,
        at2 s'.ctrlpts (i * s.numV + j) k 0 = at2 s.ctrlpts (i * s.numV + j) k 0 := by
  rcases h with ⟨e, -, h⟩ | ⟨M, check, -, -, h⟩
  · cases h
  obtain ⟨_, -, h⟩ := bind_eq_ok h.symm
  obtain ⟨f, hf, h⟩ := bind_eq_ok h
  obtain ⟨new, hnew, h⟩ := bind_eq_ok h
  cases h
  obtain ⟨f', hf', hl, hv⟩ := surface_mask_boundary hu hv
  rw [hlen, hf'] at hf
  cases hf
  obtain ⟨hs, hk⟩ := fit_columns_ieee_keeps hnew
  rw [hlen] at hs hk
  refine ⟨⟨new, rfl⟩, hs, fun i hi j hj hb k hk3 => hk _ ?_ (by rw [hv i hi j hj]; exact decide_eq_true hb) k hk3⟩
  have h1 : i * s.numV + j < (i + 1) * s.numV := by rw [add_mul, one_mul]; omega
  exact lt_of_lt_of_le h1 (Nat.mul_le_mul_right _ hi)

variable [IsStrictOrderedRing K]

/-! ## `linear_fit_fixed` -/

/-- **C189.** `linear_fit_fixed` in IEEE arithmetic.  The matrix holds stored numbers that are not negative and differ by at
most `E` from a matrix `N` without negative entries whose rows add up to at most one; `κ` bounds the free unknowns by what
`N` makes of them; data and fixed entries are stored numbers of size at most `B`.  If `8B` and `16κmB` are below the
overflow threshold, `η ≤ E B` (underflow is not worse than the errors of the matrix), and the roundings and the solver
are accurate up to a small `ε`, then the call returns numbers (no infinity, no NaN), keeps the fixed ones, and the others are
those of the exact solution `x` up to `L ε B`. -/
theorem linear_fit_fixed_ieee {ρ η M E B ε κ : K} {m n : ℕ} {rd : K → Ext K} (hr : IeeeRounding ρ η M rd)
    {ls : ℕ → List (List (Ext K)) → List (Ext K) → Py (List (Ext K))} (hls : IeeeSolver rd M ε ls)
    {R N : List (List K)} {Q P : List K} {fixed : List Bool} (hR : Shape R m n) (hQl : Q.length = m) (hPl : P.length = n)
    (hn : 0 < n) (hf : fixed.length = n)
    (hM : ∀ r < m, ∀ i < n, rd (at2 R r i 0) = fin (at2 R r i 0) ∧ 0 ≤ at2 R r i 0 ∧ 0 ≤ at2 N r i 0 ∧
      |at2 R r i 0 - at2 N r i 0| ≤ E) (hN1 : ∀ r < m, ∑ i ∈ range n, at2 N r i 0 ≤ 1) (hκ0 : 0 ≤ κ)
    (hκ : ∀ e : ℕ → K, (∀ i < n, fixed.getD i false = true → e i = 0) → ∀ i < n,
      e i ^ 2 ≤ κ * ∑ r ∈ range m, (∑ i ∈ range n, at2 N r i 0 * e i) ^ 2)
    (hQ : ∀ r < m, rd (Q.getD r 0) = fin (Q.getD r 0) ∧ |Q.getD r 0| ≤ B)
    (hP : ∀ i < n, fixed.getD i false = true → rd (P.getD i 0) = fin (P.getD i 0) ∧ |P.getD i 0| ≤ B)
    (hE : 0 ≤ E) (hB : 0 ≤ B) (hη : η ≤ E * B) (hε : (1 / ρ) ^ (n + 2) * (1 + n * E) ≤ 1 + ε) (hε1 : ε ≤ 1)
    (h1 : n * ((2 * m + 1) * ε) ≤ 1) (h2 : 6 * κ * m * (n * ((2 * m + 1) * ε)) ≤ 1)
    (hM4 : 4 ≤ M) (hMB : 8 * B ≤ M) (hMκ : 16 * (κ * m) * B ≤ M)
    {x : ℕ → K} (hxP : ∀ i < n, fixed.getD i false = true → x i = P.getD i 0)
    (hx : ∀ y : ℕ → K, (∀ i < n, fixed.getD i false = true → y i = P.getD i 0) → sqResid N n x Q ≤ sqResid N n y Q) :
    ∃ z : List K, linearFitFixedR rd ls (lift2 R) (lift1 Q) (lift1 P) fixed = .ok (lift1 z) ∧ z.length = n ∧
      (∀ i < n, fixed.getD i false = true → z.getD i 0 = P.getD i 0) ∧
      ∀ i < n, |z.getD i 0 - x i| ≤ 2 * κ * m * (2 * m + 1) * (n * (6 * κ * m + 4) + 2) * ε * B := by
  refine linearFitFixedR_close (k := 0) (N := fun r i => at2 N r i 0) ⟨hE, hB, hη, by rwa [zero_add], hε1, hM4, hMB⟩ hr hls
    hQl hPl hn (shape_lift2 hR) hf hN1 ?_ hκ0 hκ hQ hP h1 h2 hMκ hxP ?_
  · intro r hr' i hi
    obtain ⟨a1, a2, a3, a4⟩ := hM r hr' i hi
    have := abs_le.1 a4
    refine ⟨hE, at2 R r i 0, at2_lift2 R r i, a1, a2, a3, ?_, ?_⟩
    · rw [pow_zero, mul_one]; linarith
    · rw [pow_zero, mul_one]; linarith
  · intro e he
    refine normal_of_least (m := m) (F := fun x r => ∑ i ∈ range n, at2 N r i 0 * x i) (d := fun r => Q.getD r 0)
      (free := fun e => ∀ i < n, fixed.getD i false = true → e i = 0) (fun x e s r => ?_) (fun s e he => ?_) he
    · rw [mul_sum, ← sum_add_distrib]
      exact sum_congr rfl fun i _ => by ring
    · have := hx (fun i => x i + s * e i) fun i hi h => by rw [hxP i hi h, he i hi h, mul_zero, add_zero]
      unfold sqResid at this
      rw [hQl] at this
      exact this

end

/-! ## Double precision -/

/-- **C189.** `single_fit_curve` in double precision with overflow and gradual underflow, for degrees up to 10.  Knots,
parameters, data and the two ends are doubles; different knots differ by at least `2^-1000` and by at most `2^1000`; `κ` bounds
the control points by the values at the data parameters; `B ≥ 2^-1000` bounds the data and the two ends, and `8B` and `16κmB`
are at most `2^1023`.  If the solver is accurate up to `ε` and `ε` is small but at least about `(5p + 3n) 2^-52`, then the call
returns a curve of numbers (the partition-of-unity check passes, nothing overflows, no NaN appears) with the same degree,
knots and ends, and its control points are those of the exact fit up to `L ε B`. -/
theorem single_fit_curve_binary64 {ε κ B : ℚ} {ls : ℕ → List (List ℚ) → List ℚ → List ℚ}
    {ls' : ℕ → List (List (Ext ℚ)) → List (Ext ℚ) → Py (List (Ext ℚ))} {c : Curve ℚ} {data : List (List ℚ)} {m n : ℕ}
    (hls : IsLstsq ls) (hls' : IeeeSolver bin64 (2 ^ 1023) ε ls') (hU : Clamped c.degree n c.kv) (hp10 : c.degree ≤ 10)
    (hfirst : knotFn c.kv c.degree < knotFn c.kv (c.degree + 1)) (hP : Shape c.ctrlpts n 3) (hd : Shape data m 4)
    (hrep : ∀ x ∈ c.kv, bin64 x = fin x)
    (hδ : ∀ x ∈ c.kv, ∀ y ∈ c.kv, x < y → 1 / 2 ^ 1000 ≤ y - x)
    (hH : knotFn c.kv (n + c.degree) - knotFn c.kv 0 ≤ 2 ^ 1000)
    (hdom : ∀ r < m, knotFn c.kv c.degree ≤ at2 data r 3 0 ∧ at2 data r 3 0 ≤ knotFn c.kv n)
    (hdata : ∀ k < 4, ∀ r < m, bin64 (at2 data r k 0) = fin (at2 data r k 0))
    (hends : ∀ k < 3, bin64 (coord c.ctrlpts k 0) = fin (coord c.ctrlpts k 0) ∧
      bin64 (coord c.ctrlpts k (n - 1)) = fin (coord c.ctrlpts k (n - 1))) (hκ0 : 0 ≤ κ)
    (hκ : ∀ e : ℕ → ℚ, e 0 = 0 → e (n - 1) = 0 → ∀ i < n,
      e i ^ 2 ≤ κ * ∑ r ∈ range m, curve (knotFn c.kv) c.degree n e (at2 data r 3 0) ^ 2)
    (hB : ∀ k < 3, (∀ r < m, |at2 data r k 0| ≤ B) ∧ |coord c.ctrlpts k 0| ≤ B ∧ |coord c.ctrlpts k (n - 1)| ≤ B)
    (hB0 : 1 / 2 ^ 1000 ≤ B) (hMB : 8 * B ≤ 2 ^ 1023) (hMκ : 16 * (κ * m) * B ≤ 2 ^ 1023)
    (hsize : 5 * c.degree + n + m ≤ 10 ^ 8) (hε : (5 * c.degree + 3 * n + 2 : ℕ) / 2 ^ 52 ≤ ε) (hε1 : ε ≤ 1)
    (h1 : n * ((2 * m + 1) * ε) ≤ 1) (h2 : 6 * κ * m * (n * ((2 * m + 1) * ε)) ≤ 1) :
    ∃ c₀, singleFitCurve ls c data = .ok c₀ ∧ (∃ res, SingleFitCurveR bin64 ls' c.lift (lift2 data) res) ∧
      ∀ res, SingleFitCurveR bin64 ls' c.lift (lift2 data) res →
        ∃ c' : Curve ℚ, res = .ok c'.lift ∧ c'.degree = c.degree ∧ c'.kv = c.kv ∧ Shape c'.ctrlpts n 3 ∧ ∀ k < 3,
          coord c'.ctrlpts k 0 = coord c.ctrlpts k 0 ∧ coord c'.ctrlpts k (n - 1) = coord c.ctrlpts k (n - 1) ∧
          ∀ i < n, |coord c'.ctrlpts k i - coord c₀.ctrlpts k i|
            ≤ 2 * κ * m * (2 * m + 1) * (n * (6 * κ * m + 4) + 2) * ε * B := by
  have hsz := hU.size
  obtain ⟨c₀, h₀, -, -, -, hn⟩ := single_fit_curve_normal hls hU hfirst hP hd hdom
  obtain ⟨L, hL, hLs, hLn⟩ := curve_matrix_binary64 hU hp10 hfirst hP.1 hd hrep (hdata 3 (by omega)) hδ hH
  obtain ⟨f, hf, hfl, hfv⟩ := curveMask_eq (n := n) (by omega)
  have hfix : ∀ i < n, f.getD i false = true ↔ i = 0 ∨ i = n - 1 := fun i hi => by
    rw [hfv i hi, decide_eq_true_iff]; omega
  have f0 : f.getD 0 false = true := (hfix 0 (by omega)).2 (Or.inl rfl)
  have f1 : f.getD (n - 1) false = true := (hfix (n - 1) (by omega)).2 (Or.inr rfl)
  have hcurve : ∀ (e : ℕ → ℚ) (r : ℕ), curve (knotFn c.kv) c.degree n e (at2 data r 3 0)
      = ∑ i ∈ range n, Nclosed (knotFn c.kv) c.degree n i (at2 data r 3 0) * e i := fun e r =>
    sum_congr rfl fun i _ => mul_comm _ _
  simp only [hcurve] at hκ hn
  have hsum : ∀ r < m, ∑ i ∈ range n, Nclosed (knotFn c.kv) c.degree n i (at2 data r 3 0) = 1 := fun r hr =>
    sum_Nclosed hU (hdom r hr).1 (hdom r hr).2
  have e3 : 5 * c.degree + n + 2 + 2 * n = 5 * c.degree + 3 * n + 2 := by omega
  have hsizes : SolveSizes (1 - 1 / 2 ^ 53 : ℚ) (1 / 2 ^ 1075) (2 ^ 1023) (4 * (2 : ℕ) / 2 ^ 55) B ε (5 * c.degree) n :=
    solveSizes_binary64 (by norm_num; omega) hB0 hMB (by norm_num) (by rw [e3]; exact hε) hε1
  have hcol := fitColumnsR_close hsizes ieeeRounding_bin64 hls' (w := 4) (fixed := f) (Z := c₀.ctrlpts) hd (by omega) hP
    (by omega) hLs hfl (fun r hr => (hsum r hr).le)
    (fun r hr i hi => (hLn r hr i hi).mono ieeeRounding_bin64 le_rfl (by norm_num)) hκ0
    (fun e he => hκ e (he 0 (by omega) f0) (he (n - 1) (by omega) f1))
    (fun k hk r hr => ⟨hdata k (by omega) r hr, (hB k hk).1 r hr⟩)
    (fun k hk i hi h => by
      rcases (hfix i hi).1 h with rfl | rfl
      · exact ⟨(hends k hk).1, (hB k hk).2.1⟩
      · exact ⟨(hends k hk).2, (hB k hk).2.2⟩) h1 h2 hMκ
    (fun k hk i hi h => by
      rcases (hfix i hi).1 h with rfl | rfl
      · exact (hn k hk).1
      · exact (hn k hk).2.1)
    (fun k hk e he => (hn k hk).2.2 e (he 0 (by omega) f0) (he (n - 1) (by omega) f1))
  obtain ⟨new, hnew, hs, hk⟩ := hcol
  refine ⟨c₀, h₀, ?_, ?_⟩
  · obtain ⟨check, hcheck⟩ := CheckUnityR.exists bin64 L (lift2 data).length
    exact ⟨_, Or.inr ⟨L, check, hL, hcheck, rfl⟩⟩
  · rintro res (⟨e, he, -⟩ | ⟨M', check, hM', hcheck, rfl⟩)
    · rw [hL] at he; cases he
    rw [hL] at hM'
    cases hM'
    rw [List.length_map, hd.1] at hcheck
    obtain rfl := unity_binary64 hLs
      (fun r hr i hi => (hLn r hr i hi).mono ieeeRounding_bin64 le_rfl (by norm_num)) hsum hsize check hcheck
    refine ⟨{ c with ctrlpts := new }, ?_, rfl, rfl, hs, fun k hk3 =>
        ⟨(hk k hk3).1 0 (by omega) f0, (hk k hk3).1 (n - 1) (by omega) f1, (hk k hk3).2⟩⟩
    have hlen : c.lift.ctrlpts.length = n := by
      show (lift2 c.ctrlpts).length = n
      rw [List.length_map]; exact hP.1
    rw [ok_bind, hlen, hf, ok_bind]
    show (fitColumnsR bin64 ls' L (lift2 data) (lift2 c.ctrlpts) f >>= _) = _
    rw [hnew, ok_bind]
    rfl

/-- **C189** for `single_fit_surface`, for degrees up to 7: the boundary is kept exactly. -/
theorem single_fit_surface_binary64 {ε κ B : ℚ} {ls : ℕ → List (List ℚ) → List ℚ → List ℚ}
    {ls' : ℕ → List (List (Ext ℚ)) → List (Ext ℚ) → Py (List (Ext ℚ))} {s : Surface ℚ} {data : List (List ℚ)} {m : ℕ}
    (hls : IsLstsq ls) (hls' : IeeeSolver bin64 (2 ^ 1023) ε ls') (hs : ClampedSurface s) (hpu : s.degreeU ≤ 7)
    (hpv : s.degreeV ≤ 7) (fu : knotFn s.kvU s.degreeU < knotFn s.kvU (s.degreeU + 1))
    (fv : knotFn s.kvV s.degreeV < knotFn s.kvV (s.degreeV + 1)) (hd : Shape data m 5)
    (hru : ∀ x ∈ s.kvU, bin64 x = fin x) (hrv : ∀ x ∈ s.kvV, bin64 x = fin x)
    (hδu : ∀ x ∈ s.kvU, ∀ y ∈ s.kvU, x < y → 1 / 2 ^ 1000 ≤ y - x)
    (hδv : ∀ x ∈ s.kvV, ∀ y ∈ s.kvV, x < y → 1 / 2 ^ 1000 ≤ y - x)
    (hHu : knotFn s.kvU (s.numU + s.degreeU) - knotFn s.kvU 0 ≤ 2 ^ 1000)
    (hHv : knotFn s.kvV (s.numV + s.degreeV) - knotFn s.kvV 0 ≤ 2 ^ 1000)
    (hu : ∀ r < m, knotFn s.kvU s.degreeU ≤ at2 data r 3 0 ∧ at2 data r 3 0 ≤ knotFn s.kvU s.numU)
    (hv : ∀ r < m, knotFn s.kvV s.degreeV ≤ at2 data r 4 0 ∧ at2 data r 4 0 ≤ knotFn s.kvV s.numV)
    (hdata : ∀ k < 5, ∀ r < m, bin64 (at2 data r k 0) = fin (at2 data r k 0)) (hκ0 : 0 ≤ κ)
    (hκ : ∀ e : ℕ → ℚ, (∀ i < s.numU, ∀ j < s.numV, OnBoundary s i j → e (i * s.numV + j) = 0) →
      ∀ i < s.numU * s.numV, e i ^ 2 ≤ κ * ∑ r ∈ range m,
        surface (knotFn s.kvU) s.degreeU s.numU (knotFn s.kvV) s.degreeV s.numV e (at2 data r 3 0) (at2 data r 4 0) ^ 2)
    (hB : ∀ k < 3, (∀ r < m, |at2 data r k 0| ≤ B) ∧
      ∀ i < s.numU, ∀ j < s.numV, OnBoundary s i j →
        bin64 (coord s.ctrlpts k (i * s.numV + j)) = fin (coord s.ctrlpts k (i * s.numV + j)) ∧
        |coord s.ctrlpts k (i * s.numV + j)| ≤ B)
    (hB0 : 1 / 2 ^ 1000 ≤ B) (hMB : 8 * B ≤ 2 ^ 1023) (hMκ : 16 * (κ * m) * B ≤ 2 ^ 1023)
    (hsize : 5 * s.degreeU + 5 * s.degreeV + 1 + s.numU * s.numV + m ≤ 10 ^ 8)
    (hε : (5 * s.degreeU + 5 * s.degreeV + 14 * (s.numU * s.numV) + 3 : ℕ) / 2 ^ 52 ≤ ε) (hε1 : ε ≤ 1)
    (h1 : (s.numU * s.numV : ℕ) * ((2 * m + 1) * ε) ≤ 1)
    (h2 : 6 * κ * m * ((s.numU * s.numV : ℕ) * ((2 * m + 1) * ε)) ≤ 1) :
    ∃ s₀, singleFitSurface ls s data = .ok s₀ ∧ (∃ res, SingleFitSurfaceR bin64 ls' s.lift (lift2 data) res) ∧
      ∀ res, SingleFitSurfaceR bin64 ls' s.lift (lift2 data) res →
        ∃ P, res = .ok (Surface.lift { s with ctrlpts := P }) ∧ Shape P (s.numU * s.numV) 3 ∧ ∀ k < 3,
          (∀ i < s.numU, ∀ j < s.numV, OnBoundary s i j →
            coord P k (i * s.numV + j) = coord s.ctrlpts k (i * s.numV + j)) ∧
          ∀ i < s.numU * s.numV, |coord P k i - coord s₀.ctrlpts k i|
            ≤ 2 * κ * m * (2 * m + 1) * ((s.numU * s.numV : ℕ) * (6 * κ * m + 4) + 2) * ε * B := by
  have su := hs.cu.size
  have sv := hs.cv.size
  have hsplit : ∀ t < s.numU * s.numV, t / s.numV < s.numU ∧ t % s.numV < s.numV ∧ t / s.numV * s.numV + t % s.numV = t :=
    fun t ht => ⟨Nat.div_lt_of_lt_mul (by rw [mul_comm]; exact ht), Nat.mod_lt _ (by omega), Nat.div_add_mod' t s.numV⟩
  have hjoin : ∀ i < s.numU, ∀ j < s.numV, i * s.numV + j < s.numU * s.numV := by
    intro i hi j hj
    have h1 : i * s.numV + j < (i + 1) * s.numV := by rw [add_mul, one_mul]; omega
    exact lt_of_lt_of_le h1 (Nat.mul_le_mul_right _ hi)
  obtain ⟨Z, h₀, -, hn⟩ := single_fit_surface_normal hls hs fu fv hd hu hv
  obtain ⟨L, hL, hLs, hLn⟩ := surface_matrix_binary64 hs hpu hpv fu fv hd hru hrv
    (fun r hr => ⟨hdata 3 (by omega) r hr, hdata 4 (by omega) r hr⟩) hδu hδv hHu hHv hu hv
  obtain ⟨f, hf, hfl, hfv⟩ := surface_mask_boundary (nu := s.numU) (nv := s.numV) (by omega) (by omega)
  have hfix : ∀ i < s.numU, ∀ j < s.numV, f.getD (i * s.numV + j) false = true ↔ OnBoundary s i j := fun i hi j hj => by
    rw [hfv i hi j hj, decide_eq_true_iff]; rfl
  have hfree : ∀ e : ℕ → ℚ, (∀ t < s.numU * s.numV, f.getD t false = true → e t = 0) →
      ∀ i < s.numU, ∀ j < s.numV, OnBoundary s i j → e (i * s.numV + j) = 0 := fun e he i hi j hj hb =>
    he _ (hjoin i hi j hj) ((hfix i hi j hj).2 hb)
  have hpos : 0 < s.numU * s.numV := Nat.mul_pos (by omega) (by omega)
  simp only [surface_eq_sum] at hκ hn
  have hsum : ∀ r < m, ∑ t ∈ range (s.numU * s.numV),
      Nclosed (knotFn s.kvU) s.degreeU s.numU (t / s.numV) (at2 data r 3 0)
        * Nclosed (knotFn s.kvV) s.degreeV s.numV (t % s.numV) (at2 data r 4 0) = 1 := fun r hr => by
    rw [sum_Nclosed_grid, sum_Nclosed hs.cu (hu r hr).1 (hu r hr).2, sum_Nclosed hs.cv (hv r hr).1 (hv r hr).2, one_mul]
  have e3 : 5 * s.degreeU + 5 * s.degreeV + 1 + s.numU * s.numV + 2 + 13 * (s.numU * s.numV)
      = 5 * s.degreeU + 5 * s.degreeV + 14 * (s.numU * s.numV) + 3 := by omega
  have hsizes : SolveSizes (1 - 1 / 2 ^ 53 : ℚ) (1 / 2 ^ 1075) (2 ^ 1023) (4 * (13 : ℕ) / 2 ^ 55) B ε
      (5 * s.degreeU + 5 * s.degreeV + 1) (s.numU * s.numV) :=
    solveSizes_binary64 (by norm_num; omega) hB0 hMB (by norm_num) (by rw [e3]; exact hε) hε1
  have hcol := fitColumnsR_close hsizes ieeeRounding_bin64 hls' (w := 5) (fixed := f) (Z := Z) hd (by omega) hs.shape
    hpos hLs hfl (fun r hr => (hsum r hr).le)
    (fun r hr i hi => (hLn r hr i hi).mono ieeeRounding_bin64 le_rfl (by norm_num)) hκ0
    (fun e he => hκ e (hfree e he))
    (fun k hk r hr => ⟨hdata k (by omega) r hr, (hB k hk).1 r hr⟩)
    (fun k hk t ht h => by
      obtain ⟨t1, t2, t3⟩ := hsplit t ht
      rw [← t3] at h ⊢
      exact (hB k hk).2 _ t1 _ t2 ((hfix _ t1 _ t2).1 h)) h1 h2 hMκ
    (fun k hk t ht h => by
      obtain ⟨t1, t2, t3⟩ := hsplit t ht
      rw [← t3] at h ⊢
      exact (hn k hk).1 _ t1 _ t2 ((hfix _ t1 _ t2).1 h))
    (fun k hk e he => (hn k hk).2 e (hfree e he))
  obtain ⟨new, hnew, hns, hk⟩ := hcol
  refine ⟨_, h₀, ?_, ?_⟩
  · obtain ⟨check, hcheck⟩ := CheckUnityR.exists bin64 L (lift2 data).length
    exact ⟨_, Or.inr ⟨L, check, hL, hcheck, rfl⟩⟩
  · rintro res (⟨e, he, -⟩ | ⟨M', check, hM', hcheck, rfl⟩)
    · rw [hL] at he; cases he
    rw [hL] at hM'
    cases hM'
    rw [List.length_map, hd.1] at hcheck
    obtain rfl := unity_binary64 hLs (fun r hr i hi => hLn r hr i hi) hsum hsize check hcheck
    refine ⟨new, ?_, hns, fun k hk3 => ⟨fun i hi j hj hb =>
        (hk k hk3).1 _ (hjoin i hi j hj) ((hfix i hi j hj).2 hb), (hk k hk3).2⟩⟩
    have hlen : s.lift.ctrlpts.length = s.numU * s.numV := by
      show (lift2 s.ctrlpts).length = _
      rw [List.length_map]; exact hs.shape.1
    rw [ok_bind]
    show (surfaceMask s.numU s.numV s.lift.ctrlpts.length >>= _) = _
    rw [hlen, hf, ok_bind]
    show (fitColumnsR bin64 ls' L (lift2 data) (lift2 s.ctrlpts) f >>= _) = _
    rw [hnew, ok_bind]
    rfl

/-- **C189.** If the parameters determine the fit: there are an accuracy `δ` and a constant `L`, for the knots and the
parameters alone, such that with every solver of accuracy `ε ≤ δ` and all data of size `B ≤ 2^1023 / L` the fit in double
precision returns a curve of numbers whose control points are wrong by at most `L ε B`. -/
theorem single_fit_curve_binary64_determined {p m n : ℕ} {U : List ℚ} {t : ℕ → ℚ} (hU : Clamped p n U) (hp : 1 ≤ p)
    (hp10 : p ≤ 10) (hfirst : knotFn U p < knotFn U (p + 1)) (hdom : ∀ r < m, knotFn U p ≤ t r ∧ t r ≤ knotFn U n)
    (hrep : ∀ x ∈ U, bin64 x = fin x) (hδ : ∀ x ∈ U, ∀ y ∈ U, x < y → 1 / 2 ^ 1000 ≤ y - x)
    (hH : knotFn U (n + p) - knotFn U 0 ≤ 2 ^ 1000) (hsize : 5 * p + n + m ≤ 10 ^ 8)
    (hdet : Determined p n (knotFn U) m t) :
    ∃ L δ : ℚ, 0 < δ ∧ ∀ (ε B : ℚ) (ls : ℕ → List (List ℚ) → List ℚ → List ℚ)
      (ls' : ℕ → List (List (Ext ℚ)) → List (Ext ℚ) → Py (List (Ext ℚ))) (c : Curve ℚ) (data : List (List ℚ)),
      (5 * p + 3 * n + 2 : ℕ) / 2 ^ 52 ≤ ε → ε ≤ δ → 1 / 2 ^ 1000 ≤ B → L * B ≤ 2 ^ 1023 → IsLstsq ls →
      IeeeSolver bin64 (2 ^ 1023) ε ls' → c.degree = p → c.kv = U → Shape c.ctrlpts n 3 → Shape data m 4 →
      (∀ r < m, at2 data r 3 0 = t r) → (∀ k < 4, ∀ r < m, bin64 (at2 data r k 0) = fin (at2 data r k 0)) →
      (∀ k < 3, bin64 (coord c.ctrlpts k 0) = fin (coord c.ctrlpts k 0) ∧
        bin64 (coord c.ctrlpts k (n - 1)) = fin (coord c.ctrlpts k (n - 1))) →
      (∀ k < 3, (∀ r < m, |at2 data r k 0| ≤ B) ∧ |coord c.ctrlpts k 0| ≤ B ∧ |coord c.ctrlpts k (n - 1)| ≤ B) →
      ∃ c₀, singleFitCurve ls c data = .ok c₀ ∧ (∃ res, SingleFitCurveR bin64 ls' c.lift (lift2 data) res) ∧
        ∀ res, SingleFitCurveR bin64 ls' c.lift (lift2 data) res → ∃ c' : Curve ℚ, res = .ok c'.lift ∧
          ∀ k < 3, ∀ i < n, |coord c'.ctrlpts k i - coord c₀.ctrlpts k i| ≤ L * ε * B := by
  have hsz := hU.size
  obtain ⟨κ, hκ0, hκ⟩ := exists_stability (n := n) (m := m) (F := fun x r => curve (knotFn U) p n x (t r))
    (fun x e s r => curve_add_mul x e s _) (fun x y h r => curve_congr h _) (fun i => i = 0 ∨ i = n - 1)
    (fun e h0 hz => eq_zero_of_determined hU hp hdet (h0 0 (by omega) (Or.inl rfl)) (h0 (n - 1) (by omega) (Or.inr rfl)) hz)
  have hpos : (0 : ℚ) < (6 * κ * m + 1) * (n * (2 * m + 1) + 1) := by positivity
  obtain ⟨L₀, hL₀⟩ : ∃ L₀ : ℚ, L₀ = 2 * κ * m * (2 * m + 1) * (n * (6 * κ * m + 4) + 2) := ⟨_, rfl⟩
  have hL0 : 0 ≤ L₀ := by rw [hL₀]; positivity
  have hκm : 0 ≤ κ * m := by positivity
  refine ⟨L₀ + 16 * (κ * m) + 8, 1 / ((6 * κ * m + 1) * (n * (2 * m + 1) + 1)), one_div_pos.2 hpos, ?_⟩
  rintro ε B ls ls' c data hε hle hB0 hLB hls hls' rfl rfl hP hd hpar hdata hends hB
  have hBn : 0 ≤ B := le_trans (by positivity) hB0
  have hε0 : 0 ≤ ε := le_trans (by positivity) hε
  have hle' : ε * ((6 * κ * m + 1) * (n * (2 * m + 1) + 1)) ≤ 1 := by
    have := mul_le_mul_of_nonneg_right hle hpos.le
    rwa [one_div_mul_cancel hpos.ne'] at this
  have e0 : 0 ≤ 6 * κ * m * ε := by positivity
  have e1 : 0 ≤ n * ((2 * m + 1) * ε) := by positivity
  have e2 : 0 ≤ 6 * κ * m * (n * ((2 * m + 1) * ε)) := by positivity
  have e3 : ε * ((6 * κ * m + 1) * (n * (2 * m + 1) + 1))
      = 6 * κ * m * (n * ((2 * m + 1) * ε)) + n * ((2 * m + 1) * ε) + 6 * κ * m * ε + ε := by ring
  rw [e3] at hle'
  have g0 : 0 ≤ L₀ * B := mul_nonneg hL0 hBn
  have g1 : 0 ≤ 16 * (κ * m) * B := by positivity
  have g2 : (L₀ + 16 * (κ * m) + 8) * B = L₀ * B + 16 * (κ * m) * B + 8 * B := by ring
  rw [g2] at hLB
  obtain ⟨c₀, h₀, hex, h⟩ := single_fit_curve_binary64 (κ := κ) (B := B) hls hls' hU hp10 hfirst hP hd hrep hδ hH
    (fun r hr => by rw [hpar r hr]; exact hdom r hr) hdata hends hκ0
    (fun e he0 he1 i hi => by
      refine (hκ e (by rintro i - (rfl | rfl) <;> assumption) i hi).trans_eq ?_
      congr 1
      exact sum_congr rfl fun r hr => by rw [hpar r (mem_range.1 hr)]) hB hB0 (by linarith) (by linarith) hsize hε
    (by linarith) (by linarith) (by linarith)
  refine ⟨c₀, h₀, hex, fun res hres => ?_⟩
  obtain ⟨c', hc', -, -, -, h'⟩ := h _ hres
  refine ⟨c', hc', fun k hk i hi => ((h' k hk).2.2 i hi).trans ?_⟩
  rw [← hL₀]
  exact mul_le_mul_of_nonneg_right (mul_le_mul_of_nonneg_right (by linarith) hε0) hBn

/-- **C189.** The same for surfaces, if the data contain a grid that determines the surface. -/
theorem single_fit_surface_binary64_determined {S : Surface ℚ} {a b : ℕ → ℚ} {m : ℕ} (hS : ClampedSurface S)
    (hpu : S.degreeU ≤ 7) (hpv : S.degreeV ≤ 7)
    (fu : knotFn S.kvU S.degreeU < knotFn S.kvU (S.degreeU + 1))
    (fv : knotFn S.kvV S.degreeV < knotFn S.kvV (S.degreeV + 1))
    (hru : ∀ x ∈ S.kvU, bin64 x = fin x) (hrv : ∀ x ∈ S.kvV, bin64 x = fin x)
    (hδu : ∀ x ∈ S.kvU, ∀ y ∈ S.kvU, x < y → 1 / 2 ^ 1000 ≤ y - x)
    (hδv : ∀ x ∈ S.kvV, ∀ y ∈ S.kvV, x < y → 1 / 2 ^ 1000 ≤ y - x)
    (hHu : knotFn S.kvU (S.numU + S.degreeU) - knotFn S.kvU 0 ≤ 2 ^ 1000)
    (hHv : knotFn S.kvV (S.numV + S.degreeV) - knotFn S.kvV 0 ≤ 2 ^ 1000)
    (hu : ∀ r < m, knotFn S.kvU S.degreeU ≤ a r ∧ a r ≤ knotFn S.kvU S.numU)
    (hv : ∀ r < m, knotFn S.kvV S.degreeV ≤ b r ∧ b r ≤ knotFn S.kvV S.numV)
    (hsize : 5 * S.degreeU + 5 * S.degreeV + 1 + S.numU * S.numV + m ≤ 10 ^ 8) (hdet : GridDetermined S m a b) :
    ∃ L δ : ℚ, 0 < δ ∧ ∀ (ε B : ℚ) (ls : ℕ → List (List ℚ) → List ℚ → List ℚ)
      (ls' : ℕ → List (List (Ext ℚ)) → List (Ext ℚ) → Py (List (Ext ℚ))) (P data : List (List ℚ)),
      (5 * S.degreeU + 5 * S.degreeV + 14 * (S.numU * S.numV) + 3 : ℕ) / 2 ^ 52 ≤ ε → ε ≤ δ → 1 / 2 ^ 1000 ≤ B →
      L * B ≤ 2 ^ 1023 → IsLstsq ls → IeeeSolver bin64 (2 ^ 1023) ε ls' → Shape P (S.numU * S.numV) 3 → Shape data m 5 →
      (∀ r < m, at2 data r 3 0 = a r ∧ at2 data r 4 0 = b r) →
      (∀ k < 5, ∀ r < m, bin64 (at2 data r k 0) = fin (at2 data r k 0)) →
      (∀ k < 3, (∀ r < m, |at2 data r k 0| ≤ B) ∧
        ∀ i < S.numU, ∀ j < S.numV, OnBoundary S i j →
          bin64 (coord P k (i * S.numV + j)) = fin (coord P k (i * S.numV + j)) ∧ |coord P k (i * S.numV + j)| ≤ B) →
      ∃ s₀, singleFitSurface ls { S with ctrlpts := P } data = .ok s₀ ∧
        (∃ res, SingleFitSurfaceR bin64 ls' (Surface.lift { S with ctrlpts := P }) (lift2 data) res) ∧
        ∀ res, SingleFitSurfaceR bin64 ls' (Surface.lift { S with ctrlpts := P }) (lift2 data) res →
          ∃ P', res = .ok (Surface.lift { S with ctrlpts := P' }) ∧
            ∀ k < 3, ∀ i < S.numU * S.numV, |coord P' k i - coord s₀.ctrlpts k i| ≤ L * ε * B := by
  have su := hS.cu.size
  have sv := hS.cv.size
  have hsplit : ∀ t < S.numU * S.numV, t / S.numV < S.numU ∧ t % S.numV < S.numV ∧ t / S.numV * S.numV + t % S.numV = t :=
    fun t ht => ⟨Nat.div_lt_of_lt_mul (by rw [mul_comm]; exact ht), Nat.mod_lt _ (by omega), Nat.div_add_mod' t S.numV⟩
  have hjoin : ∀ i < S.numU, ∀ j < S.numV, i * S.numV + j < S.numU * S.numV ∧ (i * S.numV + j) / S.numV = i ∧
      (i * S.numV + j) % S.numV = j := by
    intro i hi j hj
    have h1 : i * S.numV + j < (i + 1) * S.numV := by rw [add_mul, one_mul]; omega
    refine ⟨lt_of_lt_of_le h1 (Nat.mul_le_mul_right _ hi), ?_, ?_⟩
    · rw [mul_comm, Nat.mul_add_div (by omega), Nat.div_eq_of_lt hj, add_zero]
    · rw [mul_comm, Nat.mul_add_mod, Nat.mod_eq_of_lt hj]
  obtain ⟨κ, hκ0, hκ⟩ := exists_stability (n := S.numU * S.numV) (m := m)
    (F := fun x r => surface (knotFn S.kvU) S.degreeU S.numU (knotFn S.kvV) S.degreeV S.numV x (a r) (b r))
    (fun x e q r => surface_add_mul x e q _ _) (fun x y h r => surface_local h _ _)
    (fun t => OnBoundary S (t / S.numV) (t % S.numV))
    (fun e h0 hz t ht => by
      obtain ⟨h1, h2, h3⟩ := hsplit t ht
      have := surface_eq_zero_of_determined hS hdet (fun i hi j hj hb => by
        obtain ⟨h1, h2, h3⟩ := hjoin i hi j hj
        exact h0 _ h1 (by rw [h2, h3]; exact hb)) hz _ h1 _ h2
      rwa [h3] at this)
  set N := S.numU * S.numV with hN
  have hpos : (0 : ℚ) < (6 * κ * m + 1) * (N * (2 * m + 1) + 1) := by positivity
  obtain ⟨L₀, hL₀⟩ : ∃ L₀ : ℚ, L₀ = 2 * κ * m * (2 * m + 1) * (N * (6 * κ * m + 4) + 2) := ⟨_, rfl⟩
  have hL0 : 0 ≤ L₀ := by rw [hL₀]; positivity
  have hκm : 0 ≤ κ * m := by positivity
  refine ⟨L₀ + 16 * (κ * m) + 8, 1 / ((6 * κ * m + 1) * (N * (2 * m + 1) + 1)), one_div_pos.2 hpos, ?_⟩
  intro ε B ls ls' P data hε hle hB0 hLB hls hls' hP hd hpar hdata hB
  have hBn : 0 ≤ B := le_trans (by positivity) hB0
  have hε0 : 0 ≤ ε := le_trans (by positivity) hε
  have hle' : ε * ((6 * κ * m + 1) * (N * (2 * m + 1) + 1)) ≤ 1 := by
    have := mul_le_mul_of_nonneg_right hle hpos.le
    rwa [one_div_mul_cancel hpos.ne'] at this
  have e0 : 0 ≤ 6 * κ * m * ε := by positivity
  have e1 : 0 ≤ N * ((2 * m + 1) * ε) := by positivity
  have e2 : 0 ≤ 6 * κ * m * (N * ((2 * m + 1) * ε)) := by positivity
  have e3 : ε * ((6 * κ * m + 1) * (N * (2 * m + 1) + 1))
      = 6 * κ * m * (N * ((2 * m + 1) * ε)) + N * ((2 * m + 1) * ε) + 6 * κ * m * ε + ε := by ring
  rw [e3] at hle'
  have g0 : 0 ≤ L₀ * B := mul_nonneg hL0 hBn
  have g1 : 0 ≤ 16 * (κ * m) * B := by positivity
  have g2 : (L₀ + 16 * (κ * m) + 8) * B = L₀ * B + 16 * (κ * m) * B + 8 * B := by ring
  rw [g2] at hLB
  obtain ⟨s₀, h₀, hex, h⟩ := single_fit_surface_binary64 (κ := κ) (B := B) (s := { S with ctrlpts := P }) hls hls'
    { cu := hS.cu, cv := hS.cv, du := hS.du, dv := hS.dv, shape := hP } hpu hpv fu fv hd hru hrv hδu hδv hHu hHv
    (fun r hr => by rw [(hpar r hr).1]; exact hu r hr) (fun r hr => by rw [(hpar r hr).2]; exact hv r hr) hdata hκ0
    (fun e he t ht => by
      refine (hκ e (fun t ht hb => by
        obtain ⟨t1, t2, t3⟩ := hsplit t ht
        have := he _ t1 _ t2 hb
        rwa [t3] at this) t ht).trans_eq ?_
      congr 1
      exact sum_congr rfl fun r hr => by rw [(hpar r (mem_range.1 hr)).1, (hpar r (mem_range.1 hr)).2])
    hB hB0 (by linarith) (by linarith) hsize hε (by linarith) (by dsimp only; rw [← hN]; linarith)
    (by dsimp only; rw [← hN]; linarith)
  refine ⟨s₀, h₀, hex, fun res hres => ?_⟩
  obtain ⟨P', hP', -, h'⟩ := h _ hres
  refine ⟨P', hP', fun k hk i hi => ((h' k hk).2 i hi).trans ?_⟩
  dsimp only
  rw [← hN, ← hL₀]
  exact mul_le_mul_of_nonneg_right (mul_le_mul_of_nonneg_right (by linarith) hε0) hBn

/-! ## Concrete cases -/

/-- There are such solvers. -/
example (ε : ℚ) (hε : 0 ≤ ε) : ∃ ls, IeeeSolver bin64 (2 ^ 1023) ε ls := by
  obtain ⟨ls, hls⟩ := exists_lstsq (K := ℚ)
  refine ⟨fun n A b => .ok ((ls n (A.map (List.map Ext.val)) (b.map Ext.val)).map fin), ls, IsLstsq.backwardStable hls hε,
    fun n A b _ _ _ => ?_⟩
  have e : ∀ l : List ℚ, (l.map fin).map Ext.val = l := fun l => by
    rw [List.map_map]; exact (List.map_congr_left fun x _ => rfl).trans (List.map_id _)
  have e2 : (A.map (List.map fin)).map (List.map Ext.val) = A := by
    rw [List.map_map]; exact (List.map_congr_left fun l _ => e l).trans (List.map_id _)
  dsimp only
  rw [e, e2]

/-- The parabola of C172 with the datum `2^900 / 3`, rounded: with a solver accurate to `2^-40` the fit in double precision
returns a curve of numbers, and they are right to `2^-28` of `2^900`. -/
example (ls : ℕ → List (List ℚ) → List ℚ → List ℚ) (ls' : ℕ → List (List (Ext ℚ)) → List (Ext ℚ) → Py (List (Ext ℚ)))
    (hls : IsLstsq ls) (hls' : IeeeSolver bin64 (2 ^ 1023) (1 / 2 ^ 40) ls') :
    ∃ c₀, singleFitCurve ls exSolve [[fl64 (2 ^ 900 / 3), 1, 0, 1/2]] = .ok c₀ ∧
      (∃ res, SingleFitCurveR bin64 ls' exSolve.lift (lift2 [[fl64 (2 ^ 900 / 3), 1, 0, 1/2]]) res) ∧
      ∀ res, SingleFitCurveR bin64 ls' exSolve.lift (lift2 [[fl64 (2 ^ 900 / 3), 1, 0, 1/2]]) res →
        ∃ c' : Curve ℚ, res = .ok c'.lift ∧ ∀ k < 3, ∀ i < 3,
          |coord c'.ctrlpts k i - coord c₀.ctrlpts k i| ≤ 1 / 2 ^ 28 * 2 ^ 900 := by
  obtain ⟨c₀, h₀, hex, h⟩ := single_fit_curve_binary64 (c := exSolve) (data := [[fl64 (2 ^ 900 / 3), 1, 0, 1/2]]) (m := 1)
    (n := 3) (κ := 4) (B := 2 ^ 900) hls hls' exSolve_clamped (by decide) (by decide +kernel) ⟨rfl, by decide +kernel⟩
    ⟨rfl, by decide +kernel⟩ (by decide +kernel) (by decide +kernel) (by decide +kernel)
    (by intro r hr; interval_cases r; decide +kernel)
    (by intro k hk r hr; interval_cases r; interval_cases k <;> decide +kernel)
    (by intro k hk; interval_cases k <;> decide +kernel) (by norm_num)
    (fun e h0 h2 i hi => by
      have := exSolve_stable e h0 h2 i hi
      rw [sum_range_one] at this ⊢
      exact this)
    (by
      intro k hk
      refine ⟨fun r hr => ?_, ?_, ?_⟩
      · interval_cases r; interval_cases k <;> decide +kernel
      · interval_cases k <;> decide +kernel
      · interval_cases k <;> decide +kernel)
    (by decide +kernel) (by decide +kernel) (by decide +kernel) (by decide +kernel) (by decide +kernel) (by norm_num)
    (by norm_num) (by norm_num)
  refine ⟨c₀, h₀, hex, fun res hres => ?_⟩
  obtain ⟨c', h1, -, -, -, h2⟩ := h res hres
  refine ⟨c', h1, fun k hk i hi => ((h2 k hk).2.2 i hi).trans ?_⟩
  refine mul_le_mul_of_nonneg_right ?_ (by positivity)
  norm_num

/-- The curve of C163 and the surface with two inner control points have a constant and an accuracy. -/
example := single_fit_curve_binary64_determined (m := 4) exWhitney_clamped (by decide) (by decide) (by decide +kernel)
  (by intro r hr; interval_cases r <;> decide +kernel) (by decide +kernel) (by decide +kernel) (by decide +kernel)
  (by decide) exWhitney_determined

example := single_fit_surface_binary64_determined (m := 2) exS_clamped (by decide) (by decide) (by decide +kernel)
  (by decide +kernel) (by decide +kernel) (by decide +kernel) (by decide +kernel) (by decide +kernel) (by decide +kernel)
  (by decide +kernel) (by intro r hr; interval_cases r <;> decide +kernel)
  (by intro r hr; interval_cases r <;> decide +kernel) (by decide) exS_determined

/-- Overflow, and what `8B ≤ 2^1023` is for: two data with the same parameter and the ends are doubles, and so is the control
point `3/2 2^1023` of the exact fit; but the first entry `9/4 2^1023` of the right-hand side overflows, and the solver is
handed an infinity. -/
example : bin64 (3 / 2 * 2 ^ 1023) = fin (3 / 2 * 2 ^ 1023) ∧ bin64 (9 / 4 * 2 ^ 1023) = inf false ∧
    (∀ x : ℚ, sqResid [[1/4, 1/2, 1/4], [1/4, 1/2, 1/4]] 3
        (fun i => [-(3 / 2) * 2 ^ 1023, 3 / 2 * 2 ^ 1023, -(3 / 2) * 2 ^ 1023].getD i 0) [3 / 2 * 2 ^ 1023, -(3 / 2) * 2 ^ 1023]
      ≤ sqResid [[1/4, 1/2, 1/4], [1/4, 1/2, 1/4]] 3
        (fun i => [-(3 / 2) * 2 ^ 1023, x, -(3 / 2) * 2 ^ 1023].getD i 0) [3 / 2 * 2 ^ 1023, -(3 / 2) * 2 ^ 1023]) ∧
    linearFitFixedR bin64 (fun _ _ b => .ok (b.take 1)) (lift2 [[1/4, 1/2, 1/4], [1/4, 1/2, 1/4]])
      [fin (3 / 2 * 2 ^ 1023), fin (-(3 / 2) * 2 ^ 1023)]
      [fin (-(3 / 2) * 2 ^ 1023), 0, fin (-(3 / 2) * 2 ^ 1023)] [true, false, true]
      = .ok [fin (-(3 / 2) * 2 ^ 1023), inf false, fin (-(3 / 2) * 2 ^ 1023)] := by
  refine ⟨by decide +kernel, by decide +kernel, fun x => ?_, by decide +kernel⟩
  obtain ⟨T, hT⟩ : ∃ T : ℚ, T = 2 ^ 1023 := ⟨_, rfl⟩
  rw [← hT]
  simp only [sqResid, List.length_cons, List.length_nil, sum_range_succ, range_zero, sum_empty, List.getD_cons_zero,
    List.getD_cons_succ]
  nlinarith [sq_nonneg (x - 3 / 2 * T)]

/-- A NaN in a fixed entry reaches the solver for every row in which its basis function does not vanish, and for those in
which it does: `0 * NaN` is NaN. -/
example : linearFitFixedR bin64 (fun _ _ b => .ok b) (lift2 [[1/4, 3/4], [0, 1]]) [1, 1] [nan, 0] [true, false]
      = .ok [nan, nan] ∧
    linearFitFixedR bin64 (fun _ _ b => .ok (b.drop 1)) (lift2 [[1/4, 3/4], [0, 1]]) [1, 1] [nan, 0] [true, false]
      = .ok [nan, nan] := by decide +kernel

/-- Underflow, and what `B ≥ 2^-1000` is for: the exact right-hand side is `2^-1075`, the solver is handed `2^-1074`. -/
example : linearFitFixed (fun _ _ b => b) [[1/4, 1/2, 1/4]] [1 / 2 ^ 1074] [1 / 2 ^ 1074, 7, 1 / 2 ^ 1074] [true, false, true]
      = .ok [(1 / 2 ^ 1074 : ℚ), 1 / 2 ^ 1075, 1 / 2 ^ 1074] ∧
    linearFitFixedR bin64 (fun _ _ b => .ok b) (lift2 [[1/4, 1/2, 1/4]]) [fin (1 / 2 ^ 1074)]
      [fin (1 / 2 ^ 1074), 0, fin (1 / 2 ^ 1074)] [true, false, true]
      = .ok [fin (1 / 2 ^ 1074), fin (1 / 2 ^ 1074), fin (1 / 2 ^ 1074)] := by decide +kernel

end PySpline
