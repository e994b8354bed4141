import Verif.Lemmas.FitDoubleAux
import Verif.Lemmas.RoundedFit
import Verif.Props.Double

/-!
# C113: the matrix and the partition-of-unity check of the fits in rounded arithmetic
-/

set_option linter.unusedSectionVars false

namespace PySpline

open Spec Finset

section
variable {K : Type} [Field K] [LinearOrder K] [IsStrictOrderedRing K]

/-! ## With exact arithmetic the rounded model is the exact one -/

theorem oneBasisFunctionFl_id (p : ℕ) (U : List K) (i : ℕ) (u : K) :
    oneBasisFunctionFl id p U i u = oneBasisFunction p U i u := by
  unfold oneBasisFunctionFl oneBasisFunction
  simp only [pyDivFl_id, id]

theorem curveMatrixFl_id (c : Curve K) (data : List (List K)) :
    curveMatrixFl id c data = curveMatrix c data := by
  unfold curveMatrixFl curveMatrix
  simp only [oneBasisFunctionFl_id]

theorem surfaceMatrixFl_id (s : Surface K) (data : List (List K)) :
    surfaceMatrixFl id s data = surfaceMatrix s data := by
  unfold surfaceMatrixFl surfaceMatrix
  simp only [oneBasisFunctionFl_id, id]

theorem CheckUnityFl_id (M : List (List K)) (m : ℕ) (r : Py Unit) :
    CheckUnityFl id M m r ↔ r = checkUnity M m := by
  have h : ∀ unity : List K, List.Forall₂ (SumFl id) M unity ↔ unity = M.map List.sum := by
    intro unity
    have : (SumFl id : List K → K → Prop) = fun l s => s = l.sum := by
      funext l s; exact propext (SumFl_id l s)
    rw [this]
    clear this
    induction M generalizing unity with
    | nil => simp
    | cons x xs ih =>
      rw [List.forall₂_cons_left_iff]
      constructor
      · rintro ⟨_, l, rfl, h, rfl⟩
        rw [(ih l).1 h]; rfl
      · rintro rfl
        exact ⟨_, _, rfl, (ih _).2 rfl, rfl⟩
  unfold CheckUnityFl checkUnity
  constructor
  · rintro ⟨unity, total, h1, h2, rfl⟩
    rw [(h unity).1 h1, SumFl_id] at h2
    rw [h2]
    rfl
  · rintro rfl
    exact ⟨_, _, (h _).2 rfl, (SumFl_id _ _).2 rfl, rfl⟩

/-! ## One basis function -/

/-- **C113.** For a clamped knot vector, `one_basis_function` in rounded
arithmetic divides by nothing that is zero, is zero exactly where the exact value is zero, and differs
from the exact value by a factor of at most `(1 / ρ) ^ (5 * degree)`. -/
theorem one_basis_function_rounded {ρ : K} {fl : K → K} (hf : Accurate ρ fl) {p n : ℕ} {U : List K}
    (hU : Clamped p n U) {i : ℕ} (hi : i < n) (u : K) :
    ∃ x x', oneBasisFunction p U i u = .ok x ∧ oneBasisFunctionFl fl p U i u = .ok x' ∧
      0 ≤ x' ∧ (x' = 0 ↔ x = 0) ∧ x * ρ ^ (5 * p) ≤ x' ∧ x' * ρ ^ (5 * p) ≤ x ∧
      |x' - x| ≤ ((1 / ρ) ^ (5 * p) - 1) * x := by
  have hlen := hU.len
  have hV := monotone_knotFn hU.mono
  obtain ⟨x', e, h⟩ := oneBasisFunctionFl_near hf hV u (p := p) (i := i) (by omega)
  have e' := oneBasisFunction_spec hV u (p := p) (i := i) (by omega)
  exact ⟨_, x', e', e, h.nonneg hf.pos, h.zero_iff hf.pos, h.2.1, h.2.2, h.abs_sub_le hf.pos hf.le_one⟩

/-! ## The matrices -/

/-- **C113.** The matrix of `single_fit_curve` in rounded arithmetic: every entry is the exact value up
to `5 * degree` roundings. -/
theorem curve_matrix_rounded {ρ : K} {fl : K → K} (hf : Accurate ρ fl) {c : Curve K}
    {data : List (List K)} {m n : ℕ} (hU : Clamped c.degree n c.kv)
    (hfirst : knotFn c.kv c.degree < knotFn c.kv (c.degree + 1))
    (hn : c.ctrlpts.length = n) (hd : Shape data m 4) :
    ∃ M, curveMatrixFl fl c data = .ok M ∧ Shape M m n ∧ ∀ r < m, ∀ i < n,
      Near ρ (5 * c.degree) (at2 M r i 0) (Nclosed (knotFn c.kv) c.degree n i (at2 data r 3 0)) := by
  have h : ∀ r i, ∃ x, i < n → oneBasisFunctionFl fl c.degree c.kv i (at2 data r 3 0) = .ok x ∧
      Near ρ (5 * c.degree) x (Nclosed (knotFn c.kv) c.degree n i (at2 data r 3 0)) := by
    intro r i
    by_cases hi : i < n
    · obtain ⟨x, hx⟩ := oneBasisFunctionFl_closed hf hU hfirst hi (at2 data r 3 0)
      exact ⟨x, fun _ => hx⟩
    · exact ⟨0, fun h => absurd h hi⟩
  choose B hB using h
  obtain ⟨M, hM, hs, hv⟩ := curveMatrixFl_spec B hd hn fun r _ i hi => (hB r i hi).1
  exact ⟨M, hM, hs, fun r hr i hi => by rw [hv r hr i hi]; exact (hB r i hi).2⟩

/-- **C113.** The matrix of `single_fit_surface` in rounded arithmetic. -/
theorem surface_matrix_rounded {ρ : K} {fl : K → K} (hf : Accurate ρ fl) {s : Surface K}
    {data : List (List K)} {m : ℕ} (hs : ClampedSurface s)
    (hu : knotFn s.kvU s.degreeU < knotFn s.kvU (s.degreeU + 1))
    (hv : knotFn s.kvV s.degreeV < knotFn s.kvV (s.degreeV + 1)) (hd : Shape data m 5) :
    ∃ M, surfaceMatrixFl fl s data = .ok M ∧ Shape M m (s.numU * s.numV) ∧
      ∀ r < m, ∀ i < s.numU, ∀ j < s.numV,
        Near ρ (5 * s.degreeU + 5 * s.degreeV + 1) (at2 M r (i * s.numV + j) 0)
          (Nclosed (knotFn s.kvU) s.degreeU s.numU i (at2 data r 3 0) *
            Nclosed (knotFn s.kvV) s.degreeV s.numV j (at2 data r 4 0)) := by
  have hA : ∀ r i, ∃ x, i < s.numU →
      oneBasisFunctionFl fl s.degreeU s.kvU i (at2 data r 3 0) = .ok x ∧
      Near ρ (5 * s.degreeU) x (Nclosed (knotFn s.kvU) s.degreeU s.numU i (at2 data r 3 0)) := by
    intro r i
    by_cases hi : i < s.numU
    · obtain ⟨x, hx⟩ := oneBasisFunctionFl_closed hf hs.cu hu hi (at2 data r 3 0)
      exact ⟨x, fun _ => hx⟩
    · exact ⟨0, fun h => absurd h hi⟩
  have hB : ∀ r i, ∃ x, i < s.numV →
      oneBasisFunctionFl fl s.degreeV s.kvV i (at2 data r 4 0) = .ok x ∧
      Near ρ (5 * s.degreeV) x (Nclosed (knotFn s.kvV) s.degreeV s.numV i (at2 data r 4 0)) := by
    intro r i
    by_cases hi : i < s.numV
    · obtain ⟨x, hx⟩ := oneBasisFunctionFl_closed hf hs.cv hv hi (at2 data r 4 0)
      exact ⟨x, fun _ => hx⟩
    · exact ⟨0, fun h => absurd h hi⟩
  choose A hA using hA
  choose B hB using hB
  obtain ⟨M, hM, hMs, hMv⟩ := surfaceMatrixFl_spec A B hd hs.shape.1
    (fun r _ i hi => (hA r i hi).1) (fun r _ i hi => (hB r i hi).1)
  refine ⟨M, hM, hMs, fun r hr i hi j hj => ?_⟩
  rw [hMv r hr i hi j hj]
  exact ((hA r i hi).2.mul hf.pos (hB r j hj).2).fl hf

end

/-! ## The check in double precision -/

/-- **C113** in double precision: with all parameters in the domain, the matrix of `single_fit_curve` is
accurate and the partition-of-unity check passes, in whatever order `np.sum` adds, for up to `10 ^ 10`
data points. -/
theorem single_fit_curve_unity_double {c : Curve ℚ} {data : List (List ℚ)} {m n : ℕ}
    (hU : Clamped c.degree n c.kv) (hfirst : knotFn c.kv c.degree < knotFn c.kv (c.degree + 1))
    (hn : c.ctrlpts.length = n) (hd : Shape data m 4)
    (hdom : ∀ r < m, knotFn c.kv c.degree ≤ at2 data r 3 0 ∧ at2 data r 3 0 ≤ knotFn c.kv n)
    (hsize : 5 * c.degree + n + m ≤ 10 ^ 10) :
    ∃ M, curveMatrixFl fl64 c data = .ok M ∧ (∃ r, CheckUnityFl fl64 M data.length r) ∧
      ∀ r, CheckUnityFl fl64 M data.length r → r = .ok () := by
  obtain ⟨M, hM, hs, hv⟩ := curve_matrix_rounded accurate_fl64 hU hfirst hn hd
  refine ⟨M, hM, CheckUnityFl.exists _ _ _, ?_⟩
  rintro _ ⟨unity, total, h1, h2, rfl⟩
  have := checkUnityFl_near accurate_fl64 hs hv h1 h2
  rw [sum_congr rfl fun r hr => sum_Nclosed hU (hdom r (mem_range.1 hr)).1 (hdom r (mem_range.1 hr)).2,
    sum_const, card_range, nsmul_one] at this
  rw [hd.1, isclose_of_near hsize this]
  rfl

/-- **C113** in double precision: parameters outside the domain are reported as long as there is at least
one for every `99000` data points. -/
theorem single_fit_curve_outside_double {c : Curve ℚ} {data : List (List ℚ)} {m n : ℕ}
    (hU : Clamped c.degree n c.kv) (hfirst : knotFn c.kv c.degree < knotFn c.kv (c.degree + 1))
    (hn : c.ctrlpts.length = n) (hd : Shape data m 4) (out : Finset ℕ)
    (hout : out = (range m).filter fun r => at2 data r 3 0 < knotFn c.kv 0 ∨
      knotFn c.kv (n + c.degree) < at2 data r 3 0)
    (hsize : 5 * c.degree + n + m ≤ 10 ^ 8) (h1 : 1 ≤ out.card) (h2 : m ≤ 99000 * out.card) :
    ∃ M, curveMatrixFl fl64 c data = .ok M ∧ (∃ r, CheckUnityFl fl64 M data.length r) ∧
      ∀ r, CheckUnityFl fl64 M data.length r → r = .error .valueError := by
  obtain ⟨M, hM, hs, hv⟩ := curve_matrix_rounded accurate_fl64 hU hfirst hn hd
  refine ⟨M, hM, CheckUnityFl.exists _ _ _, ?_⟩
  rintro _ ⟨unity, total, h3, h4, rfl⟩
  have := checkUnityFl_near accurate_fl64 hs hv h3 h4
  rw [sum_congr rfl fun r _ => sum_Nclosed_ite hU _, sum_ite_zero_one, ← hout] at this
  have hc : out.card ≤ m := by
    rw [hout]
    exact (card_filter_le _ _).trans_eq (card_range m)
  rw [hd.1, not_isclose_of_near hsize hc h1 h2 this]
  rfl

/-- **C113** for surfaces in double precision: with all parameters in the domain the check passes. -/
theorem single_fit_surface_unity_double {s : Surface ℚ} {data : List (List ℚ)} {m : ℕ}
    (hs : ClampedSurface s)
    (fu : knotFn s.kvU s.degreeU < knotFn s.kvU (s.degreeU + 1))
    (fv : knotFn s.kvV s.degreeV < knotFn s.kvV (s.degreeV + 1)) (hd : Shape data m 5)
    (hu : ∀ r < m, knotFn s.kvU s.degreeU ≤ at2 data r 3 0 ∧ at2 data r 3 0 ≤ knotFn s.kvU s.numU)
    (hv : ∀ r < m, knotFn s.kvV s.degreeV ≤ at2 data r 4 0 ∧ at2 data r 4 0 ≤ knotFn s.kvV s.numV)
    (hsize : 5 * s.degreeU + 5 * s.degreeV + 1 + s.numU * s.numV + m ≤ 10 ^ 10) :
    ∃ M, surfaceMatrixFl fl64 s data = .ok M ∧ (∃ r, CheckUnityFl fl64 M data.length r) ∧
      ∀ r, CheckUnityFl fl64 M data.length r → r = .ok () := by
  obtain ⟨M, hM, hMs, hMv⟩ := surface_matrix_rounded accurate_fl64 hs fu fv hd
  refine ⟨M, hM, CheckUnityFl.exists _ _ _, ?_⟩
  rintro _ ⟨unity, total, h1, h2, rfl⟩
  have hv' : ∀ r < m, ∀ x < s.numU * s.numV,
      Near (1 - 1 / 2 ^ 53) (5 * s.degreeU + 5 * s.degreeV + 1) (at2 M r x 0)
        (Nclosed (knotFn s.kvU) s.degreeU s.numU (x / s.numV) (at2 data r 3 0) *
          Nclosed (knotFn s.kvV) s.degreeV s.numV (x % s.numV) (at2 data r 4 0)) := by
    intro r hr x hx
    have hnv : 0 < s.numV := Nat.pos_of_ne_zero fun h => by simp [h] at hx
    have := hMv r hr (x / s.numV) (by rwa [Nat.div_lt_iff_lt_mul hnv]) (x % s.numV)
      (Nat.mod_lt _ hnv)
    rwa [Nat.div_add_mod'] at this
  have := checkUnityFl_near accurate_fl64 hMs hv' h1 h2
  have hone : ∀ r ∈ range m, ∑ x ∈ range (s.numU * s.numV),
      Nclosed (knotFn s.kvU) s.degreeU s.numU (x / s.numV) (at2 data r 3 0) *
          Nclosed (knotFn s.kvV) s.degreeV s.numV (x % s.numV) (at2 data r 4 0) = (1 : ℚ) := by
    intro r hr
    have hr' := mem_range.1 hr
    rw [sum_Nclosed_grid, sum_Nclosed hs.cu (hu r hr').1 (hu r hr').2, sum_Nclosed hs.cv (hv r hr').1 (hv r hr').2,
      mul_one]
  rw [sum_congr rfl hone, sum_const, card_range, nsmul_one] at this
  rw [hd.1, isclose_of_near (by omega) this]
  rfl

/-- **C113** for surfaces in double precision: data with a parameter outside the domain are reported as long as there
is at least one for every `99000` data points. -/
theorem single_fit_surface_outside_double {s : Surface ℚ} {data : List (List ℚ)} {m : ℕ}
    (hs : ClampedSurface s)
    (fu : knotFn s.kvU s.degreeU < knotFn s.kvU (s.degreeU + 1))
    (fv : knotFn s.kvV s.degreeV < knotFn s.kvV (s.degreeV + 1)) (hd : Shape data m 5) (out : Finset ℕ)
    (hout : out = (range m).filter fun r =>
      (at2 data r 3 0 < knotFn s.kvU 0 ∨ knotFn s.kvU (s.numU + s.degreeU) < at2 data r 3 0) ∨
      (at2 data r 4 0 < knotFn s.kvV 0 ∨ knotFn s.kvV (s.numV + s.degreeV) < at2 data r 4 0))
    (hsize : 5 * s.degreeU + 5 * s.degreeV + 1 + s.numU * s.numV + m ≤ 10 ^ 8) (h1 : 1 ≤ out.card)
    (h2 : m ≤ 99000 * out.card) :
    ∃ M, surfaceMatrixFl fl64 s data = .ok M ∧ (∃ r, CheckUnityFl fl64 M data.length r) ∧
      ∀ r, CheckUnityFl fl64 M data.length r → r = .error .valueError := by
  obtain ⟨M, hM, hMs, hMv⟩ := surface_matrix_rounded accurate_fl64 hs fu fv hd
  refine ⟨M, hM, CheckUnityFl.exists _ _ _, ?_⟩
  rintro _ ⟨unity, total, h3, h4, rfl⟩
  have hv' : ∀ r < m, ∀ x < s.numU * s.numV,
      Near (1 - 1 / 2 ^ 53) (5 * s.degreeU + 5 * s.degreeV + 1) (at2 M r x 0)
        (Nclosed (knotFn s.kvU) s.degreeU s.numU (x / s.numV) (at2 data r 3 0) *
          Nclosed (knotFn s.kvV) s.degreeV s.numV (x % s.numV) (at2 data r 4 0)) := by
    intro r hr x hx
    have hnv : 0 < s.numV := Nat.pos_of_ne_zero fun h => by simp [h] at hx
    have := hMv r hr (x / s.numV) (by rwa [Nat.div_lt_iff_lt_mul hnv]) (x % s.numV)
      (Nat.mod_lt _ hnv)
    rwa [Nat.div_add_mod'] at this
  have := checkUnityFl_near accurate_fl64 hMs hv' h3 h4
  rw [sum_congr rfl fun r _ => (sum_Nclosed_grid s _ _).trans
    (congrArg₂ (· * ·) (sum_Nclosed_ite hs.cu _) (sum_Nclosed_ite hs.cv _))] at this
  have e : ∀ (A B : Prop) [Decidable A] [Decidable B],
      ((if A then (0 : ℚ) else 1) * if B then (0 : ℚ) else 1) = if A ∨ B then 0 else 1 := by
    intro A B _ _
    by_cases hA : A <;> by_cases hB : B <;> simp [hA, hB]
  rw [sum_congr rfl fun r _ => e _ _, sum_ite_zero_one, ← hout] at this
  have hc : out.card ≤ m := by
    rw [hout]
    exact (card_filter_le _ _).trans_eq (card_range m)
  rw [hd.1, not_isclose_of_near hsize hc h1 h2 this]
  rfl

/-- **C113.** The tolerance of the check is needed: for the cubic with one interior knot and the parameter
`1/15` rounded to a double, the row of the matrix added from left to right is not `1`. -/
theorem unity_not_exact :
    ∃ M, curveMatrixFl fl64 ⟨3, [[0, 0, 0], [1, 0, 0], [2, 0, 0], [3, 0, 0], [4, 0, 0]],
        [0, 0, 0, 0, 1 / 2, 1, 1, 1, 1]⟩ [[0, 0, 0, fl64 (1 / 15)]] = .ok M ∧
      ∃ s, SumFl fl64 (M.getD 0 []) s ∧ s ≠ 1 := by
  have key : ∀ l : List ℚ, ∀ x : ℚ, SumFl fl64 (x :: l) (l.foldl (fun a b => fl64 (a + b)) x) := by
    have gen : ∀ l l0 : List ℚ, ∀ x : ℚ, l0 ≠ [] → SumFl fl64 l0 x →
        SumFl fl64 (l0 ++ l) (l.foldl (fun a b => fl64 (a + b)) x) := by
      intro l
      induction l with
      | nil => intro l0 x _ h; simpa using h
      | cons y ys ih =>
        intro l0 x h0 h
        have := ih (l0 ++ [y]) (fl64 (x + y)) (by simp) (.add h0 (by simp) h (.one y))
        simpa using this
    intro l x
    exact gen l [x] x (by simp) (.one x)
  have hM : ∃ M, curveMatrixFl fl64 ⟨3, [[0, 0, 0], [1, 0, 0], [2, 0, 0], [3, 0, 0], [4, 0, 0]],
      [0, 0, 0, 0, 1 / 2, 1, 1, 1, 1]⟩ [[0, 0, 0, fl64 (1 / 15)]] = .ok M ∧
      (M.getD 0 []).headD 0 :: (M.getD 0 []).tail = M.getD 0 [] ∧
      (M.getD 0 []).tail.foldl (fun a b => fl64 (a + b)) ((M.getD 0 []).headD 0) ≠ 1 := by
    refine ⟨[[5863353114863989 / 9007199254740992, 2919666958425673 / 9007199254740992,
      3501465310287461 / 144115188075855872, 5465701947765793 / 9223372036854775808, 0]], ?_, ?_, ?_⟩ <;> decide +kernel
  obtain ⟨M, h1, h2, h3⟩ := hM
  refine ⟨M, h1, _, ?_, h3⟩
  have := key (M.getD 0 []).tail ((M.getD 0 []).headD 0)
  rwa [h2] at this

/-! ## Concrete cases -/

/-- Cubic with five control points; the computed value differs from the exact one. -/
example : ∃ x', oneBasisFunction 3 ([0, 0, 0, 0, 1 / 3, 1, 1, 1, 1] : List ℚ) 1 (1 / 10) = .ok (579 / 1000) ∧
    oneBasisFunctionFl fl64 3 [0, 0, 0, 0, 1 / 3, 1, 1, 1, 1] 1 (1 / 10) = .ok x' ∧ x' ≠ 579 / 1000 ∧
    |x' - 579 / 1000| ≤ 1 / 10 ^ 15 :=
  ⟨1303792092123759 / 2251799813685248, by decide +kernel, by decide +kernel, by decide +kernel,
    by decide +kernel⟩

/-- The check on the curve and the data of `Props/Fitting.lean`. -/
example : ∃ M, curveMatrixFl fl64 exFitCurve exFitData = .ok M ∧ (∃ r, CheckUnityFl fl64 M 3 r) ∧
    ∀ r, CheckUnityFl fl64 M 3 r → r = .ok () :=
  single_fit_curve_unity_double exFitCurve_clamped (by decide +kernel) rfl
    (m := 3) ⟨rfl, by decide +kernel⟩ (by intro r hr; interval_cases r <;> decide +kernel) (by decide)

/-- One parameter of three outside. -/
example : ∃ M, curveMatrixFl fl64 exFitCurve [[0, 0, 0, 1 / 2], [0, 0, 0, 2], [0, 0, 0, 1]] = .ok M ∧
    (∃ r, CheckUnityFl fl64 M 3 r) ∧ ∀ r, CheckUnityFl fl64 M 3 r → r = .error .valueError :=
  single_fit_curve_outside_double exFitCurve_clamped (by decide +kernel) rfl
    (m := 3) ⟨rfl, by decide +kernel⟩ {1} (by decide +kernel) (by decide) (by decide) (by decide)

/-- A surface. -/
example : ∃ M, surfaceMatrixFl fl64 exS [[0, 0, 0, 1 / 10, 1], [0, 0, 0, 7 / 10, 1 / 3]] = .ok M ∧
    (∃ r, CheckUnityFl fl64 M 2 r) ∧ ∀ r, CheckUnityFl fl64 M 2 r → r = .ok () :=
  single_fit_surface_unity_double exS_clamped (by decide +kernel) (by decide +kernel)
    (m := 2) ⟨rfl, by decide +kernel⟩ (by intro r hr; interval_cases r <;> decide +kernel)
    (by intro r hr; interval_cases r <;> decide +kernel) (by decide)

/-- One of two pairs outside in the second direction only. -/
example : ∃ M, surfaceMatrixFl fl64 exS [[0, 0, 0, 1 / 10, 1], [0, 0, 0, 7 / 10, -1]] = .ok M ∧
    (∃ r, CheckUnityFl fl64 M 2 r) ∧ ∀ r, CheckUnityFl fl64 M 2 r → r = .error .valueError :=
  single_fit_surface_outside_double exS_clamped (by decide +kernel) (by decide +kernel)
    (m := 2) ⟨rfl, by decide +kernel⟩ {1} (by decide +kernel) (by decide) (by decide) (by decide)

end PySpline
