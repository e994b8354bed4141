import Verif.Lemmas.IeeeFitAux
import Verif.Props.Ieee
import Verif.Props.IeeeInsertion
import Verif.Props.FitDouble

/-!
# C169: the matrix of the fits in IEEE arithmetic with overflow and underflow
-/

set_option linter.unusedSectionVars false
set_option exponentiation.threshold 1100

namespace PySpline

open Spec Ext Finset

section
variable {K : Type} [Field K] [LinearOrder K]

/-! ## Agreement with the models without rounding and without overflow -/

/-- **C169.** Without rounding `one_basis_function` is the function over the extended numbers; without
overflow it is the one in rounded arithmetic, unless that divides by zero. -/
theorem one_basis_function_ieee_agrees (p : ℕ) (i : ℕ) :
    (∀ (U : List (Ext K)) (u : Ext K), oneBasisFunctionR fin p U i u = oneBasisFunctionE p U i u) ∧
    ∀ (fl : K → K) (U : List K) (u : K), oneBasisFunctionFl fl p U i u = .error .nonfinite ∨
      oneBasisFunctionR (fun x => fin (fl x)) p (U.map fin) i (fin u) = (oneBasisFunctionFl fl p U i u).map fin := by
  constructor
  · intro U u
    unfold oneBasisFunctionR oneBasisFunctionE
    simp only [rnd_fin, divE, ok_bind]
  · intro fl U u
    refine Follows.iff ?_
    unfold oneBasisFunctionFl oneBasisFunctionR
    rw [List.length_map, replicate_zero]
    refine Follows.bind (Follows.get _ _) fun first => ?_
    refine Follows.bind (Follows.get _ _) fun last => ?_
    refine Follows.ite (by rw [eqv_lift, eqv_lift]) (Follows.ok rfl) ?_
    refine Follows.bind (Follows.get _ _) fun lo => ?_
    refine Follows.ite (lt_lift _ _).symm (Follows.ok rfl) ?_
    refine Follows.bind (Follows.get _ _) fun hi => ?_
    refine Follows.ite (lt_lift _ _).symm (Follows.ok rfl) ?_
    dsimp only
    refine Follows.bind (Follows.forN rfl fun j N => ?_) fun N => ?_
    · refine Follows.bind (Follows.get _ _) fun a => ?_
      refine Follows.bind (Follows.get _ _) fun b => ?_
      exact Follows.ite (by rw [le_lift, lt_lift]) (Follows.set _ _ rfl) (Follows.ok rfl)
    refine Follows.bind (Follows.forN rfl fun k N => ?_) fun N => Follows.get _ _
    refine Follows.bind (Follows.get _ _) fun n0 => ?_
    refine Follows.bind (f := fin) (Follows.ite (not_congr (eqv_lift _ _).symm) ?_ (Follows.ok rfl)) ?_
    · refine Follows.bind (Follows.get _ _) fun a => ?_
      refine Follows.bind (Follows.get _ _) fun b => ?_
      exact Follows.divFl fl _ _
    intro saved
    refine Follows.bind (f := Prod.map lift1 fin) (Follows.forN rfl ?_) ?_
    · rintro j ⟨N, saved⟩
      dsimp only [Prod.map]
      refine Follows.bind (Follows.get _ _) fun ul => ?_
      refine Follows.bind (Follows.get _ _) fun ur => ?_
      refine Follows.bind (Follows.get _ _) fun nj => ?_
      refine Follows.ite (eqv_lift _ _).symm ?_ ?_
      · exact Follows.bind (Follows.set _ _ rfl) fun N => Follows.ok rfl
      · have := Follows.bind (Follows.divFl fl nj (fl (ur - ul))) (g := Prod.map lift1 fin)
          (k := fun t => do
            let N ← pySet N j (fl (saved + fl (fl (ur - u) * t)))
            .ok (N, fl (fl (u - ul) * t)))
          (k' := fun t => do
            let N ← pySet (lift1 N) j (rnd (fun x => fin (fl x)) (fin saved + rnd (fun x => fin (fl x))
              (rnd (fun x => fin (fl x)) (fin ur - fin u) * t)))
            .ok (N, rnd (fun x => fin (fl x)) (rnd (fun x => fin (fl x)) (fin u - fin ul) * t))) (fun t =>
            Follows.bind (Follows.set _ _ rfl) fun N => Follows.ok rfl)
        rw [ok_bind] at this
        exact this
    rintro ⟨N, saved⟩
    exact Follows.ok rfl

variable [IsStrictOrderedRing K]

/-! ## One basis function -/

/-- **C169.** Let the knots and the parameter be stored numbers, different knots at least `δ` apart and
those in use at most `H` apart, neither so small nor so large that a quotient or a product could come near
the overflow threshold `M`.  Then `one_basis_function` in IEEE arithmetic returns a number (no infinity, no
NaN) that is not negative, that is zero wherever the exact value is, and that differs from the exact value
`x` by at most `((1/ρ)^(5p) - 1) x` plus `(1/ρ)^(5p) (4^p - 1) (2H + 2/δ + 1) η`, the share of underflow. -/
theorem one_basis_function_ieee {ρ η M δ H : K} {rd : K → Ext K} (hr : IeeeRounding ρ η M rd) {p n : ℕ} {U : List K}
    (hU : Clamped p n U) {i : ℕ} (hi : i < n) {u : K} (hrep : ∀ x ∈ U, rd x = fin x) (hu : rd u = fin u)
    (h0 : 0 < δ) (hδ : ∀ x ∈ U, ∀ y ∈ U, x < y → δ ≤ y - x)
    (hH : knotFn U (i + p + 1) - knotFn U i ≤ H) (hδH : δ ≤ H) (hM : 8 ≤ M) (hMδ : 8 ≤ M * δ) (hMH : 4 * H ≤ M)
    (hE : 4 ^ p * ((2 * H + 2 / δ + 1) * η) ≤ 1) (hρ : 1 ≤ 2 * ρ ^ (5 * p)) :
    ∃ x x' : K, oneBasisFunction p U i u = .ok x ∧ oneBasisFunctionR rd p (U.map fin) i (fin u) = .ok (fin x') ∧
      0 ≤ x' ∧ (x = 0 → x' = 0) ∧
      |x' - x| ≤ ((1 / ρ) ^ (5 * p) - 1) * x + (1 / ρ) ^ (5 * p) * ((4 ^ p - 1) * ((2 * H + 2 / δ + 1) * η)) := by
  have hlen := hU.len
  have hV := monotone_knotFn hU.mono
  obtain ⟨e, he, h1, h2⟩ := oneBasisFunctionR_near hr hV (p := p) (i := i) (by omega)
    ⟨h0, hδH, hM, hMδ, hMH, hE, hρ⟩ hrep hu hδ hH
  obtain ⟨x', rfl, -, h3, h4⟩ := h1.abs_sub_le hr
  refine ⟨_, x', oneBasisFunction_spec hV u (p := p) (i := i) (by omega), he, h3, fun h => ?_, h4⟩
  have := h2 h
  cases this
  rfl

end

/-! ## Double precision -/

theorem two_pow_1000_mul : (2 : ℚ) ^ 1000 * (1 / 2 ^ 1075) = 1 / 2 ^ 75 := by
  rw [show (1075 : ℕ) = 1000 + 75 from rfl, pow_add]
  have : (2 : ℚ) ^ 1000 ≠ 0 := (pow_pos (by norm_num) _).ne'
  field_simp

/-- The sizes for double precision. -/
theorem oneSizes_binary64 {p : ℕ} (hp : p ≤ 10) :
    OneSizes (1 - 1 / 2 ^ 53 : ℚ) (1 / 2 ^ 1075) (2 ^ 1023) (1 / 2 ^ 1000) (2 ^ 1000) p ∧
      ((4 : ℚ) ^ p - 1) * ((2 * 2 ^ 1000 + 2 / (1 / 2 ^ 1000) + 1) * (1 / 2 ^ 1075)) ≤ 5 / 2 ^ 55 ∧
      0 ≤ ((4 : ℚ) ^ p - 1) * ((2 * 2 ^ 1000 + 2 / (1 / 2 ^ 1000) + 1) * (1 / 2 ^ 1075)) := by
  have hB : (1 : ℚ) ≤ 2 ^ 1000 := one_le_pow₀ (by norm_num)
  have h4 : (4 : ℚ) ^ p ≤ 2 ^ 20 := (pow_le_pow_right₀ (by norm_num) hp).trans (by norm_num)
  have h4' : (1 : ℚ) ≤ 4 ^ p := one_le_pow₀ (by norm_num)
  have hη0 : (0 : ℚ) < 1 / 2 ^ 1075 := one_div_pos.2 (pow_pos (by norm_num) _)
  have e : (2 : ℚ) / (1 / 2 ^ 1000) = 2 * 2 ^ 1000 := by rw [div_div_eq_mul_div, div_one]
  have hc0 : (0 : ℚ) ≤ (2 * 2 ^ 1000 + 2 / (1 / 2 ^ 1000) + 1) * (1 / 2 ^ 1075) := by
    rw [e]; exact mul_nonneg (by linarith) hη0.le
  have hc : ((2 : ℚ) * 2 ^ 1000 + 2 / (1 / 2 ^ 1000) + 1) * (1 / 2 ^ 1075) ≤ 5 / 2 ^ 75 := by
    rw [e]
    calc ((2 : ℚ) * 2 ^ 1000 + 2 * 2 ^ 1000 + 1) * (1 / 2 ^ 1075) ≤ (5 * 2 ^ 1000) * (1 / 2 ^ 1075) :=
          mul_le_mul_of_nonneg_right (by linarith) hη0.le
      _ = 5 * (2 ^ 1000 * (1 / 2 ^ 1075)) := by ring
      _ = 5 / 2 ^ 75 := by rw [two_pow_1000_mul]; ring
  have hsm : (0 : ℚ) < 1 / 2 ^ 1000 := one_div_pos.2 (pow_pos (by norm_num) _)
  refine ⟨⟨hsm, ?_, ?_, ?_, ?_, ?_, pow_rho _ (by omega)⟩, ?_, mul_nonneg (by linarith) hc0⟩
  · exact le_trans (by rw [div_le_one (by linarith)]; exact hB) hB
  · rw [two_pow_1023]; linarith
  · rw [two_pow_1023]
    calc (8 : ℚ) ≤ 2 ^ 23 * 1 := by norm_num
      _ = 2 ^ 23 * (2 ^ 1000 * (1 / 2 ^ 1000)) := by rw [mul_one_div_cancel (by positivity)]
      _ = _ := by ring
  · rw [two_pow_1023]; linarith
  · refine (mul_le_mul h4 hc hc0 (by norm_num)).trans ?_
    norm_num
  · refine (mul_le_mul (show (4 : ℚ) ^ p - 1 ≤ 2 ^ 20 by linarith) hc hc0 (by norm_num)).trans ?_
    norm_num

/-- **C169** in double precision with gradual underflow and overflow, for degrees up to 10: if the knots
and the parameter are doubles, different knots differ by at least `δ ≥ 2^-1000`, and those in use lie within
a distance `H` of at most `2^1000`, then `one_basis_function` returns a non-negative number that agrees with
the exact value `x` up to `1e-14 x + (2H + 2/δ + 1) 2^-1050`, and is zero wherever `x` is. -/
theorem one_basis_function_binary64 {p n : ℕ} {U : List ℚ} (hU : Clamped p n U) (hp10 : p ≤ 10) {i : ℕ} (hi : i < n)
    {u δ H : ℚ} (hrep : ∀ x ∈ U, bin64 x = fin x) (hu : bin64 u = fin u) (h0 : 1 / 2 ^ 1000 ≤ δ)
    (hδ : ∀ x ∈ U, ∀ y ∈ U, x < y → δ ≤ y - x) (hH : knotFn U (i + p + 1) - knotFn U i ≤ H) (hδH : δ ≤ H)
    (hHM : H ≤ 2 ^ 1000) :
    ∃ x x' : ℚ, oneBasisFunction p U i u = .ok x ∧ oneBasisFunctionR bin64 p (U.map fin) i (fin u) = .ok (fin x') ∧
      0 ≤ x' ∧ (x = 0 → x' = 0) ∧ |x' - x| ≤ 1 / 10 ^ 14 * x + (2 * H + 2 / δ + 1) * (1 / 2 ^ 1050) := by
  have hsm : (0 : ℚ) < 1 / 2 ^ 1000 := one_div_pos.2 (pow_pos (by norm_num) _)
  have hB : (1 : ℚ) ≤ 2 ^ 1000 := one_le_pow₀ (by norm_num)
  have hd0 : 0 < δ := hsm.trans_le h0
  have hH0 : 0 < H := hd0.trans_le hδH
  have hη0 : (0 : ℚ) < 1 / 2 ^ 1075 := one_div_pos.2 (pow_pos (by norm_num) _)
  have hQ0 : (0 : ℚ) < 1 / 2 ^ 1050 := one_div_pos.2 (pow_pos (by norm_num) _)
  have h4 : (4 : ℚ) ^ p ≤ 2 ^ 20 := (pow_le_pow_right₀ (by norm_num) hp10).trans (by norm_num)
  have h4' : (1 : ℚ) ≤ 4 ^ p := one_le_pow₀ (by norm_num)
  obtain ⟨hs, -, -⟩ := oneSizes_binary64 hp10
  have h2δ : 2 / δ ≤ 2 / (1 / 2 ^ 1000) := div_le_div_of_nonneg_left (by norm_num) hsm h0
  have h2δ0 : 0 < 2 / δ := div_pos (by norm_num) hd0
  have hc0 : 0 ≤ 2 * H + 2 / δ + 1 := by linarith
  obtain ⟨x, x', e1, e2, e3, e4, e5⟩ := one_basis_function_ieee ieeeRounding_bin64 hU hi hrep hu hd0 hδ hH hδH hs.M8
    (hs.Mδ.trans (mul_le_mul_of_nonneg_left h0 (by positivity))) (le_trans (by linarith) hs.MH)
    (le_trans (mul_le_mul_of_nonneg_left (mul_le_mul_of_nonneg_right (by linarith) hη0.le) (by linarith)) hs.small)
    hs.rho
  have hx0 : 0 ≤ x := by
    have := oneBasisFunction_spec (monotone_knotFn hU.mono) u (p := p) (i := i) (by have := hU.len; omega)
    rw [this] at e1
    cases e1
    split
    · exact zero_le_one
    · exact N_nonneg (monotone_knotFn hU.mono) _ _ _
  refine ⟨x, x', e1, e2, e3, e4, e5.trans (add_le_add (mul_le_mul_of_nonneg_right (pow_error _ (by omega)) hx0) ?_)⟩
  have hg := pow_error (5 * p) (by omega)
  have hg1 : 1 ≤ (1 / (1 - 1 / 2 ^ 53 : ℚ)) ^ (5 * p) := one_le_pow₀ (by norm_num)
  rw [two_pow_1075]
  calc (1 / (1 - 1 / 2 ^ 53 : ℚ)) ^ (5 * p) * ((4 ^ p - 1) * ((2 * H + 2 / δ + 1) * (1 / 2 ^ 1050 * (1 / 2 ^ 25))))
      = (1 / (1 - 1 / 2 ^ 53 : ℚ)) ^ (5 * p) * ((4 ^ p - 1) * (1 / 2 ^ 25)) * ((2 * H + 2 / δ + 1) * (1 / 2 ^ 1050)) := by
        ring
    _ ≤ 1 * ((2 * H + 2 / δ + 1) * (1 / 2 ^ 1050)) := by
        refine mul_le_mul_of_nonneg_right ?_ (mul_nonneg hc0 hQ0.le)
        calc _ ≤ (2 : ℚ) * (1 / 2) := mul_le_mul (by linarith) (by linarith) (by
                exact mul_nonneg (by linarith) (by norm_num)) (by norm_num)
          _ = 1 := by norm_num
    _ = _ := one_mul _

/-- One entry of the matrix. -/
theorem one_basis_entry_binary64 {p n : ℕ} {U : List ℚ} (hU : Clamped p n U) (hp10 : p ≤ 10)
    (hfirst : knotFn U p < knotFn U (p + 1)) {u : ℚ} (hrep : ∀ x ∈ U, bin64 x = fin x) (hu : bin64 u = fin u)
    (hδ : ∀ x ∈ U, ∀ y ∈ U, x < y → 1 / 2 ^ 1000 ≤ y - x) (hH : knotFn U (n + p) - knotFn U 0 ≤ 2 ^ 1000)
    {i : ℕ} (hi : i < n) :
    ∃ e, oneBasisFunctionR bin64 p (lift1 U) i (fin u) = .ok e ∧
      IsNear bin64 (1 - 1 / 2 ^ 53) (5 * p) (5 / 2 ^ 55) e (Nclosed (knotFn U) p n i u) := by
  have hlen := hU.len
  have hV := monotone_knotFn hU.mono
  obtain ⟨hs, hsm, -⟩ := oneSizes_binary64 hp10
  obtain ⟨e, he, h1, -⟩ := oneBasisFunctionR_near ieeeRounding_bin64 hV (p := p) (i := i) (u := u) (by omega) hs hrep hu
    hδ (by
      have a1 : knotFn U (i + p + 1) ≤ knotFn U (n + p) := hV (by omega)
      have a2 : knotFn U 0 ≤ knotFn U i := hV (by omega)
      linarith)
  refine ⟨e, he, ?_⟩
  have e' := oneBasisFunction_spec hV u (p := p) (i := i) (by omega)
  rw [one_basis_function_cox_de_boor hU hfirst hi] at e'
  rw [Except.ok.inj e']
  exact h1.mono ieeeRounding_bin64 le_rfl hsm

/-- From the sum of all entries to the test. -/
theorem unity_binary64 {A : List (List (Ext ℚ))} {m n k : ℕ} (hA : Shape A m n) {B : ℕ → ℕ → ℚ}
    (hB : ∀ r < m, ∀ i < n, IsNear bin64 (1 - 1 / 2 ^ 53) k (51 / 2 ^ 55) (at2 A r i 0) (B r i))
    (hsum : ∀ r < m, ∑ i ∈ range n, B r i = 1) (hsize : k + n + m ≤ 10 ^ 8) (r : Py Unit)
    (h : CheckUnityR bin64 A m r) : r = .ok () := by
  obtain ⟨unity, total, h1, h2, rfl⟩ := h
  have hn : (n : ℚ) ≤ 10 ^ 8 := by exact_mod_cast (show n ≤ 10 ^ 8 by omega)
  have hm : (m : ℚ) ≤ 10 ^ 8 := by exact_mod_cast (show m ≤ 10 ^ 8 by omega)
  have hn0 : (0 : ℚ) ≤ n := Nat.cast_nonneg n
  have hm0 : (0 : ℚ) ≤ m := Nat.cast_nonneg m
  have hnE : (n : ℚ) * (51 / 2 ^ 55) ≤ 1 / (6 * 10 ^ 6) :=
    (mul_le_mul_of_nonneg_right hn (by norm_num)).trans (by norm_num)
  have hnE0 : 0 ≤ (n : ℚ) * (51 / 2 ^ 55) := mul_nonneg hn0 (by norm_num)
  have hp := pow_error_large (k + n + m) (hsize.trans (by norm_num))
  have key := checkUnityR_near ieeeRounding_bin64 (E := 51 / 2 ^ 55) (by norm_num) hA hB hsum (by
      have hbig : (10 : ℚ) ^ 12 ≤ 2 ^ 1023 :=
        le_trans (by norm_num) (pow_le_pow_right₀ (by norm_num) (show 40 ≤ 1023 by norm_num))
      refine le_trans ?_ hbig
      have : 2 * ((m : ℚ) + 1) * (1 + n * (51 / 2 ^ 55)) ≤ 2 * (10 ^ 8 + 1) * 2 :=
        mul_le_mul (by linarith) (by linarith) (by linarith) (by norm_num)
      refine this.trans (by norm_num)) (by linarith) h1 h2
  obtain ⟨hE, t, rfl, -, t2, -, t4, t5⟩ := key
  have hmE : (m : ℚ) * (n * (51 / 2 ^ 55)) ≤ m * (1 / (6 * 10 ^ 6)) := mul_le_mul_of_nonneg_left hnE hm0
  have b1 := mul_le_mul_of_nonneg_left hp hm0
  have b2 := mul_le_mul_of_nonneg_left hp t2
  rw [isclose_total (by omega) (by
    rw [abs_le]
    constructor <;> linarith)]
  rfl

/-- **C169** in double precision with gradual underflow and overflow: if the knots and the parameters are
doubles, different knots differ by at least `2^-1000` and by at most `2^1000`, and the parameters are in the
domain, then the matrix of `single_fit_curve` consists of non-negative numbers that agree with the values
`x` of the basis functions up to `1e-14 x + 1e-15`, and the partition-of-unity check passes, in whatever
order `np.sum` adds. -/
theorem single_fit_curve_unity_binary64 {c : Curve ℚ} {data : List (List ℚ)} {m n : ℕ}
    (hU : Clamped c.degree n c.kv) (hp10 : c.degree ≤ 10)
    (hfirst : knotFn c.kv c.degree < knotFn c.kv (c.degree + 1))
    (hn : c.ctrlpts.length = n) (hd : Shape data m 4) (hrep : ∀ x ∈ c.kv, bin64 x = fin x)
    (hdata : ∀ r < m, bin64 (at2 data r 3 0) = fin (at2 data r 3 0))
    (hδ : ∀ x ∈ c.kv, ∀ y ∈ c.kv, x < y → 1 / 2 ^ 1000 ≤ y - x)
    (hH : knotFn c.kv (n + c.degree) - knotFn c.kv 0 ≤ 2 ^ 1000)
    (hdom : ∀ r < m, knotFn c.kv c.degree ≤ at2 data r 3 0 ∧ at2 data r 3 0 ≤ knotFn c.kv n)
    (hsize : 5 * c.degree + n + m ≤ 10 ^ 8) :
    ∃ A : List (List ℚ), curveMatrixR bin64 c.lift (lift2 data) = .ok (lift2 A) ∧ Shape A m n ∧
      (∀ r < m, ∀ i < n, 0 ≤ at2 A r i 0 ∧
        |at2 A r i 0 - Nclosed (knotFn c.kv) c.degree n i (at2 data r 3 0)|
          ≤ 1 / 10 ^ 14 * Nclosed (knotFn c.kv) c.degree n i (at2 data r 3 0) + 1 / 10 ^ 15) ∧
      (∃ r, CheckUnityR bin64 (lift2 A) data.length r) ∧
      ∀ r, CheckUnityR bin64 (lift2 A) data.length r → r = .ok () := by
  have hd4 : ∀ r, at2 (lift2 data) r 3 0 = fin (at2 data r 3 0) := fun r => at2_lift2 data r 3
  have h : ∀ r i, ∃ e, r < m → i < n → oneBasisFunctionR bin64 c.degree (lift1 c.kv) i (fin (at2 data r 3 0)) = .ok e ∧
      IsNear bin64 (1 - 1 / 2 ^ 53) (5 * c.degree) (5 / 2 ^ 55) e
        (Nclosed (knotFn c.kv) c.degree n i (at2 data r 3 0)) := by
    intro r i
    by_cases hi : r < m ∧ i < n
    · obtain ⟨x, hx⟩ := one_basis_entry_binary64 hU hp10 hfirst hrep (hdata r hi.1) hδ hH hi.2
      exact ⟨x, fun _ _ => hx⟩
    · exact ⟨0, fun h1 h2 => absurd ⟨h1, h2⟩ hi⟩
  choose B hB using h
  obtain ⟨L, hL, hs, hv⟩ := curveMatrixR_spec (rd := bin64) (c := c.lift) B (shape_lift2 hd) (n := n)
    (by show (lift2 c.ctrlpts).length = n; rw [List.length_map]; exact hn)
    (fun r hr i hi => by rw [hd4]; exact (hB r i hr hi).1)
  have hnear : ∀ r < m, ∀ i < n, IsNear bin64 (1 - 1 / 2 ^ 53) (5 * c.degree) (5 / 2 ^ 55) (at2 L r i 0)
      (Nclosed (knotFn c.kv) c.degree n i (at2 data r 3 0)) := fun r hr i hi => by
    rw [hv r hr i hi]; exact (hB r i hr hi).2
  have hsA : Shape (L.map (List.map Ext.val)) m n := by
    refine ⟨by rw [List.length_map]; exact hs.1, ?_⟩
    intro row hrow
    obtain ⟨l, hl, rfl⟩ := List.mem_map.1 hrow
    rw [List.length_map]
    exact hs.2 l hl
  have hval : ∀ r < m, ∀ i < n, at2 (L.map (List.map Ext.val)) r i 0 = (at2 L r i 0).val := by
    intro r hr i hi
    have h1 : r < L.length := by rw [hs.1]; exact hr
    have h2 : i < (L[r]).length := by rw [hs.2 _ (List.getElem_mem h1)]; exact hi
    simp [at2, List.getD_eq_getElem?_getD, h1, h2]
  have hLA : lift2 (L.map (List.map Ext.val)) = L := by
    refine shape_ext (shape_lift2 hsA) hs 0 fun r hr i hi => ?_
    rw [at2_lift2]
    show fin (at2 _ r i 0) = _
    rw [hval r hr i hi]
    obtain ⟨-, a, ha, -⟩ := hnear r hr i hi
    rw [ha]
    rfl
  have hg := pow_error (5 * c.degree) (by omega)
  refine ⟨L.map (List.map Ext.val), by rw [hLA]; exact hL, hsA, fun r hr i hi => ?_, CheckUnityR.exists _ _ _, ?_⟩
  · rw [hval r hr i hi]
    obtain ⟨a, ha, -, h3, h4⟩ := (hnear r hr i hi).abs_sub_le ieeeRounding_bin64
    rw [ha]
    refine ⟨h3, h4.trans (add_le_add (mul_le_mul_of_nonneg_right hg ?_) ?_)⟩
    · exact Nclosed_nonneg (monotone_knotFn hU.mono) _ _ _ _
    · refine (mul_le_mul_of_nonneg_right (show _ ≤ (2 : ℚ) by linarith) (by norm_num)).trans (by norm_num)
  · intro r hr
    rw [hLA, hd.1] at hr
    exact unity_binary64 hs (fun r hr i hi => (hnear r hr i hi).mono ieeeRounding_bin64 le_rfl (by norm_num))
      (fun r hr => sum_Nclosed hU (hdom r hr).1 (hdom r hr).2) hsize r hr

/-- **C169** for surfaces. -/
theorem single_fit_surface_unity_binary64 {s : Surface ℚ} {data : List (List ℚ)} {m : ℕ}
    (hs : ClampedSurface s) (hpu : s.degreeU ≤ 7) (hpv : s.degreeV ≤ 7)
    (fu : knotFn s.kvU s.degreeU < knotFn s.kvU (s.degreeU + 1))
    (fv : knotFn s.kvV s.degreeV < knotFn s.kvV (s.degreeV + 1)) (hd : Shape data m 5)
    (hru : ∀ x ∈ s.kvU, bin64 x = fin x) (hrv : ∀ x ∈ s.kvV, bin64 x = fin x)
    (hdata : ∀ r < m, bin64 (at2 data r 3 0) = fin (at2 data r 3 0) ∧ bin64 (at2 data r 4 0) = fin (at2 data r 4 0))
    (hδu : ∀ x ∈ s.kvU, ∀ y ∈ s.kvU, x < y → 1 / 2 ^ 1000 ≤ y - x)
    (hδv : ∀ x ∈ s.kvV, ∀ y ∈ s.kvV, x < y → 1 / 2 ^ 1000 ≤ y - x)
    (hHu : knotFn s.kvU (s.numU + s.degreeU) - knotFn s.kvU 0 ≤ 2 ^ 1000)
    (hHv : knotFn s.kvV (s.numV + s.degreeV) - knotFn s.kvV 0 ≤ 2 ^ 1000)
    (hu : ∀ r < m, knotFn s.kvU s.degreeU ≤ at2 data r 3 0 ∧ at2 data r 3 0 ≤ knotFn s.kvU s.numU)
    (hv : ∀ r < m, knotFn s.kvV s.degreeV ≤ at2 data r 4 0 ∧ at2 data r 4 0 ≤ knotFn s.kvV s.numV)
    (hsize : 5 * s.degreeU + 5 * s.degreeV + 1 + s.numU * s.numV + m ≤ 10 ^ 8) :
    ∃ L, surfaceMatrixR bin64 s.lift (lift2 data) = .ok L ∧ Shape L m (s.numU * s.numV) ∧
      (∀ r < m, ∀ i < s.numU, ∀ j < s.numV, ∃ a : ℚ, at2 L r (i * s.numV + j) 0 = fin a ∧ 0 ≤ a ∧
        |a - Nclosed (knotFn s.kvU) s.degreeU s.numU i (at2 data r 3 0) *
            Nclosed (knotFn s.kvV) s.degreeV s.numV j (at2 data r 4 0)|
          ≤ 1 / 10 ^ 14 * (Nclosed (knotFn s.kvU) s.degreeU s.numU i (at2 data r 3 0) *
            Nclosed (knotFn s.kvV) s.degreeV s.numV j (at2 data r 4 0)) + 1 / 10 ^ 14) ∧
      (∃ r, CheckUnityR bin64 L data.length r) ∧ ∀ r, CheckUnityR bin64 L data.length r → r = .ok () := by
  have hVu := monotone_knotFn hs.cu.mono
  have hVv := monotone_knotFn hs.cv.mono
  have hA : ∀ r i, ∃ e, r < m → i < s.numU →
      oneBasisFunctionR bin64 s.degreeU (lift1 s.kvU) i (fin (at2 data r 3 0)) = .ok e ∧
      IsNear bin64 (1 - 1 / 2 ^ 53) (5 * s.degreeU) (5 / 2 ^ 55) e
        (Nclosed (knotFn s.kvU) s.degreeU s.numU i (at2 data r 3 0)) := by
    intro r i
    by_cases hi : r < m ∧ i < s.numU
    · obtain ⟨x, hx⟩ := one_basis_entry_binary64 hs.cu (by omega) fu hru (hdata r hi.1).1 hδu hHu hi.2
      exact ⟨x, fun _ _ => hx⟩
    · exact ⟨0, fun h1 h2 => absurd ⟨h1, h2⟩ hi⟩
  have hB : ∀ r i, ∃ e, r < m → i < s.numV →
      oneBasisFunctionR bin64 s.degreeV (lift1 s.kvV) i (fin (at2 data r 4 0)) = .ok e ∧
      IsNear bin64 (1 - 1 / 2 ^ 53) (5 * s.degreeV) (5 / 2 ^ 55) e
        (Nclosed (knotFn s.kvV) s.degreeV s.numV i (at2 data r 4 0)) := by
    intro r i
    by_cases hi : r < m ∧ i < s.numV
    · obtain ⟨x, hx⟩ := one_basis_entry_binary64 hs.cv (by omega) fv hrv (hdata r hi.1).2 hδv hHv hi.2
      exact ⟨x, fun _ _ => hx⟩
    · exact ⟨0, fun h1 h2 => absurd ⟨h1, h2⟩ hi⟩
  choose A hA using hA
  choose B hB using hB
  obtain ⟨L, hL, hLs, hLv⟩ := surfaceMatrixR_spec (rd := bin64) (s := s.lift) A B (shape_lift2 hd)
    (by show (lift2 s.ctrlpts).length = _; rw [List.length_map]; exact hs.shape.1)
    (fun r hr i hi => by rw [at2_lift2]; exact (hA r i hr hi).1)
    (fun r hr i hi => by rw [at2_lift2]; exact (hB r i hr hi).1)
  have one_le : ∀ {p n : ℕ} {U : List ℚ}, Clamped p n U → ∀ {i : ℕ} {x : ℚ}, i < n → knotFn U p ≤ x → x ≤ knotFn U n →
      Nclosed (knotFn U) p n i x ≤ 1 := by
    intro p n U hU i x hi h1 h2
    rw [← sum_Nclosed hU h1 h2]
    exact single_le_sum (f := fun i => Nclosed (knotFn U) p n i x)
      (fun j _ => Nclosed_nonneg (monotone_knotFn hU.mono) _ _ _ _) (mem_range.2 hi)
  have hnear : ∀ r < m, ∀ i < s.numU, ∀ j < s.numV,
      IsNear bin64 (1 - 1 / 2 ^ 53) (5 * s.degreeU + 5 * s.degreeV + 1) (51 / 2 ^ 55) (at2 L r (i * s.numV + j) 0)
        (Nclosed (knotFn s.kvU) s.degreeU s.numU i (at2 data r 3 0) *
          Nclosed (knotFn s.kvV) s.degreeV s.numV j (at2 data r 4 0)) := by
    intro r hr i hi j hj
    have := hLv r hr i hi j hj
    change at2 L r (i * s.numV + j) 0 = _ at this
    rw [this]
    refine ((hA r i hr hi).2.mul_both ieeeRounding_bin64 (hB r j hr hj).2 (one_le hs.cu hi (hu r hr).1 (hu r hr).2)
      (one_le hs.cv hj (hv r hr).1 (hv r hr).2) (by norm_num) (by norm_num) ?_ (pow_rho _ (by omega))).mono
      ieeeRounding_bin64 le_rfl ?_
    · exact le_trans (by norm_num) (pow_le_pow_right₀ (by norm_num) (show 3 ≤ 1023 by norm_num))
    · have : (1 : ℚ) / 2 ^ 1075 ≤ 1 / 2 ^ 55 := one_div_le_one_div_of_le (by norm_num)
        (pow_le_pow_right₀ (by norm_num) (by norm_num))
      norm_num at this ⊢
  have hg := pow_error (5 * s.degreeU + 5 * s.degreeV + 1) (by omega)
  refine ⟨L, hL, hLs, fun r hr i hi j hj => ?_, CheckUnityR.exists _ _ _, ?_⟩
  · obtain ⟨a, ha, -, h3, h4⟩ := (hnear r hr i hi j hj).abs_sub_le ieeeRounding_bin64
    refine ⟨a, ha, h3, h4.trans (add_le_add (mul_le_mul_of_nonneg_right hg ?_) ?_)⟩
    · exact mul_nonneg (Nclosed_nonneg hVu _ _ _ _) (Nclosed_nonneg hVv _ _ _ _)
    · refine (mul_le_mul_of_nonneg_right (show _ ≤ (2 : ℚ) by linarith) (by norm_num)).trans (by norm_num)
  · intro r hr
    rw [hd.1] at hr
    have hv' : ∀ r < m, ∀ x < s.numU * s.numV,
        IsNear bin64 (1 - 1 / 2 ^ 53) (5 * s.degreeU + 5 * s.degreeV + 1) (51 / 2 ^ 55) (at2 L r x 0)
          (Nclosed (knotFn s.kvU) s.degreeU s.numU (x / s.numV) (at2 data r 3 0) *
            Nclosed (knotFn s.kvV) s.degreeV s.numV (x % s.numV) (at2 data r 4 0)) := by
      intro r hr x hx
      have hnv : 0 < s.numV := Nat.pos_of_ne_zero fun h => by simp [h] at hx
      have := hnear r hr (x / s.numV) (by rwa [Nat.div_lt_iff_lt_mul hnv]) (x % s.numV) (Nat.mod_lt _ hnv)
      rwa [Nat.div_add_mod'] at this
    refine unity_binary64 hLs hv' (fun r hr' => ?_) hsize r hr
    change ∑ i ∈ range (s.numU * s.numV), _ = _
    rw [sum_Nclosed_grid, sum_Nclosed hs.cu (hu r hr').1 (hu r hr').2, sum_Nclosed hs.cv (hv r hr').1 (hv r hr').2,
      mul_one]

/-! ## Concrete cases -/

/-- The second of four quadratic basis functions with a knot at `2^-900`, at `2^-901`. -/
example : ∃ x x' : ℚ, oneBasisFunction 2 [0, 0, 0, 1 / 2 ^ 900, 1, 1, 1] 1 (1 / 2 ^ 901) = .ok x ∧ 1 / 2 < x ∧
    oneBasisFunctionR bin64 2 (([0, 0, 0, 1 / 2 ^ 900, 1, 1, 1] : List ℚ).map fin) 1 (fin (1 / 2 ^ 901)) = .ok (fin x') ∧
    |x' - x| ≤ 1 / 10 ^ 14 * x + (2 * 1 + 2 / (1 / 2 ^ 900) + 1) * (1 / 2 ^ 1050) := by
  obtain ⟨x, x', e1, e2, -, -, e5⟩ := one_basis_function_binary64 (p := 2) (n := 4) (i := 1) (u := 1 / 2 ^ 901)
    (δ := 1 / 2 ^ 900) (H := 1) (U := [0, 0, 0, 1 / 2 ^ 900, 1, 1, 1])
    ⟨⟨by decide +kernel, by decide +kernel, by decide⟩, by intro i hi; interval_cases i <;> decide +kernel,
      by intro i h1 h2; interval_cases i <;> decide +kernel⟩ (by norm_num) (by norm_num) (by decide +kernel)
    (by decide +kernel) (by decide +kernel) (by decide +kernel) (by decide +kernel) (by decide +kernel)
    (by decide +kernel)
  refine ⟨x, x', e1, ?_, e2, e5⟩
  have : oneBasisFunction 2 ([0, 0, 0, 1 / 2 ^ 900, 1, 1, 1] : List ℚ) 1 (1 / 2 ^ 901)
      = .ok (3 / 4 - 1 / 2 ^ 902) := by decide +kernel
  rw [this] at e1
  cases e1
  decide +kernel

/-- Underflow: the last quadratic basis function at `2^-600` is `2^-1200`, and is computed as zero; the
bound of the theorem is all underflow there. -/
example : oneBasisFunction 2 ([0, 0, 0, 1, 1, 1] : List ℚ) 2 (1 / 2 ^ 600) = .ok (1 / 2 ^ 1200) ∧
    oneBasisFunctionR bin64 2 (([0, 0, 0, 1, 1, 1] : List ℚ).map fin) 2 (fin (1 / 2 ^ 600)) = .ok (fin 0) := by
  decide +kernel

/-- What `2^-1000` is for: on a span of length `2^-1030` the quotients overflow, the basis functions come
out infinite, and the fit is refused although the exact row is `[1/4, 1/2, 1/4]`. -/
example : oneBasisFunction 2 (([0, 0, 0, 1, 1, 1] : List ℚ).map fun x => x / 2 ^ 1030) 1 (1 / 2 ^ 1031) = .ok (1 / 2) ∧
    curveMatrixR bin64 ⟨2, [[0], [0], [0]], ([0, 0, 0, 1, 1, 1] : List ℚ).map fun x => fin (x / 2 ^ 1030)⟩
      [[0, 0, 0, fin (1 / 2 ^ 1031)]] = .ok [[inf false, inf false, fin (1 / 4)]] ∧
    CheckUnityR bin64 [[inf false, inf false, fin (1 / 4)]] 1 (.error .valueError) := by
  refine ⟨by decide +kernel, by decide +kernel, [inf false], inf false, .cons ?_ .nil, .one _, by decide +kernel⟩
  have h : SumR bin64 [inf false, inf false] (inf false) :=
    SumR.add (l := [inf false]) (m := [inf false]) (by simp) (by simp) (.one _) (.one _)
  exact SumR.add (l := [inf false, inf false]) (m := [fin (1 / 4)]) (by simp) (by simp) h (.one _)

/-- The check for a quadratic curve with a knot at `2^-900` and the double nearest to `1/10` among the
parameters. -/
example : ∃ A : List (List ℚ), curveMatrixR bin64
      (Curve.mk 2 [[0, 0, 0], [1, 0, 0], [2, 1, 0], [3, 0, 1]] [0, 0, 0, 1 / 2 ^ 900, 1, 1, 1]).lift
      (lift2 [[0, 0, 0, 0], [1, 2, 3, 1 / 2 ^ 901], [1, 2, 3, fl64 (1 / 10)], [1, 1, 1, 1]]) = .ok (lift2 A) ∧
    ∀ r, CheckUnityR bin64 (lift2 A) 4 r → r = .ok () := by
  obtain ⟨A, h1, -, -, -, h2⟩ := single_fit_curve_unity_binary64
    (c := Curve.mk 2 [[0, 0, 0], [1, 0, 0], [2, 1, 0], [3, 0, 1]] [0, 0, 0, 1 / 2 ^ 900, 1, 1, 1])
    (data := [[0, 0, 0, 0], [1, 2, 3, 1 / 2 ^ 901], [1, 2, 3, fl64 (1 / 10)], [1, 1, 1, 1]]) (m := 4) (n := 4)
    ⟨⟨by decide +kernel, by decide +kernel, by decide⟩, by intro i hi; interval_cases i <;> decide +kernel,
      by intro i h1 h2; interval_cases i <;> decide +kernel⟩ (by decide) (by decide +kernel) rfl
    ⟨rfl, by decide +kernel⟩ (by decide +kernel) (by intro r hr; interval_cases r <;> decide +kernel)
    (by decide +kernel) (by decide +kernel) (by intro r hr; interval_cases r <;> decide +kernel) (by decide)
  exact ⟨A, h1, h2⟩

/-- A surface. -/
example : ∃ L, surfaceMatrixR bin64 exS.lift (lift2 [[0, 0, 0, fl64 (1 / 10), 1], [0, 0, 0, fl64 (7 / 10), fl64 (1 / 3)]])
      = .ok L ∧ ∀ r, CheckUnityR bin64 L 2 r → r = .ok () := by
  obtain ⟨L, h1, -, -, -, h2⟩ := single_fit_surface_unity_binary64 (s := exS) (m := 2)
    (data := [[0, 0, 0, fl64 (1 / 10), 1], [0, 0, 0, fl64 (7 / 10), fl64 (1 / 3)]])
    exS_clamped (by decide) (by decide) (by decide +kernel) (by decide +kernel) ⟨rfl, by decide +kernel⟩
    (by decide +kernel) (by decide +kernel) (by intro r hr; interval_cases r <;> decide +kernel)
    (by decide +kernel) (by decide +kernel) (by decide +kernel) (by decide +kernel)
    (by intro r hr; interval_cases r <;> decide +kernel) (by intro r hr; interval_cases r <;> decide +kernel) (by decide)
  exact ⟨L, h1, h2⟩

end PySpline
