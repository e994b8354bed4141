import Verif.Lemmas.IeeeDersAgree
import Verif.Lemmas.IeeeDersSurf
import Verif.Props.IeeeSurf
import Verif.Props.RoundedDers

/-!
# C180: derivatives in IEEE arithmetic with overflow and underflow
-/

set_option linter.unusedSectionVars false
set_option exponentiation.threshold 1100

namespace PySpline

open Polynomial Spec Ext

section
variable {K : Type} [Field K] [LinearOrder K]

/-! ## Agreement with the models without rounding and without overflow -/

/-- Without rounding `basis_function_ders` is the one over the extended numbers; without overflow it is the
one in rounded arithmetic, unless that divides by zero. -/
theorem ieee_ders_agree (fl : K → K) (span : ℤ) (e : Ext K) (u : K) (p : ℕ) (V : List (Ext K)) (U : List K)
    (order : ℕ) :
    basisFunctionDersR fin span e p V order = basisFunctionDersE span e p V order ∧
    (basisFunctionDersFl fl span u p U order = .error .nonfinite ∨
      basisFunctionDersR (fun x => fin (fl x)) span (fin u) p (U.map fin) order
        = (basisFunctionDersFl fl span u p U order).map (List.map (List.map fin))) :=
  ⟨basisFunctionDersR_fin span e p V order, (basisFunctionDersR_follows fl span u p U order).iff⟩

variable [IsStrictOrderedRing K]

/-! ## The basis functions and their derivatives -/

/-- An array of numbers. -/
theorem lift2_val {n d : ℕ} {m : List (List (Ext K))} (h : Shape m n d)
    (hf : ∀ r < n, ∀ j < d, ∃ a, at2 m r j 0 = fin a) :
    m = lift2 (m.map (List.map Ext.val)) ∧ Shape (m.map (List.map Ext.val)) n d ∧
      ∀ r < n, ∀ j < d, at2 m r j 0 = fin (at2 (m.map (List.map Ext.val)) r j 0) := by
  have hrow : ∀ r (hr : r < m.length), m[r].length = d := fun r hr => h.2 _ (List.getElem_mem hr)
  have hat : ∀ r (hr : r < m.length) j (hj : j < m[r].length), at2 m r j 0 = m[r][j] := by
    intro r hr j hj
    simp [at2, List.getD_eq_getElem?_getD, List.getElem?_eq_getElem hr, List.getElem?_eq_getElem hj]
  have hval : ∀ r (hr : r < m.length) j (hj : j < m[r].length), m[r][j] = fin m[r][j].val := by
    intro r hr j hj
    obtain ⟨a, ha⟩ := hf r (by rw [← h.1]; exact hr) j (by rw [← hrow r hr]; exact hj)
    rw [hat r hr j hj] at ha
    rw [ha]; rfl
  refine ⟨?_, ⟨by simpa using h.1, ?_⟩, ?_⟩
  · refine List.ext_getElem (by simp [lift2]) fun r h1 h2 => ?_
    refine List.ext_getElem (by simp [lift2]) fun j h3 h4 => ?_
    rw [hval r h1 j h3]
    simp [lift2]
  · intro row hr
    obtain ⟨r, hm, rfl⟩ := List.mem_map.1 hr
    simpa using h.2 r hm
  · intro r hr j hj
    have hr' : r < m.length := by rw [h.1]; exact hr
    have hj' : j < m[r].length := by rw [hrow r hr']; exact hj
    rw [hat r hr' j hj', hval r hr' j hj']
    simp [at2, List.getD_eq_getElem?_getD, List.getElem?_eq_getElem hr', List.getElem?_eq_getElem hj', Ext.val]

/-- **C180.** Let the knots and the parameter be stored numbers, the parameter in the closed non-empty
span `k` of length `h`, let `H` be at least the distance of the knots that are used and `B` at least `1 / h`,
and let the numbers be small enough in comparison with the overflow threshold (`DersSize`).  Then
`basis_function_ders` in IEEE arithmetic returns numbers (no infinity, no NaN).  The values of column 0 are
not negative.  The errors of the derivatives of order `m` of all the basis functions together are at most
`((1/ρ)^(6p+4) - 1) p (p-1) ⋯ (p-m+1) (2/h)^m` plus the share of underflow
`(1/ρ)^(6p+4) (p+1)² (p! + 2) (8B)^p (2H + 4) η`. -/
theorem basis_function_ders_ieee {ρ η M B H : K} {rd : K → Ext K} (hr : IeeeRounding ρ η M rd) {U : List K}
    (hU : U.Pairwise (· ≤ ·)) {k p : ℕ} {u : K} (hp : p ≤ k) (hk : k + p < U.length)
    (hs : knotFn U k < knotFn U (k + 1)) (h1 : knotFn U k ≤ u) (h2 : u ≤ knotFn U (k + 1))
    (hrep : ∀ x ∈ U, rd x = fin x) (hu : rd u = fin u)
    (hH : knotFn U (k + p) - knotFn U (k + 1 - p) ≤ H) (hz : DersSize ρ η M B ((2 * H + 1) * η) p)
    (hB : 1 ≤ B * (knotFn U (k + 1) - knotFn U k)) (hMh : 8 ≤ M * (knotFn U (k + 1) - knotFn U k))
    (hMH : 2 * H ≤ M) (order : ℕ) :
    ∃ D D' : List (List K), basisFunctionDers (k : ℤ) u p U order = .ok D ∧
      basisFunctionDersR rd (k : ℤ) (fin u) p (U.map fin) order = .ok (D'.map (List.map fin)) ∧
      Shape D' (p + 1) (order + 1) ∧
      (∀ r ≤ p, 0 ≤ at2 D' r 0 0 ∧ |at2 D' r 0 0 - at2 D r 0 0| ≤
        ((1 / ρ) ^ (6 * p) - 1) * at2 D r 0 0 + (1 / ρ) ^ (6 * p) * ((4 ^ p - 1) * ((2 * H + 1) * η))) ∧
      ∀ m ≤ order, ∑ r ∈ Finset.range (p + 1), |at2 D' r m 0 - at2 D r m 0| ≤
        ((1 / ρ) ^ (6 * p + 4) - 1) *
          (p.descFactorial m * (2 / (knotFn U (k + 1) - knotFn U k)) ^ m) +
        (1 / ρ) ^ (6 * p + 4) * ((p + 1) ^ 2 * (p.factorial + 2) * ((8 * B) ^ p * ((2 * H + 4) * η))) := by
  have hV := monotone_knotFn hU
  obtain ⟨D, e, sh, hD⟩ := basisFunctionDers_correct hV u hp hk hs order
  obtain ⟨E, e', shE, hn, ha⟩ := basisFunctionDersR_apx_all hr hV hp hk hs h1 h2 hrep hu hH hz hB hMh hMH order
  obtain ⟨l1, l2, l3⟩ := lift2_val shE fun r hr' j hj => by
    obtain ⟨-, a, h, -⟩ := ha r j (by omega) (by omega)
    exact ⟨a, h⟩
  refine ⟨D, _, e, e'.trans (congrArg _ l1), l2, fun r hr' => ?_, fun m hm => ?_⟩
  · obtain ⟨a, x1, -, x2, x3⟩ := (hn r hr').abs_sub_le hr
    rw [l3 r (by omega) 0 (by omega)] at x1
    cases x1
    rw [hD r 0 hr' (by omega)]
    exact ⟨x2, x3⟩
  · have hg := sub_nonneg.2 (one_le_pow₀ hr.one_le (n := 6 * p + 4))
    calc ∑ r ∈ Finset.range (p + 1), |at2 (E.map (List.map Ext.val)) r m 0 - at2 D r m 0|
        ≤ ∑ r ∈ Finset.range (p + 1), (((1 / ρ) ^ (6 * p + 4) - 1) *
            (p.descFactorial m * rawAbs (knotFn U) k p u r m) + (1 / ρ) ^ (6 * p + 4) *
              dersErr p ((8 * B) ^ p * ((2 * H + 1) * η + 3 * η))) := by
          refine Finset.sum_le_sum fun r hr' => ?_
          have hr' := Finset.mem_range.1 hr'
          obtain ⟨-, a, x1, -, -, x3⟩ := ha r m (by omega) hm
          rw [l3 r hr' m (by omega)] at x1
          cases x1
          rw [hD r m (by omega) hm]
          exact x3
      _ = ((1 / ρ) ^ (6 * p + 4) - 1) * (p.descFactorial m *
            ∑ r ∈ Finset.range (p + 1), rawAbs (knotFn U) k p u r m) +
          (1 / ρ) ^ (6 * p + 4) * ((p + 1) ^ 2 * (p.factorial + 2) * ((8 * B) ^ p * ((2 * H + 4) * η))) := by
          rw [Finset.sum_add_distrib, ← Finset.mul_sum, ← Finset.mul_sum, Finset.sum_const, Finset.card_range,
            nsmul_eq_mul]
          unfold dersErr
          push_cast
          ring
      _ ≤ _ := add_le_add (mul_le_mul_of_nonneg_left (mul_le_mul_of_nonneg_left
          (sum_rawAbs_le hV hp hs h1 h2) (Nat.cast_nonneg _)) hg) le_rfl

/-! ## Surfaces -/

/-- A bound on the size of the derivatives: `p! (2B)^p`. -/
def dersBound (p : ℕ) (B : K) : K := p.factorial * (2 * B) ^ p

/-- The share of underflow in a derivative for knots in `[0, 1]`: `(p+1) (p! + 2) (8B)^p 6 η`. -/
def dersShare (p : ℕ) (B η : K) : K := (p + 1) * (p.factorial + 2) * ((8 * B) ^ p * (6 * η))

/-- **C180** for surfaces on `[0, 1]²`, whatever the order of the summations: `derivatives` with
`normalize=False` returns an array of numbers; it works on the patch of spans of lengths `hu` and `hv` that
`find_span` gives, and the mixed derivative of order `(a, b)` differs from the exact one of that patch, in
each coordinate, by at most
`((1/ρ)^(7p+7q+10) - 1) p ⋯ (p-a+1) (2/hu)^a q ⋯ (q-b+1) (2/hv)^b C` plus the share of underflow, where `C`
bounds the coordinates of the control points and `1 / B` is at most the length of a span. -/
theorem surface_derivatives_ieee {ρ η M B C : K} {rd : K → Ext K} (hr : IeeeRounding ρ η M rd)
    (hrefl : ∀ x, iscloseR rd (fin x) (fin x) (1 / 10 ^ 6) atolDefault = true) {s : Surface K}
    (hs : SurfaceOk s) (hku : UnitKnots s.degreeU s.numU s.kvU) (hkv : UnitKnots s.degreeV s.numV s.kvV)
    {u v : K} (hu : 0 ≤ u ∧ u ≤ 1) (hv : 0 ≤ v ∧ v ≤ 1)
    (hru : Regular s.degreeU s.numU s.kvU u) (hrv : Regular s.degreeV s.numV s.kvV v)
    (hlu : iscloseR rd (fin u) (fin (knotFn s.kvU s.numU)) (1 / 10 ^ 6) atolDefault = true →
      knotFn s.kvU (s.numU - 1) ≤ u)
    (hlv : iscloseR rd (fin v) (fin (knotFn s.kvV s.numV)) (1 / 10 ^ 6) atolDefault = true →
      knotFn s.kvV (s.numV - 1) ≤ v)
    (hrepu : ∀ x ∈ s.kvU, rd x = fin x) (hrepv : ∀ x ∈ s.kvV, rd x = fin x) (hu' : rd u = fin u)
    (hv' : rd v = fin v)
    (hshu : ∀ i, s.degreeU ≤ i → i < s.numU → knotFn s.kvU i < knotFn s.kvU (i + 1) →
      1 ≤ B * (knotFn s.kvU (i + 1) - knotFn s.kvU i))
    (hshv : ∀ i, s.degreeV ≤ i → i < s.numV → knotFn s.kvV i < knotFn s.kvV (i + 1) →
      1 ≤ B * (knotFn s.kvV (i + 1) - knotFn s.kvV i))
    (hC : ∀ c < 3, ∀ i < s.numU * s.numV, |coord s.ctrlpts c i| ≤ C)
    (hzu : DersSize ρ η M B (3 * η) s.degreeU) (hzv : DersSize ρ η M B (3 * η) s.degreeV) (hMB : 8 * B ≤ M)
    (hM1 : (1 / ρ) ^ (7 * s.degreeU + 7 * s.degreeV + 10) * (C * dersBound s.degreeU B
      + (s.degreeU + 1 : ℕ) * (C * dersShare s.degreeU B η + η)) ≤ M)
    (hM : (1 / ρ) ^ (7 * s.degreeU + 7 * s.degreeV + 10) * (C * dersBound s.degreeU B * dersBound s.degreeV B
      + bilinearShare (s.degreeU + 1) (s.degreeV + 1) C (dersBound s.degreeU B) (dersShare s.degreeU B η)
        (dersBound s.degreeV B) (dersShare s.degreeV B η) η) ≤ M) (orderU orderV : ℕ) :
    ∃ m k : ℕ,
      findSpanR rd s.numU s.degreeU (fin u) (lift1 s.kvU) = .ok (m : ℤ) ∧
      findSpanR rd s.numV s.degreeV (fin v) (lift1 s.kvV) = .ok (k : ℤ) ∧
      s.degreeU ≤ m ∧ m < s.numU ∧ s.degreeV ≤ k ∧ k < s.numV ∧
      knotFn s.kvU m ≤ u ∧ u ≤ knotFn s.kvU (m + 1) ∧ knotFn s.kvU m < knotFn s.kvU (m + 1) ∧
      knotFn s.kvV k ≤ v ∧ v ≤ knotFn s.kvV (k + 1) ∧ knotFn s.kvV k < knotFn s.kvV (k + 1) ∧
      (∃ D, s.lift.DerivativesR rd (fin u) (fin v) orderU orderV D) ∧
      ∀ D, s.lift.DerivativesR rd (fin u) (fin v) orderU orderV D →
        D.length = (min orderU s.degreeU + 1) * (min orderV s.degreeV + 1) ∧
        ∀ a ≤ min orderU s.degreeU, ∀ b ≤ min orderV s.degreeV, ∃ q : List K,
          D.getD (a * (min orderV s.degreeV + 1) + b) [] = q.map fin ∧ q.length = 3 ∧
          ∀ c < 3, |q.getD c 0
              - patchDeriv (knotFn s.kvU) m s.degreeU s.numU (knotFn s.kvV) k s.degreeV s.numV
                (coord s.ctrlpts c) a b u v| ≤ ((1 / ρ) ^ (7 * s.degreeU + 7 * s.degreeV + 10) - 1) *
              (s.degreeU.descFactorial a * (2 / (knotFn s.kvU (m + 1) - knotFn s.kvU m)) ^ a *
                (s.degreeV.descFactorial b * (2 / (knotFn s.kvV (k + 1) - knotFn s.kvV k)) ^ b) * C) +
              (1 / ρ) ^ (7 * s.degreeU + 7 * s.degreeV + 10) *
                bilinearShare (s.degreeU + 1) (s.degreeV + 1) C (dersBound s.degreeU B) (dersShare s.degreeU B η)
                  (dersBound s.degreeV B) (dersShare s.degreeV B η) η := by
  obtain ⟨m, hm, hm1, hm2, hm3, hm4, hm5⟩ := findSpanWith_regular
    (close := fun a b => iscloseR rd (fin a) (fin b) (1 / 10 ^ 6) atolDefault) hs.ku hrefl hru.lo hru.hi hru.simple hlu
  obtain ⟨k, hk, hk1, hk2, hk3, hk4, hk5⟩ := findSpanWith_regular
    (close := fun a b => iscloseR rd (fin a) (fin b) (1 / 10 ^ 6) atolDefault) hs.kv hrefl hrv.lo hrv.hi hrv.simple hlv
  rw [← findSpanR_lift] at hm hk
  have l1 := hs.ku.len
  have l2 := hs.kv.len
  have mU := monotone_knotFn hs.ku.mono
  have mV := monotone_knotFn hs.kv.mono
  have hB1 := hzu.one_le
  have hwid : ∀ {p n : ℕ} {U : List K}, UnitKnots p n U → Monotone (knotFn U) → ∀ {m}, m < n →
      knotFn U (m + p) - knotFn U (m + 1 - p) ≤ 1 := by
    intro p n U hU hV m hm
    have a1 : knotFn U (m + p) ≤ knotFn U (n + p) := hV (by omega)
    have a2 : knotFn U 0 ≤ knotFn U (m + 1 - p) := hV (by omega)
    rw [hU.one] at a1
    rw [hU.zero] at a2
    linarith
  have h3 : (2 * 1 + 1 : K) * η = 3 * η := by ring
  have h8 : ∀ x : K, 1 ≤ B * x → 8 ≤ M * x := fun x hx => by
    have hx0 : 0 ≤ x := by
      by_contra hc
      have := mul_neg_of_pos_of_neg (show 0 < B by linarith) (not_le.1 hc)
      linarith
    have := mul_le_mul_of_nonneg_right hMB hx0
    linarith
  obtain ⟨du, hdu, shu, -, hau⟩ := basisFunctionDersR_apx_all hr (H := 1) mU hm1 (by omega) hm5 hm3 hm4 hrepu hu'
    (hwid hku mU hm2) (by rw [h3]; exact hzu) (hshu m hm1 hm2 hm5) (h8 _ (hshu m hm1 hm2 hm5)) (by linarith)
    (min orderU s.degreeU)
  obtain ⟨dv, hdv, shv, -, hav⟩ := basisFunctionDersR_apx_all hr (H := 1) mV hk1 (by omega) hk5 hk3 hk4 hrepv hv'
    (hwid hkv mV hk2) (by rw [h3]; exact hzv) (hshv k hk1 hk2 hk5) (h8 _ (hshv k hk1 hk2 hk5)) (by linarith)
    (min orderV s.degreeV)
  have hsh : ∀ p : ℕ, dersErr p ((8 * B) ^ p * ((2 * 1 + 1) * η + 3 * η)) = dersShare p B η := by
    intro p
    unfold dersErr dersShare
    ring
  rw [hsh] at hau hav
  refine ⟨m, k, hm, hk, hm1, hm2, hk1, hk2, hm3, hm4, hm5, hk3, hk4, hk5, ?_⟩
  have hcol : ∀ c : ℕ, c < 3 → columnE s.lift.ctrlpts (c : ℤ)
      = .ok (lift1 ((List.range (s.numU * s.numV)).map (coord s.ctrlpts c))) := fun c h =>
    (columnE_follows _ _).value (column_all hs.shape c c rfl h)
  have hresh : ∀ c, reshape2E (lift1 ((List.range (s.numU * s.numV)).map (coord s.ctrlpts c))) s.numU s.numV
      = .ok (lift2 ((List.range s.numU).map fun i => (List.range s.numV).map fun j =>
        coord s.ctrlpts c (i * s.numV + j))) := fun c =>
    (reshape2E_follows _ _ _).value (reshape2_map_range _ _ _)
  have hsl : ∀ c, slice2E (lift2 ((List.range s.numU).map fun i => (List.range s.numV).map fun j =>
        coord s.ctrlpts c (i * s.numV + j))) ((m : ℤ) - s.degreeU) ((m : ℤ) + 1)
        ((k : ℤ) - s.degreeV) ((k : ℤ) + 1)
      = lift2 ((List.range (s.degreeU + 1)).map fun i => (List.range (s.degreeV + 1)).map fun j =>
        coord s.ctrlpts c ((m - s.degreeU + i) * s.numV + (k - s.degreeV + j))) := fun c => by
    rw [slice2E_lift]
    exact congrArg lift2 (slice2_map_range (fun i j => coord s.ctrlpts c (i * s.numV + j)) (by omega) (by omega)
      (by omega) (by omega) (by omega) (by omega))
  have cu : ∀ a ≤ min orderU s.degreeU, columnE du (a : ℤ) = .ok (du.map fun row => row.getD a 0) :=
    fun a ha => columnE_natCast shu a (by omega)
  have cv : ∀ b ≤ min orderV s.degreeV, columnE dv (b : ℤ) = .ok (dv.map fun row => row.getD b 0) :=
    fun b hb => columnE_natCast shv b (by omega)
  have lu : ∀ a, (du.map fun row => row.getD a 0).length = s.degreeU + 1 := fun a => by simp [shu.1]
  have lv : ∀ b, (dv.map fun row => row.getD b 0).length = s.degreeV + 1 := fun b => by simp [shv.1]
  have gu : ∀ a, ∀ i < s.degreeU + 1, (du.map fun row => row.getD a 0).getD i 0 = at2 du i a 0 := by
    intro a i hi
    have : i < du.length := by rw [shu.1]; exact hi
    simp [at2, List.getD_eq_getElem?_getD, List.getElem?_eq_getElem this]
  have gv : ∀ b, ∀ j < s.degreeV + 1, (dv.map fun row => row.getD b 0).getD j 0 = at2 dv j b 0 := by
    intro b j hj
    have : j < dv.length := by rw [shv.1]; exact hj
    simp [at2, List.getD_eq_getElem?_getD, List.getElem?_eq_getElem this]
  have hvk : ∀ {x : K}, 0 ≤ x ∧ x ≤ 1 → validateKnotE (fin x) = true := by
    intro x hx
    show (le 0 (fin x) && le (fin x) 1) = true
    rw [Bool.and_eq_true]
    exact ⟨(le_lift 0 x).2 hx.1, (le_lift x 1).2 hx.2⟩
  constructor
  · have hex := fun c a b => BilinearR.exists rd (bu := du.map fun row => row.getD a 0)
      (bv := dv.map fun row => row.getD b 0)
      (fun i j => coord s.ctrlpts c ((m - s.degreeU + i) * s.numV + (k - s.degreeV + j)))
      (a := s.degreeU + 1) (b := s.degreeV + 1) (by omega) (by omega) (lu a) (lv b)
    choose X hX using hex
    refine ⟨(List.range ((min orderU s.degreeU + 1) * (min orderV s.degreeV + 1))).map fun t =>
      [X 0 (t / (min orderV s.degreeV + 1)) (t % (min orderV s.degreeV + 1)),
        X 1 (t / (min orderV s.degreeV + 1)) (t % (min orderV s.degreeV + 1)),
        X 2 (t / (min orderV s.degreeV + 1)) (t % (min orderV s.degreeV + 1))],
      m, k, du, dv, hvk hu, hvk hv, hm, hk, hdu, hdv,
      _, _, _, _, _, _, hcol 0 (by omega), hcol 1 (by omega), hcol 2 (by omega),
      hresh _, hresh _, hresh _, by simp [Surface.lift], fun a ha b hb => ?_⟩
    refine ⟨_, _, X 0 a b, X 1 a b, X 2 a b, cu a ha, cv b hb, ?_, ?_, ?_, ?_⟩
    · exact (hsl 0).symm ▸ hX 0 a b
    · exact (hsl 1).symm ▸ hX 1 a b
    · exact (hsl 2).symm ▸ hX 2 a b
    change a ≤ min orderU s.degreeU at ha
    change b ≤ min orderV s.degreeV at hb
    have hlt := index_lt (n := min orderU s.degreeU + 1) (m := min orderV s.degreeV + 1)
      (Nat.lt_succ_of_le ha) (Nat.lt_succ_of_le hb)
    have hdiv : (a * (min orderV s.degreeV + 1) + b) / (min orderV s.degreeV + 1) = a := by
      rw [Nat.mul_comm, Nat.mul_add_div (by omega), Nat.div_eq_of_lt (by omega), Nat.add_zero]
    have hmod : (a * (min orderV s.degreeV + 1) + b) % (min orderV s.degreeV + 1) = b := by
      rw [Nat.mul_comm, Nat.mul_add_mod, Nat.mod_eq_of_lt (by omega)]
    show List.getD _ (a * (min orderV s.degreeV + 1) + b) [] = _
    rw [List.getD_eq_getElem?_getD, List.getElem?_map, List.getElem?_range hlt]
    simp only [Option.map_some, Option.getD_some]
    rw [hdiv, hmod]
  · rintro D ⟨uS, vS, du', dv', -, -, e1, e2, e3, e4, cx, cy, cz, xa, ya, za, c0, c1, c2,
      r0, r1, r2, hlen, hrows⟩
    have a1 := hm.symm.trans e1
    cases a1
    have a2 := hk.symm.trans e2
    cases a2
    have a3 := hdu.symm.trans e3
    cases a3
    have a4 := hdv.symm.trans e4
    cases a4
    have a0 := (hcol 0 (by omega)).symm.trans c0
    have a1 := (hcol 1 (by omega)).symm.trans c1
    have a2 := (hcol 2 (by omega)).symm.trans c2
    cases a0
    cases a1
    cases a2
    have b0 := (hresh 0).symm.trans r0
    have b1 := (hresh 1).symm.trans r1
    have b2 := (hresh 2).symm.trans r2
    cases b0
    cases b1
    cases b2
    refine ⟨hlen, fun a ha b hb => ?_⟩
    obtain ⟨bu, bv, x, y, z, d1, d2, dx, dy, dz, hrow⟩ := hrows a ha b hb
    have d1' := (cu a ha).symm.trans d1
    cases d1'
    have d2' := (cv b hb).symm.trans d2
    cases d2'
    have dx' := (hsl 0) ▸ dx
    have dy' := (hsl 1) ▸ dy
    have dz' := (hsl 2) ▸ dz
    have key : ∀ c < 3, ∀ x, BilinearR rd (du.map fun row => row.getD a 0)
        (lift2 ((List.range (s.degreeU + 1)).map fun i => (List.range (s.degreeV + 1)).map fun j =>
          coord s.ctrlpts c ((m - s.degreeU + i) * s.numV + (k - s.degreeV + j))))
        (dv.map fun row => row.getD b 0) x →
        ∃ y, x = fin y ∧ |y - patchDeriv (knotFn s.kvU) m s.degreeU s.numU (knotFn s.kvV) k s.degreeV s.numV
          (coord s.ctrlpts c) a b u v| ≤ ((1 / ρ) ^ (7 * s.degreeU + 7 * s.degreeV + 10) - 1) *
          (s.degreeU.descFactorial a * (2 / (knotFn s.kvU (m + 1) - knotFn s.kvU m)) ^ a *
            (s.degreeV.descFactorial b * (2 / (knotFn s.kvV (k + 1) - knotFn s.kvV k)) ^ b) * C) +
          (1 / ρ) ^ (7 * s.degreeU + 7 * s.degreeV + 10) *
            bilinearShare (s.degreeU + 1) (s.degreeV + 1) C (dersBound s.degreeU B) (dersShare s.degreeU B η)
              (dersBound s.degreeV B) (dersShare s.degreeV B η) η := by
      intro c hc x hx
      have hidx : ∀ i < s.degreeU + 1, ∀ j < s.degreeV + 1,
          (m - s.degreeU + i) * s.numV + (k - s.degreeV + j) < s.numU * s.numV := fun i hi j hj =>
        index_lt (by omega) (by omega)
      have hfall : ∀ p m : ℕ, (p.descFactorial m : K) ≤ p.factorial := fun p m => by
        have := fall_abs_le (K := K) p m
        rwa [fall_eq, abs_of_nonneg (Nat.cast_nonneg _)] at this
      have sumU := sum_rawAbs_le mU hm1 hm5 hm3 hm4 (m := a)
      have sumV := sum_rawAbs_le mV hk1 hk5 hk3 hk4 (m := b)
      have size : ∀ {V : ℕ → K} {k p m : ℕ}, V k < V (k + 1) → 1 ≤ B * (V (k + 1) - V k) → m ≤ p →
          (2 / (V (k + 1) - V k)) ^ m ≤ (2 * B) ^ p := by
        intro V k p m hlt hle hmp
        calc (2 / (V (k + 1) - V k)) ^ m ≤ (2 * B) ^ m :=
              pow_le_pow_left₀ (div_nonneg zero_le_two (sub_pos.2 hlt).le) (inv_span_le hlt hle) m
          _ ≤ (2 * B) ^ p := pow_le_pow_right₀ (by linarith) hmp
      have hexp : 6 * s.degreeU + 4 + (s.degreeU + 1) + (6 * s.degreeV + 4) + (s.degreeV + 1)
          = 7 * s.degreeU + 7 * s.degreeV + 10 := by omega
      obtain ⟨y, hy, happ⟩ := BilinearR.approx_signed hr (k := 6 * s.degreeU + 4) (l := 6 * s.degreeV + 4) (C := C)
        (S1 := dersBound s.degreeU B) (S2 := dersBound s.degreeV B)
        (fun i j => coord s.ctrlpts c ((m - s.degreeU + i) * s.numV + (k - s.degreeV + j))) (by omega) (by omega)
        (lu a) (lv b) (fun i hi => by rw [gu a i hi]; exact hau i a (by omega) ha)
        (fun j hj => by rw [gv b j hj]; exact hav j b (by omega) hb)
        (fun i hi j hj => hC c hc _ (hidx i hi j hj))
        (by
          rw [← Finset.mul_sum]
          exact mul_le_mul (hfall _ _) (sumU.trans (size hm5 (hshu m hm1 hm2 hm5) (ha.trans (min_le_right _ _))))
            (Finset.sum_nonneg fun i _ => rawAbs_nonneg mU hm3 hm4) (Nat.cast_nonneg _))
        (by
          rw [← Finset.mul_sum]
          exact mul_le_mul (hfall _ _) (sumV.trans (size hk5 (hshv k hk1 hk2 hk5) (hb.trans (min_le_right _ _))))
            (Finset.sum_nonneg fun i _ => rawAbs_nonneg mV hk3 hk4) (Nat.cast_nonneg _))
        (by rw [hexp]; exact hM1) (by rw [hexp]; exact hM) hx
      refine ⟨y, hy, ?_⟩
      have hz : ∀ (V : ℕ → K) (k p i t : ℕ) (x : K), i + p < k ∨ k < i →
          (deriv t (piece V k p i)).eval x = 0 := by
        rintro V k p i t x (h | h)
        · rw [piece_eq_zero_of_gt _ _ _ _ h, deriv_zero', eval_zero]
        · rw [piece_eq_zero_of_lt _ _ _ _ h, deriv_zero', eval_zero]
      rw [sum_active2 (c := fun i j => coord s.ctrlpts c (i * s.numV + j))
        (f := fun i => (deriv a (piece (knotFn s.kvU) m s.degreeU i)).eval u)
        (g := fun j => (deriv b (piece (knotFn s.kvV) k s.degreeV j)).eval v) hm1 hm2 hk1 hk2
        (fun i => hz _ _ _ _ _ _) (fun i => hz _ _ _ _ _ _), hexp] at happ
      refine happ.trans (add_le_add (mul_le_mul_of_nonneg_left ?_ (sub_nonneg.2 (one_le_pow₀ hr.one_le))) le_rfl)
      refine sum_sum_mul_le
        (fun i _ => mul_nonneg (Nat.cast_nonneg _) (rawAbs_nonneg mU hm3 hm4))
        (fun j _ => mul_nonneg (Nat.cast_nonneg _) (rawAbs_nonneg mV hk3 hk4))
        (fun i hi j hj => hC c hc _ (hidx i hi j hj))
        ((abs_nonneg _).trans (hC c hc _ (hidx 0 (by omega) 0 (by omega)))) ?_ ?_
      · rw [← Finset.mul_sum]
        exact mul_le_mul_of_nonneg_left sumU (Nat.cast_nonneg _)
      · rw [← Finset.mul_sum]
        exact mul_le_mul_of_nonneg_left sumV (Nat.cast_nonneg _)
    obtain ⟨x, rfl, hx⟩ := key 0 (by omega) x dx'
    obtain ⟨y, rfl, hy⟩ := key 1 (by omega) y dy'
    obtain ⟨z, rfl, hz⟩ := key 2 (by omega) z dz'
    refine ⟨[x, y, z], hrow, rfl, fun c hc => ?_⟩
    interval_cases c
    · exact hx
    · exact hy
    · exact hz

end

/-! ## Double precision -/

/-- The size conditions in double precision for degrees up to 10 and spans of at least `2^-40`. -/
theorem dersSize_bin64 {p : ℕ} (hp : p ≤ 10) :
    DersSize (1 - 1 / 2 ^ 53 : ℚ) (1 / 2 ^ 1075) (2 ^ 1023) (2 ^ 40) (3 * (1 / 2 ^ 1075)) p := by
  interval_cases p <;> exact ⟨by norm_num, by decide +kernel, by decide +kernel, by decide +kernel, by decide +kernel,
    by decide +kernel⟩

theorem dersShare_bin64 {p : ℕ} (hp : p ≤ 10) :
    2 * ((p + 1 : ℚ) ^ 2 * (p.factorial + 2) * ((8 * 2 ^ 40) ^ p * ((2 * 1 + 4) * (1 / 2 ^ 1075)))) ≤ 1 / 2 ^ 600 := by
  interval_cases p <;> decide +kernel

/-- **C180** in double precision with gradual underflow and overflow, for degrees up to 10: if the knots
and the parameter are doubles, the knots in use lie within a distance of 1, and the span has a length `h` of at
least `2^-40`, then `basis_function_ders` returns numbers, and the errors of the derivatives of order `m`
of all the basis functions together are at most `1e-14 p ⋯ (p-m+1) (2/h)^m + 2^-600`. -/
theorem basis_function_ders_binary64 {U : List ℚ} (hU : U.Pairwise (· ≤ ·)) {k p : ℕ} {u : ℚ} (hp10 : p ≤ 10)
    (hp : p ≤ k) (hk : k + p < U.length) (hs : 1 / 2 ^ 40 ≤ knotFn U (k + 1) - knotFn U k)
    (h1 : knotFn U k ≤ u) (h2 : u ≤ knotFn U (k + 1)) (hrep : ∀ x ∈ U, bin64 x = fin x)
    (hu : bin64 u = fin u) (hH : knotFn U (k + p) - knotFn U (k + 1 - p) ≤ 1) (order : ℕ) :
    ∃ D D' : List (List ℚ), basisFunctionDers (k : ℤ) u p U order = .ok D ∧
      basisFunctionDersR bin64 (k : ℤ) (fin u) p (U.map fin) order = .ok (D'.map (List.map fin)) ∧
      Shape D' (p + 1) (order + 1) ∧ (∀ r ≤ p, 0 ≤ at2 D' r 0 0) ∧
      ∀ m ≤ order, ∑ r ∈ Finset.range (p + 1), |at2 D' r m 0 - at2 D r m 0| ≤
        1 / 10 ^ 14 * (p.descFactorial m * (2 / (knotFn U (k + 1) - knotFn U k)) ^ m) + 1 / 2 ^ 600 := by
  have hpos : (0 : ℚ) < 1 / 2 ^ 40 := by norm_num
  have hgap : knotFn U k < knotFn U (k + 1) := by linarith
  have hB : 1 ≤ 2 ^ 40 * (knotFn U (k + 1) - knotFn U k) := by
    norm_num at hs ⊢
    linarith
  have hM : (2 ^ 40 * 8 : ℚ) ≤ 2 ^ 1023 := by decide +kernel
  have hz := dersSize_bin64 hp10
  rw [show (3 * (1 / 2 ^ 1075) : ℚ) = (2 * 1 + 1) * (1 / 2 ^ 1075) by decide +kernel] at hz
  obtain ⟨D, D', e1, e2, e3, e4, e5⟩ := basis_function_ders_ieee ieeeRounding_bin64 (H := 1) hU hp hk hgap h1 h2 hrep
    hu hH hz hB (by
      have := mul_le_mul_of_nonneg_right hM (sub_pos.2 hgap).le
      linarith) (by linarith) order
  refine ⟨D, D', e1, e2, e3, fun r hr => (e4 r hr).1, fun m hm => (e5 m hm).trans ?_⟩
  have hg := pow_error (6 * p + 4) (by omega)
  have hd : (0 : ℚ) ≤ 2 / (knotFn U (k + 1) - knotFn U k) := div_nonneg (by norm_num) (sub_pos.2 hgap).le
  refine add_le_add (mul_le_mul_of_nonneg_right hg (mul_nonneg (Nat.cast_nonneg _) (pow_nonneg hd _))) ?_
  refine le_trans (mul_le_mul_of_nonneg_right (show _ ≤ (2 : ℚ) by linarith) ?_) (dersShare_bin64 hp10)
  positivity

/-- A cubic span of length `2^-30`. -/
def exShortKnots : List ℚ := [0, 0, 0, 0, 1 / 2 ^ 30, 1, 1, 1, 1]

example : ∃ D D' : List (List ℚ), basisFunctionDers 3 (1 / 2 ^ 1074) 3 exShortKnots 2 = .ok D ∧
    basisFunctionDersR bin64 3 (fin (1 / 2 ^ 1074)) 3 (exShortKnots.map fin) 2 = .ok (D'.map (List.map fin)) ∧
    Shape D' 4 3 ∧ (∀ r ≤ 3, 0 ≤ at2 D' r 0 0) ∧
    ∀ m ≤ 2, ∑ r ∈ Finset.range 4, |at2 D' r m 0 - at2 D r m 0| ≤
      1 / 10 ^ 14 * ((Nat.descFactorial 3 m : ℕ) * (2 / (1 / 2 ^ 30 - 0)) ^ m) + 1 / 2 ^ 600 :=
  basis_function_ders_binary64 (U := exShortKnots) (k := 3) (p := 3) (by decide +kernel) (by decide) (by decide)
    (by decide) (by decide +kernel) (by decide +kernel) (by decide +kernel) (by decide +kernel) (by decide +kernel)
    (by decide +kernel) 2

/-- Without a bound on the span the derivatives overflow: on a span of length `2^-1023` the second
derivatives in double precision are infinite. -/
theorem basis_function_ders_overflow :
    (basisFunctionDersR bin64 2 (fin 0) 2 ([0, 0, 0, 1 / 2 ^ 1023, 1, 1, 1].map fin) 2).map
      (fun D => (at2 D 0 0 0, at2 D 0 2 0)) = .ok (fin 1, inf false) := by
  decide +kernel

theorem pow_error80 (k : ℕ) (hk : k ≤ 80) : (1 / (1 - 1 / 2 ^ 53 : ℚ)) ^ k - 1 ≤ 1 / 10 ^ 14 := by
  have h1 : (1 : ℚ) ≤ 1 / (1 - 1 / 2 ^ 53) := by norm_num
  have h2 : (1 / (1 - 1 / 2 ^ 53 : ℚ)) ^ k ≤ (1 / (1 - 1 / 2 ^ 53)) ^ 80 := pow_le_pow_right₀ h1 hk
  have h3 : (1 / (1 - 1 / 2 ^ 53 : ℚ)) ^ 80 - 1 ≤ 1 / 10 ^ 14 := by decide +kernel
  linarith

theorem dersBounds_bin64 {p : ℕ} (hp : p ≤ 5) :
    (1 ≤ dersBound p (2 ^ 40 : ℚ) ∧ dersBound p (2 ^ 40 : ℚ) ≤ 2 ^ 212) ∧
    (0 ≤ dersShare p (2 ^ 40 : ℚ) (1 / 2 ^ 1075) ∧ dersShare p (2 ^ 40 : ℚ) (1 / 2 ^ 1075) ≤ 1 / 2 ^ 846) := by
  interval_cases p <;> decide +kernel

/-- The share of underflow for degrees up to 5. -/
theorem dersShare_surface {p q : ℕ} {C : ℚ} (hp : p ≤ 5) (hq : q ≤ 5) (hC : 0 ≤ C) :
    0 ≤ bilinearShare (p + 1) (q + 1) C (dersBound p (2 ^ 40)) (dersShare p (2 ^ 40) (1 / 2 ^ 1075))
      (dersBound q (2 ^ 40)) (dersShare q (2 ^ 40) (1 / 2 ^ 1075)) (1 / 2 ^ 1075) ∧
    bilinearShare (p + 1) (q + 1) C (dersBound p (2 ^ 40)) (dersShare p (2 ^ 40) (1 / 2 ^ 1075))
      (dersBound q (2 ^ 40)) (dersShare q (2 ^ 40) (1 / 2 ^ 1075)) (1 / 2 ^ 1075) ≤ (C + 1) * (1 / 2 ^ 620) ∧
    ((p + 1 : ℕ) : ℚ) * (C * dersShare p (2 ^ 40) (1 / 2 ^ 1075) + 1 / 2 ^ 1075) ≤ C + 1 := by
  obtain ⟨⟨a1, a2⟩, a3, a4⟩ := dersBounds_bin64 hp
  obtain ⟨⟨b1, b2⟩, b3, b4⟩ := dersBounds_bin64 hq
  have hp' : ((p + 1 : ℕ) : ℚ) ≤ 6 := by exact_mod_cast Nat.succ_le_succ hp
  have hq' : ((q + 1 : ℕ) : ℚ) ≤ 6 := by exact_mod_cast Nat.succ_le_succ hq
  have hp0 : (0 : ℚ) ≤ ((p + 1 : ℕ) : ℚ) := Nat.cast_nonneg _
  have hq0 : (0 : ℚ) ≤ ((q + 1 : ℕ) : ℚ) := Nat.cast_nonneg _
  generalize dersBound p (2 ^ 40 : ℚ) = S1 at *
  generalize dersBound q (2 ^ 40 : ℚ) = S2 at *
  generalize dersShare p (2 ^ 40 : ℚ) (1 / 2 ^ 1075) = T1 at *
  generalize dersShare q (2 ^ 40 : ℚ) (1 / 2 ^ 1075) = T2 at *
  have e0 : (0 : ℚ) ≤ 1 / 2 ^ 1075 := by positivity
  have e1 : (1 : ℚ) / 2 ^ 1075 ≤ 1 / 2 ^ 846 := by decide +kernel
  generalize (1 : ℚ) / 2 ^ 1075 = η at *
  have c1 : 0 ≤ C * T1 := mul_nonneg hC a3
  have c2 : C * T1 ≤ C * (1 / 2 ^ 846) := mul_le_mul_of_nonneg_left a4 hC
  have d1 : ((p + 1 : ℕ) : ℚ) * (C * T1 + η) ≤ 6 * ((C + 1) * (1 / 2 ^ 846)) :=
    mul_le_mul hp' (by linarith) (by linarith) (by norm_num)
  have d0 : 0 ≤ ((p + 1 : ℕ) : ℚ) * (C * T1 + η) := mul_nonneg hp0 (by linarith)
  have f1 : C * S1 * T2 ≤ C * 2 ^ 212 * (1 / 2 ^ 846) :=
    mul_le_mul (mul_le_mul_of_nonneg_left a2 hC) b4 b3 (by positivity)
  have f0 : 0 ≤ C * S1 * T2 := mul_nonneg (mul_nonneg hC (by linarith)) b3
  have g1 : ((p + 1 : ℕ) : ℚ) * (C * T1 + η) * (S2 + T2) ≤ 6 * ((C + 1) * (1 / 2 ^ 846)) * 2 ^ 213 := by
    refine mul_le_mul d1 ?_ (by linarith) (by positivity)
    have : (2 ^ 212 + 1 / 2 ^ 846 : ℚ) ≤ 2 ^ 213 := by decide +kernel
    linarith
  have g0 : 0 ≤ ((p + 1 : ℕ) : ℚ) * (C * T1 + η) * (S2 + T2) := mul_nonneg d0 (by linarith)
  unfold bilinearShare
  refine ⟨mul_nonneg hq0 (by linarith), ?_, ?_⟩
  · have k1 : (6 * (2 ^ 212 * (1 / 2 ^ 846) + 6 * (1 / 2 ^ 846) * 2 ^ 213 + 1 / 2 ^ 846) : ℚ) ≤ 1 / 2 ^ 620 := by
      decide +kernel
    have k2 : C * (1 / 2 ^ 846) ≤ (C + 1) * (1 / 2 ^ 846) := mul_le_mul_of_nonneg_right (by linarith) (by positivity)
    calc _ ≤ 6 * (C * 2 ^ 212 * (1 / 2 ^ 846) + 6 * ((C + 1) * (1 / 2 ^ 846)) * 2 ^ 213 + (C + 1) * (1 / 2 ^ 846)) :=
          mul_le_mul hq' (by linarith [show 0 ≤ C * (1 / 2 ^ 846 : ℚ) from mul_nonneg hC (by positivity)])
            (by linarith) (by norm_num)
      _ ≤ (C + 1) * (6 * (2 ^ 212 * (1 / 2 ^ 846) + 6 * (1 / 2 ^ 846) * 2 ^ 213 + 1 / 2 ^ 846)) := by
          have : (0 : ℚ) ≤ 2 ^ 212 * (1 / 2 ^ 846) := by positivity
          linarith
      _ ≤ _ := mul_le_mul_of_nonneg_left k1 (by linarith)
  · refine d1.trans ?_
    have k1 : (6 * (1 / 2 ^ 846) : ℚ) ≤ 1 := by decide +kernel
    have := mul_le_mul_of_nonneg_left k1 (show 0 ≤ C + 1 by linarith)
    linarith

/-- **C180** for surfaces in double precision with gradual underflow and overflow: degrees up to 5, distinct
interior knots at least `2^-40` apart, the last ones away from `1`, coordinates of at most `C ≤ 2^500`.
`derivatives` returns numbers, with an error of at most
`1e-14 p ⋯ (p-a+1) (2/hu)^a q ⋯ (q-b+1) (2/hv)^b C + (C + 1) 2^-600` in the mixed derivative of order
`(a, b)`. -/
theorem surface_derivatives_binary64 {s : Surface ℚ} (hs : ClampedSurface s) {u v C : ℚ}
    (hpu : s.degreeU ≤ 5) (hpv : s.degreeV ≤ 5)
    (hdu : ∀ i, s.degreeU ≤ i → i < s.numU → 1 / 2 ^ 40 ≤ knotFn s.kvU (i + 1) - knotFn s.kvU i)
    (hdv : ∀ i, s.degreeV ≤ i → i < s.numV → 1 / 2 ^ 40 ≤ knotFn s.kvV (i + 1) - knotFn s.kvV i)
    (hku : UnitKnots s.degreeU s.numU s.kvU) (hkv : UnitKnots s.degreeV s.numV s.kvV)
    (hgu : knotFn s.kvU (s.numU - 1) ≤ 1 - 102 / 10 ^ 8)
    (hgv : knotFn s.kvV (s.numV - 1) ≤ 1 - 102 / 10 ^ 8)
    (hu : 0 ≤ u ∧ u ≤ 1) (hv : 0 ≤ v ∧ v ≤ 1)
    (hrepu : ∀ x ∈ s.kvU, bin64 x = fin x) (hrepv : ∀ x ∈ s.kvV, bin64 x = fin x) (hu' : bin64 u = fin u)
    (hv' : bin64 v = fin v) (hC : ∀ c < 3, ∀ i < s.numU * s.numV, |coord s.ctrlpts c i| ≤ C)
    (hCM : C ≤ 2 ^ 500) (orderU orderV : ℕ) :
    ∃ m k : ℕ,
      s.degreeU ≤ m ∧ m < s.numU ∧ s.degreeV ≤ k ∧ k < s.numV ∧
      knotFn s.kvU m ≤ u ∧ u ≤ knotFn s.kvU (m + 1) ∧ knotFn s.kvU m < knotFn s.kvU (m + 1) ∧
      knotFn s.kvV k ≤ v ∧ v ≤ knotFn s.kvV (k + 1) ∧ knotFn s.kvV k < knotFn s.kvV (k + 1) ∧
      (∃ D, s.lift.DerivativesR bin64 (fin u) (fin v) orderU orderV D) ∧
      ∀ D, s.lift.DerivativesR bin64 (fin u) (fin v) orderU orderV D →
        D.length = (min orderU s.degreeU + 1) * (min orderV s.degreeV + 1) ∧
        ∀ a ≤ min orderU s.degreeU, ∀ b ≤ min orderV s.degreeV, ∃ q : List ℚ,
          D.getD (a * (min orderV s.degreeV + 1) + b) [] = q.map fin ∧ q.length = 3 ∧
          ∀ c < 3, |q.getD c 0
              - patchDeriv (knotFn s.kvU) m s.degreeU s.numU (knotFn s.kvV) k s.degreeV s.numV
                (coord s.ctrlpts c) a b u v| ≤ 1 / 10 ^ 14 *
              (s.degreeU.descFactorial a * (2 / (knotFn s.kvU (m + 1) - knotFn s.kvU m)) ^ a *
                (s.degreeV.descFactorial b * (2 / (knotFn s.kvV (k + 1) - knotFn s.kvV k)) ^ b) * C) +
              (C + 1) * (1 / 2 ^ 600) := by
  have hnu : knotFn s.kvU s.numU = 1 := by rw [hs.cu.right s.numU le_rfl (by omega), hku.one]
  have hnv : knotFn s.kvV s.numV = 1 := by rw [hs.cv.right s.numV le_rfl (by omega), hkv.one]
  have hsm : (0 : ℚ) < 1 / 2 ^ 40 := one_div_pos.2 (pow_pos (by norm_num) _)
  have hru := regular_of_distinct hs.cu (fun i a b => by linarith [hdu i a b]) hku.zero hku.one hu.1 hu.2 (fun h => by
    rw [abs_of_nonpos (by linarith)] at h
    norm_num at h hgu
    linarith)
  have hrv := regular_of_distinct hs.cv (fun i a b => by linarith [hdv i a b]) hkv.zero hkv.one hv.1 hv.2 (fun h => by
    rw [abs_of_nonpos (by linarith)] at h
    norm_num at h hgv
    linarith)
  have hC0 : 0 ≤ C := (abs_nonneg _).trans (hC 0 (by omega) 0 (by
    have h1 := hs.cu.size
    have h2 := hs.cv.size
    exact Nat.mul_pos (by omega) (by omega)))
  have hsp : ∀ x : ℚ, 1 / 2 ^ 40 ≤ x → 1 ≤ 2 ^ 40 * x := fun x hx => by
    norm_num at hx ⊢
    linarith
  obtain ⟨w0, w1, w2⟩ := dersShare_surface hpu hpv hC0
  obtain ⟨⟨a1, a2⟩, a3, a4⟩ := dersBounds_bin64 hpu
  obtain ⟨⟨b1, b2⟩, b3, b4⟩ := dersBounds_bin64 hpv
  have hg := pow_error80 (7 * s.degreeU + 7 * s.degreeV + 10) (by omega)
  have hg1 : 1 ≤ (1 / (1 - 1 / 2 ^ 53 : ℚ)) ^ (7 * s.degreeU + 7 * s.degreeV + 10) := one_le_pow₀ (by norm_num)
  have q1 : (C + 1) * (1 / 2 ^ 620) ≤ C + 1 := mul_le_of_le_one_right (by linarith) (by decide +kernel)
  have n1 : C * dersBound s.degreeU (2 ^ 40) ≤ 2 ^ 500 * 2 ^ 212 := mul_le_mul hCM a2 (by linarith) (by positivity)
  have n0 : 0 ≤ C * dersBound s.degreeU (2 ^ 40) := mul_nonneg hC0 (by linarith)
  have n2 : C * dersBound s.degreeU (2 ^ 40) * dersBound s.degreeV (2 ^ 40) ≤ 2 ^ 500 * 2 ^ 212 * 2 ^ 212 :=
    mul_le_mul n1 b2 (by linarith) (by positivity)
  have N1 : (2 * (2 ^ 500 * 2 ^ 212 + (2 ^ 500 + 1)) : ℚ) ≤ 2 ^ 1023 := by decide +kernel
  have N2 : (2 * (2 ^ 500 * 2 ^ 212 * 2 ^ 212 + (2 ^ 500 + 1)) : ℚ) ≤ 2 ^ 1023 := by decide +kernel
  have w3 : 0 ≤ ((s.degreeU + 1 : ℕ) : ℚ) * (C * dersShare s.degreeU (2 ^ 40) (1 / 2 ^ 1075) + 1 / 2 ^ 1075) :=
    mul_nonneg (Nat.cast_nonneg _) (add_nonneg (mul_nonneg hC0 a3) (by positivity))
  obtain ⟨m, k, -, -, g1, g2, g3, g4, h1, h2, h3, h4, h5, h6, he, hall⟩ := surface_derivatives_ieee ieeeRounding_bin64 (C := C)
    (B := 2 ^ 40) iscloseR_bin64_refl hs.ok hku hkv hu hv hru hrv
    (fun h => by rw [hnu] at h; exact hgu.trans (iscloseR_bin64_one hu.1 hu.2 h))
    (fun h => by rw [hnv] at h; exact hgv.trans (iscloseR_bin64_one hv.1 hv.2 h)) hrepu hrepv hu' hv'
    (fun i a b _ => hsp _ (hdu i a b)) (fun i a b _ => hsp _ (hdv i a b)) hC
    (dersSize_bin64 (by omega)) (dersSize_bin64 (by omega)) (by decide +kernel)
    (by
      refine le_trans (mul_le_mul (show _ ≤ (2 : ℚ) by linarith) (add_le_add n1 (w2.trans (by linarith)))
        (add_nonneg n0 w3) (by norm_num)) N1)
    (by
      refine le_trans (mul_le_mul (show _ ≤ (2 : ℚ) by linarith) (add_le_add n2 (w1.trans (by linarith)))
        (add_nonneg (mul_nonneg n0 (by linarith)) w0) (by norm_num)) N2) orderU orderV
  refine ⟨m, k, g1, g2, g3, g4, h1, h2, h3, h4, h5, h6, he, fun D hD => ?_⟩
  obtain ⟨e1, e2⟩ := hall D hD
  refine ⟨e1, fun a ha b hb => ?_⟩
  obtain ⟨q, e3, e4, e5⟩ := e2 a ha b hb
  refine ⟨q, e3, e4, fun c hc => (e5 c hc).trans (add_le_add (mul_le_mul_of_nonneg_right hg ?_) ?_)⟩
  · have x1 : (0 : ℚ) ≤ 2 / (knotFn s.kvU (m + 1) - knotFn s.kvU m) := div_nonneg (by norm_num) (sub_pos.2 h3).le
    have x2 : (0 : ℚ) ≤ 2 / (knotFn s.kvV (k + 1) - knotFn s.kvV k) := div_nonneg (by norm_num) (sub_pos.2 h6).le
    exact mul_nonneg (mul_nonneg (mul_nonneg (Nat.cast_nonneg _) (pow_nonneg x1 _))
      (mul_nonneg (Nat.cast_nonneg _) (pow_nonneg x2 _))) hC0
  · refine (mul_le_mul (show _ ≤ (2 : ℚ) by linarith) w1 w0 (by norm_num)).trans ?_
    have k1 : (2 * (1 / 2 ^ 620) : ℚ) ≤ 1 / 2 ^ 600 := by decide +kernel
    have := mul_le_mul_of_nonneg_left k1 (show 0 ≤ C + 1 by linarith)
    linarith

example : ∃ m k : ℕ, 2 ≤ m ∧ m < 4 ∧ 1 ≤ k ∧ k < 3 ∧ knotFn exS.kvU m ≤ 1 / 8 ∧ 1 / 8 ≤ knotFn exS.kvU (m + 1) ∧ knotFn exS.kvU m < knotFn exS.kvU (m + 1) ∧
    knotFn exS.kvV k ≤ 1 / 2 ^ 1074 ∧ 1 / 2 ^ 1074 ≤ knotFn exS.kvV (k + 1) ∧ knotFn exS.kvV k < knotFn exS.kvV (k + 1) ∧
    (∃ D, exS.lift.DerivativesR bin64 (fin (1 / 8)) (fin (1 / 2 ^ 1074)) 2 1 D) ∧
    ∀ D, exS.lift.DerivativesR bin64 (fin (1 / 8)) (fin (1 / 2 ^ 1074)) 2 1 D → D.length = 6 ∧
      ∀ a ≤ 2, ∀ b ≤ 1, ∃ q : List ℚ, D.getD (a * 2 + b) [] = q.map fin ∧ q.length = 3 ∧
        ∀ c < 3, |q.getD c 0 - patchDeriv (knotFn exS.kvU) m 2 4 (knotFn exS.kvV) k 1 3 (coord exS.ctrlpts c) a b
          (1 / 8) (1 / 2 ^ 1074)| ≤ 1 / 10 ^ 14 * (((Nat.descFactorial 2 a : ℕ) : ℚ)
            * (2 / (knotFn exS.kvU (m + 1) - knotFn exS.kvU m)) ^ a * (((Nat.descFactorial 1 b : ℕ) : ℚ)
              * (2 / (knotFn exS.kvV (k + 1) - knotFn exS.kvV k)) ^ b) * 5) + (5 + 1) * (1 / 2 ^ 600) :=
  surface_derivatives_binary64 exS_clamped (by decide) (by decide)
    (by intro i h1 h2; change 2 ≤ i at h1; change i < 4 at h2; interval_cases i <;> decide +kernel)
    (by intro i h1 h2; change 1 ≤ i at h1; change i < 3 at h2; interval_cases i <;> decide +kernel)
    exS_unit.1 exS_unit.2 (by decide +kernel) (by decide +kernel) (by norm_num) (by decide +kernel)
    (by decide +kernel) (by decide +kernel) (by decide +kernel) (by decide +kernel) (by decide +kernel)
    (by decide +kernel) 2 1

end PySpline
