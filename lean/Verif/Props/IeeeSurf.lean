import Verif.Props.Ieee
import Verif.Lemmas.IeeeSurf

/-!
# C160 for surfaces
-/

set_option linter.unusedSectionVars false
set_option exponentiation.threshold 1100

namespace PySpline

open Polynomial Spec Ext

section
variable {K : Type} [Field K] [LinearOrder K] [IsStrictOrderedRing K]

/-- **C160** for surfaces on `[0, 1]²`, whatever the order of the summations: every computed point
consists of three numbers, each with an error of at most
`((1/ρ)^(7p+7q+2) - 1) ∑ |P_ij| N_i(u) N_j(v)` plus the share of underflow
`(1/ρ)^(7p+7q+2) (q+1) (3 (4^q - 1) C + 2 (p+1) (3 (4^p - 1) C + 1) + 1) η`; and a point is
returned. -/
theorem surface_point_ieee {ρ η M C : K} {rd : K → Ext K} (hr : IeeeRounding ρ η M rd)
    (hrefl : ∀ x, iscloseR rd (fin x) (fin x) (1 / 10 ^ 6) atolDefault = true) {s : Surface K}
    (hs : ClampedSurface s) (hku : UnitKnots s.degreeU s.numU s.kvU) (hkv : UnitKnots s.degreeV s.numV s.kvV)
    {u v : K} (hu : 0 ≤ u ∧ u ≤ 1) (hv : 0 ≤ v ∧ v ≤ 1)
    (hru : Regular s.degreeU s.numU s.kvU u) (hrv : Regular s.degreeV s.numV s.kvV v)
    (hlu : iscloseR rd (fin u) (fin (knotFn s.kvU s.numU)) (1 / 10 ^ 6) atolDefault = true →
      knotFn s.kvU (s.numU - 1) ≤ u)
    (hlv : iscloseR rd (fin v) (fin (knotFn s.kvV s.numV)) (1 / 10 ^ 6) atolDefault = true →
      knotFn s.kvV (s.numV - 1) ≤ v)
    (hrepu : ∀ x ∈ s.kvU, rd x = fin x) (hrepv : ∀ x ∈ s.kvV, rd x = fin x) (hu' : rd u = fin u)
    (hv' : rd v = fin v)
    (hshu : ∀ i, s.degreeU ≤ i → i < s.numU → knotFn s.kvU i < knotFn s.kvU (i + 1) →
      8 ≤ M * (knotFn s.kvU (i + 1) - knotFn s.kvU i))
    (hshv : ∀ i, s.degreeV ≤ i → i < s.numV → knotFn s.kvV i < knotFn s.kvV (i + 1) →
      8 ≤ M * (knotFn s.kvV (i + 1) - knotFn s.kvV i))
    (hC : ∀ c < 3, ∀ i < s.numU * s.numV, |coord s.ctrlpts c i| ≤ C)
    (hρu : 1 ≤ 2 * ρ ^ (6 * s.degreeU)) (hρv : 1 ≤ 2 * ρ ^ (6 * s.degreeV))
    (hEu : 4 ^ s.degreeU * 3 * η ≤ 1) (hEv : 4 ^ s.degreeV * 3 * η ≤ 1) (hM8 : 8 ≤ M)
    (hM : (1 / ρ) ^ (7 * s.degreeU + 7 * s.degreeV + 2) * (C + (s.degreeV + 1) * ((3 * (4 ^ s.degreeV - 1) * C
      + 2 * (s.degreeU + 1) * (3 * (4 ^ s.degreeU - 1) * C + 1) + 1) * η)) ≤ M) :
    (∃ pt, Surface.PointR rd s.lift (fin u) (fin v) pt) ∧
    ∀ pt, Surface.PointR rd s.lift (fin u) (fin v) pt → ∃ q : List K, pt = q.map fin ∧ q.length = 3 ∧
      ∀ c < 3, |q.getD c 0 - s.value c u v| ≤ ((1 / ρ) ^ (7 * s.degreeU + 7 * s.degreeV + 2) - 1)
        * surface (knotFn s.kvU) s.degreeU s.numU (knotFn s.kvV) s.degreeV s.numV
          (fun i => |coord s.ctrlpts c i|) u v
        + (1 / ρ) ^ (7 * s.degreeU + 7 * s.degreeV + 2) * ((s.degreeV + 1) * ((3 * (4 ^ s.degreeV - 1) * C
          + 2 * (s.degreeU + 1) * (3 * (4 ^ s.degreeU - 1) * C + 1) + 1) * η)) := by
  have hok := hs.ok
  obtain ⟨m, hm, hm1, hm2, hm3, hm4, hm5⟩ := findSpanWith_regular
    (close := fun a b => iscloseR rd (fin a) (fin b) (1 / 10 ^ 6) atolDefault) hok.ku hrefl hru.lo hru.hi hru.simple hlu
  obtain ⟨k, hk, hk1, hk2, hk3, hk4, hk5⟩ := findSpanWith_regular
    (close := fun a b => iscloseR rd (fin a) (fin b) (1 / 10 ^ 6) atolDefault) hok.kv hrefl hrv.lo hrv.hi hrv.simple hlv
  rw [← findSpanR_lift] at hm hk
  have l1 := hok.ku.len
  have l2 := hok.kv.len
  have hVu := monotone_knotFn hok.ku.mono
  have hVv := monotone_knotFn hok.kv.mono
  have hwid : ∀ {p n : ℕ} {U : List K}, UnitKnots p n U → Monotone (knotFn U) → ∀ {m}, m < n →
      knotFn U (m + p) - knotFn U (m + 1 - p) ≤ 1 := by
    intro p n U hU hV m hm
    have a1 : knotFn U (m + p) ≤ knotFn U (n + p) := hV (by omega)
    have a2 : knotFn U 0 ≤ knotFn U (m + 1 - p) := hV (by omega)
    rw [hU.one] at a1
    rw [hU.zero] at a2
    linarith
  obtain ⟨bu, hbu, hbul, hbun⟩ := basisFunctionsR_near hr (H := 1) hVu hm1 (by omega) hm5 hm3 hm4 hrepu hu'
    (hwid hku hVu hm2) (by norm_num; exact hEu) hM8 (hshu m hm1 hm2 hm5) (by linarith) hρu
  obtain ⟨bv, hbv, hbvl, hbvn⟩ := basisFunctionsR_near hr (H := 1) hVv hk1 (by omega) hk5 hk3 hk4 hrepv hv'
    (hwid hkv hVv hk2) (by norm_num; exact hEv) hM8 (hshv k hk1 hk2 hk5) (by linarith) hρv
  have hcol : ∀ c : ℕ, c < 3 → columnE s.lift.ctrlpts (c : ℤ)
      = .ok (lift1 ((List.range (s.numU * s.numV)).map (coord s.ctrlpts c))) := fun c h =>
    (columnE_follows _ _).value (column_all hok.shape c c rfl h)
  have hresh : ∀ c, reshape2E (lift1 ((List.range (s.numU * s.numV)).map (coord s.ctrlpts c))) s.numU s.numV
      = .ok (lift2 ((List.range s.numU).map fun i => (List.range s.numV).map fun j =>
        coord s.ctrlpts c (i * s.numV + j))) := fun c =>
    (reshape2E_follows _ _ _).value (reshape2_map_range _ _ _)
  have hsl : ∀ c, slice2E (lift2 ((List.range s.numU).map fun i => (List.range s.numV).map fun j =>
        coord s.ctrlpts c (i * s.numV + j))) ((m : ℤ) - s.degreeU) ((m : ℤ) + 1)
        ((k : ℤ) - s.degreeV) ((k : ℤ) + 1)
      = lift2 ((List.range (s.degreeU + 1)).map fun i => (List.range (s.degreeV + 1)).map fun j =>
        coord s.ctrlpts c ((m - s.degreeU + i) * s.numV + (k - s.degreeV + j))) := fun c => by
    rw [slice2E_lift]
    exact congrArg lift2 (slice2_map_range (fun i j => coord s.ctrlpts c (i * s.numV + j)) (by omega) (by omega)
      (by omega) (by omega) (by omega) (by omega))
  have hone : ∀ {p m : ℕ} {U : List K} {x : K}, Monotone (knotFn U) → p ≤ m → knotFn U m < knotFn U (m + 1) →
      ∑ r ∈ Finset.range (p + 1), (piece (knotFn U) m p (m - p + r)).eval x = 1 := by
    intro p m U x hV hpm hs
    have := congrArg (eval x) (sum_pieces_range hV hpm hs)
    rw [eval_finsetSum] at this
    simpa using this
  have hsum : ∀ e : ℕ → K, ∑ i ∈ Finset.range (s.degreeU + 1), ∑ j ∈ Finset.range (s.degreeV + 1),
      (piece (knotFn s.kvU) m s.degreeU (m - s.degreeU + i)).eval u
        * e ((m - s.degreeU + i) * s.numV + (k - s.degreeV + j))
        * (piece (knotFn s.kvV) k s.degreeV (k - s.degreeV + j)).eval v
      = surface (knotFn s.kvU) s.degreeU s.numU (knotFn s.kvV) s.degreeV s.numV e u v := by
    intro e
    rw [sum_active2 (c := fun i j => e (i * s.numV + j))
      (f := fun i => (piece (knotFn s.kvU) m s.degreeU i).eval u)
      (g := fun j => (piece (knotFn s.kvV) k s.degreeV j).eval v) hm1 hm2 hk1 hk2]
    · unfold surface
      refine Finset.sum_congr rfl fun i hi => Finset.sum_congr rfl fun j hj => ?_
      rw [piece_eq_Nclosed hs.cu hs.du hru hm2 hm1 hm3 hm4 hm5 i (Finset.mem_range.1 hi),
        piece_eq_Nclosed hs.cv hs.dv hrv hk2 hk1 hk3 hk4 hk5 j (Finset.mem_range.1 hj)]
    all_goals
      rintro i (h | h)
      · rw [piece_eq_zero_of_gt _ _ _ _ h, eval_zero]
      · rw [piece_eq_zero_of_lt _ _ _ _ h, eval_zero]
  have hshare : ((s.degreeV + 1 : ℕ) : K) * (C * ((4 ^ s.degreeV - 1) * ((2 * 1 + 1) * η))
      + 2 * (((s.degreeU + 1 : ℕ) : K) * (C * ((4 ^ s.degreeU - 1) * ((2 * 1 + 1) * η)) + η)) + η)
      = (s.degreeV + 1) * ((3 * (4 ^ s.degreeV - 1) * C
        + 2 * (s.degreeU + 1) * (3 * (4 ^ s.degreeU - 1) * C + 1) + 1) * η) := by
    push_cast
    ring
  have hexp : 6 * s.degreeU + (s.degreeU + 1) + 6 * s.degreeV + (s.degreeV + 1)
      = 7 * s.degreeU + 7 * s.degreeV + 2 := by omega
  have hval : ∀ c < 3, ∀ x, BilinearR rd bu (lift2 ((List.range (s.degreeU + 1)).map fun i =>
      (List.range (s.degreeV + 1)).map fun j =>
        coord s.ctrlpts c ((m - s.degreeU + i) * s.numV + (k - s.degreeV + j)))) bv x →
      ∃ y, x = fin y ∧ |y - s.value c u v| ≤ ((1 / ρ) ^ (7 * s.degreeU + 7 * s.degreeV + 2) - 1)
        * surface (knotFn s.kvU) s.degreeU s.numU (knotFn s.kvV) s.degreeV s.numV
          (fun i => |coord s.ctrlpts c i|) u v
        + (1 / ρ) ^ (7 * s.degreeU + 7 * s.degreeV + 2) * ((s.degreeV + 1) * ((3 * (4 ^ s.degreeV - 1) * C
          + 2 * (s.degreeU + 1) * (3 * (4 ^ s.degreeU - 1) * C + 1) + 1) * η)) := by
    intro c hc x hx
    have := BilinearR.approx hr (C := C)
      (fun i j => coord s.ctrlpts c ((m - s.degreeU + i) * s.numV + (k - s.degreeV + j))) (by omega) (by omega)
      hbul hbvl (fun i hi => hbun i (by omega)) (fun j hj => hbvn j (by omega))
      (fun i hi j hj => by
        refine hC c hc _ ?_
        have h1 : m - s.degreeU + i < s.numU := by omega
        have h2 : k - s.degreeV + j < s.numV := by omega
        calc _ < (m - s.degreeU + i) * s.numV + s.numV := by omega
          _ = (m - s.degreeU + i + 1) * s.numV := by ring
          _ ≤ _ := Nat.mul_le_mul_right _ h1)
      (hone hVu hm1 hm5) (hone hVv hk1 hk5) (by
        have h1 : (1 : K) ≤ 4 ^ s.degreeV := one_le_pow₀ (by norm_num)
        have h2 := mul_nonneg hr.eta (show (0 : K) ≤ 3 by norm_num)
        linarith) (by rw [hexp, hshare]; exact hM) hx
    rw [hexp, hshare, hsum (coord s.ctrlpts c), hsum fun i => |coord s.ctrlpts c i|] at this
    exact this
  have hvk : ∀ {x : K}, 0 ≤ x ∧ x ≤ 1 → validateKnotE (fin x) = true := by
    intro x hx
    show (le 0 (fin x) && le (fin x) 1) = true
    rw [Bool.and_eq_true]
    exact ⟨(le_lift 0 x).2 hx.1, (le_lift x 1).2 hx.2⟩
  constructor
  · have hex := fun c => BilinearR.exists rd (bu := bu) (bv := bv)
      (fun i j => coord s.ctrlpts c ((m - s.degreeU + i) * s.numV + (k - s.degreeV + j)))
      (a := s.degreeU + 1) (b := s.degreeV + 1) (by omega) (by omega) hbul hbvl
    obtain ⟨x, hx⟩ := hex 0
    obtain ⟨y, hy⟩ := hex 1
    obtain ⟨z, hz⟩ := hex 2
    rw [← hsl] at hx hy hz
    exact ⟨[x, y, z], m, k, bu, bv, hvk hu, hvk hv, hm, hk, hbu, hbv,
      _, _, _, _, _, _, x, y, z, hcol 0 (by omega), hcol 1 (by omega), hcol 2 (by omega),
      hresh _, hresh _, hresh _, hx, hy, hz, rfl⟩
  · rintro pt ⟨uS, vS, bu', bv', -, -, e1, e2, e3, e4, cx, cy, cz, xa, ya, za, x, y, z, c0, c1, c2,
      r0, r1, r2, dx, dy, dz, rfl⟩
    have a1 := hm.symm.trans e1
    cases a1
    have a2 := hk.symm.trans e2
    cases a2
    have a3 := hbu.symm.trans e3
    cases a3
    have a4 := hbv.symm.trans e4
    cases a4
    have a0 := (hcol 0 (by omega)).symm.trans c0
    have a1 := (hcol 1 (by omega)).symm.trans c1
    have a2 := (hcol 2 (by omega)).symm.trans c2
    cases a0
    cases a1
    cases a2
    have b0 := (hresh 0).symm.trans r0
    have b1 := (hresh 1).symm.trans r1
    have b2 := (hresh 2).symm.trans r2
    cases b0
    cases b1
    cases b2
    have dx' := (hsl 0) ▸ dx
    have dy' := (hsl 1) ▸ dy
    have dz' := (hsl 2) ▸ dz
    obtain ⟨x, rfl, hx⟩ := hval 0 (by omega) x dx'
    obtain ⟨y, rfl, hy⟩ := hval 1 (by omega) y dy'
    obtain ⟨z, rfl, hz⟩ := hval 2 (by omega) z dz'
    refine ⟨[x, y, z], rfl, rfl, fun c hc => ?_⟩
    interval_cases c
    · exact hx
    · exact hy
    · exact hz

end

/-- The share of underflow for degrees up to 5. -/
theorem underflow_share {p q : ℕ} {C : ℚ} (hpu : p ≤ 5) (hpv : q ≤ 5) (hC0 : 0 ≤ C) :
    0 ≤ ((q : ℚ) + 1) * ((3 * (4 ^ q - 1) * C + 2 * (p + 1) * (3 * (4 ^ p - 1) * C + 1) + 1) * (1 / 2 ^ 1075)) ∧
    ((q : ℚ) + 1) * ((3 * (4 ^ q - 1) * C + 2 * (p + 1) * (3 * (4 ^ p - 1) * C + 1) + 1) * (1 / 2 ^ 1075))
      ≤ (C + 1) * (1 / 2 ^ 1050) * (1 / 2) := by
  have hQ0 : (0 : ℚ) < 1 / 2 ^ 1050 := one_div_pos.2 (pow_pos (by norm_num) _)
  have h4 : ∀ {r : ℕ}, r ≤ 5 → (4 : ℚ) ^ r ≤ 2 ^ 10 := fun h =>
    (pow_le_pow_right₀ (by norm_num) h).trans (by norm_num)
  have h4' : ∀ p : ℕ, (1 : ℚ) ≤ 4 ^ p := fun p => one_le_pow₀ (by norm_num)
  have h4u := h4 hpu
  have h4v := h4 hpv
  have h4u' := h4' p
  have h4v' := h4' q
  have hqu : (p : ℚ) ≤ 5 := by exact_mod_cast hpu
  have hqv : (q : ℚ) ≤ 5 := by exact_mod_cast hpv
  have hqu0 : (0 : ℚ) ≤ p := Nat.cast_nonneg _
  have hqv0 : (0 : ℚ) ≤ q := Nat.cast_nonneg _
  -- the share of underflow
  have hx : ∀ p : ℕ, p ≤ 5 → 0 ≤ 3 * ((4 : ℚ) ^ p - 1) * C ∧ 3 * ((4 : ℚ) ^ p - 1) * C ≤ 2 ^ 12 * C := fun p hp =>
    ⟨mul_nonneg (by linarith [h4' p]) hC0, mul_le_mul_of_nonneg_right (by linarith [h4 hp]) hC0⟩
  have hxu := hx _ hpu
  have hxv := hx _ hpv
  have hy : 2 * ((p : ℚ) + 1) * (3 * (4 ^ p - 1) * C + 1) ≤ 12 * (2 ^ 12 * C + 1) :=
    mul_le_mul (by linarith) (by linarith) (by linarith) (by norm_num)
  have hy0 : 0 ≤ 2 * ((p : ℚ) + 1) * (3 * (4 ^ p - 1) * C + 1) :=
    mul_nonneg (by linarith) (by linarith)
  have hall : ((q : ℚ) + 1) * (3 * (4 ^ q - 1) * C
      + 2 * (p + 1) * (3 * (4 ^ p - 1) * C + 1) + 1) ≤ 6 * (13 * (2 ^ 12 * C + 1)) :=
    mul_le_mul (by linarith) (by linarith) (by linarith) (by norm_num)
  have hshare : ((q : ℚ) + 1) * ((3 * (4 ^ q - 1) * C
      + 2 * (p + 1) * (3 * (4 ^ p - 1) * C + 1) + 1) * (1 / 2 ^ 1075))
      ≤ (C + 1) * (1 / 2 ^ 1050) * (1 / 2) := by
    rw [two_pow_1075]
    calc _ = ((q : ℚ) + 1) * (3 * (4 ^ q - 1) * C
        + 2 * (p + 1) * (3 * (4 ^ p - 1) * C + 1) + 1) * (1 / 2 ^ 25) * (1 / 2 ^ 1050) := by ring
      _ ≤ ((C + 1) * (1 / 2)) * (1 / 2 ^ 1050) := mul_le_mul_of_nonneg_right (by linarith) hQ0.le
      _ = _ := by ring
  have hshare0 : 0 ≤ ((q : ℚ) + 1) * ((3 * (4 ^ q - 1) * C
      + 2 * (p + 1) * (3 * (4 ^ p - 1) * C + 1) + 1) * (1 / 2 ^ 1075)) :=
    mul_nonneg (by linarith) (mul_nonneg (by linarith) (one_div_pos.2 (pow_pos (by norm_num) _)).le)
  exact ⟨hshare0, hshare⟩

/-- The bound on the degree. -/
theorem four_pow_le {r : ℕ} (h : r ≤ 5) : (4 : ℚ) ^ r ≤ 2 ^ 10 :=
  (pow_le_pow_right₀ (by norm_num) h).trans (by norm_num)

/-- **C160** for surfaces in double precision with gradual underflow and overflow: degrees up to 5, knots
at least `2^-1000` apart, the last interior knots away from `1`, coordinates of at most `C ≤ 2^1000`. -/
theorem surface_point_binary64 {s : Surface ℚ} (hs : ClampedSurface s) {u v C : ℚ}
    (hpu : s.degreeU ≤ 5) (hpv : s.degreeV ≤ 5)
    (hdu : ∀ i, s.degreeU ≤ i → i < s.numU → 1 / 2 ^ 1000 ≤ knotFn s.kvU (i + 1) - knotFn s.kvU i)
    (hdv : ∀ i, s.degreeV ≤ i → i < s.numV → 1 / 2 ^ 1000 ≤ knotFn s.kvV (i + 1) - knotFn s.kvV i)
    (hku : UnitKnots s.degreeU s.numU s.kvU) (hkv : UnitKnots s.degreeV s.numV s.kvV)
    (hgu : knotFn s.kvU (s.numU - 1) ≤ 1 - 102 / 10 ^ 8)
    (hgv : knotFn s.kvV (s.numV - 1) ≤ 1 - 102 / 10 ^ 8)
    (hu : 0 ≤ u ∧ u ≤ 1) (hv : 0 ≤ v ∧ v ≤ 1)
    (hrepu : ∀ x ∈ s.kvU, bin64 x = fin x) (hrepv : ∀ x ∈ s.kvV, bin64 x = fin x) (hu' : bin64 u = fin u)
    (hv' : bin64 v = fin v) (hC : ∀ c < 3, ∀ i < s.numU * s.numV, |coord s.ctrlpts c i| ≤ C)
    (hCM : C ≤ 2 ^ 1000) :
    (∃ pt, Surface.PointR bin64 s.lift (fin u) (fin v) pt) ∧
    ∀ pt, Surface.PointR bin64 s.lift (fin u) (fin v) pt → ∃ q : List ℚ, pt = q.map fin ∧ q.length = 3 ∧
      ∀ c < 3, |q.getD c 0 - s.value c u v| ≤ 1 / 10 ^ 14
        * surface (knotFn s.kvU) s.degreeU s.numU (knotFn s.kvV) s.degreeV s.numV
          (fun i => |coord s.ctrlpts c i|) u v + (C + 1) * (1 / 2 ^ 1050) := by
  have hnu : knotFn s.kvU s.numU = 1 := by rw [hs.cu.right s.numU le_rfl (by omega), hku.one]
  have hnv : knotFn s.kvV s.numV = 1 := by rw [hs.cv.right s.numV le_rfl (by omega), hkv.one]
  have hsm : (0 : ℚ) < 1 / 2 ^ 1000 := one_div_pos.2 (pow_pos (by norm_num) _)
  have hru := regular_of_distinct hs.cu (fun i a b => by linarith [hdu i a b]) hku.zero hku.one hu.1 hu.2 (fun h => by
    rw [abs_of_nonpos (by linarith)] at h
    norm_num at h hgu
    linarith)
  have hrv := regular_of_distinct hs.cv (fun i a b => by linarith [hdv i a b]) hkv.zero hkv.one hv.1 hv.2 (fun h => by
    rw [abs_of_nonpos (by linarith)] at h
    norm_num at h hgv
    linarith)
  have hB : (1 : ℚ) ≤ 2 ^ 1000 := one_le_pow₀ (by norm_num)
  have hQ0 : (0 : ℚ) < 1 / 2 ^ 1050 := one_div_pos.2 (pow_pos (by norm_num) _)
  have hQ1 : (1 : ℚ) / 2 ^ 1050 ≤ 1 / 2 := one_div_le_one_div_of_le (by norm_num)
    (le_self_pow₀ (by norm_num) (by norm_num))
  have hC0 : 0 ≤ C := (abs_nonneg _).trans (hC 0 (by omega) 0 (by
    have h1 := hs.cu.size
    have h2 := hs.cv.size
    exact Nat.mul_pos (by omega) (by omega)))
  obtain ⟨hshare0, hshare⟩ := underflow_share hpu hpv hC0
  have hg := pow_error (7 * s.degreeU + 7 * s.degreeV + 2) (by omega)
  have hg1 : 1 ≤ (1 / (1 - 1 / 2 ^ 53 : ℚ)) ^ (7 * s.degreeU + 7 * s.degreeV + 2) := one_le_pow₀ (by norm_num)
  have hCQ : (C + 1) * (1 / 2 ^ 1050) ≤ C + 1 := mul_le_of_le_one_right (by linarith) (by linarith)
  have hshort : ∀ x : ℚ, 1 / 2 ^ 1000 ≤ x → 8 ≤ 2 ^ 1023 * x := fun x hx => by
    rw [two_pow_1023]
    calc (8 : ℚ) ≤ 2 ^ 23 * 1 := by norm_num
      _ = 2 ^ 23 * (2 ^ 1000 * (1 / 2 ^ 1000)) := by rw [mul_one_div_cancel (by positivity)]
      _ = 2 ^ 1000 * 2 ^ 23 * (1 / 2 ^ 1000) := by ring
      _ ≤ _ := mul_le_mul_of_nonneg_left hx (by positivity)
  have hE : ∀ p : ℕ, p ≤ 5 → (4 : ℚ) ^ p * 3 * (1 / 2 ^ 1075) ≤ 1 := fun p hp => by
    rw [two_pow_1075]
    calc (4 : ℚ) ^ p * 3 * (1 / 2 ^ 1050 * (1 / 2 ^ 25)) = (4 ^ p * 3 * (1 / 2 ^ 25)) * (1 / 2 ^ 1050) := by ring
      _ ≤ 1 * 1 := mul_le_mul (by linarith [four_pow_le hp]) (by linarith) hQ0.le zero_le_one
      _ = 1 := one_mul 1
  obtain ⟨he, hall⟩ := surface_point_ieee ieeeRounding_bin64 (C := C) iscloseR_bin64_refl hs hku hkv hu hv hru hrv
    (fun h => by rw [hnu] at h; exact hgu.trans (iscloseR_bin64_one hu.1 hu.2 h))
    (fun h => by rw [hnv] at h; exact hgv.trans (iscloseR_bin64_one hv.1 hv.2 h)) hrepu hrepv hu' hv'
    (fun i a b _ => hshort _ (hdu i a b)) (fun i a b _ => hshort _ (hdv i a b)) hC
    (pow_rho _ (by omega)) (pow_rho _ (by omega)) (hE _ hpu) (hE _ hpv)
    (by rw [two_pow_1023]; linarith)
    (by
      rw [two_pow_1023]
      calc _ ≤ (2 : ℚ) * (C + (C + 1)) := mul_le_mul (by linarith) (by linarith) (by linarith) (by norm_num)
        _ ≤ _ := by linarith)
  refine ⟨he, fun pt hpt => ?_⟩
  obtain ⟨q, e1, e2, e3⟩ := hall pt hpt
  refine ⟨q, e1, e2, fun c hc => (e3 c hc).trans (add_le_add (mul_le_mul_of_nonneg_right hg ?_) ?_)⟩
  · refine Finset.sum_nonneg fun i _ => Finset.sum_nonneg fun j _ => ?_
    exact mul_nonneg (mul_nonneg (abs_nonneg _) (Nclosed_nonneg (monotone_knotFn hs.cu.mono) _ _ i u))
      (Nclosed_nonneg (monotone_knotFn hs.cv.mono) _ _ j v)
  · calc _ ≤ (2 : ℚ) * ((C + 1) * (1 / 2 ^ 1050) * (1 / 2)) :=
          mul_le_mul (by linarith) hshare hshare0 (by norm_num)
      _ = _ := by ring

example : (∃ pt, Surface.PointR bin64 exS.lift (fin (1 / 8)) (fin (1 / 2 ^ 1074)) pt) ∧
    ∀ pt, Surface.PointR bin64 exS.lift (fin (1 / 8)) (fin (1 / 2 ^ 1074)) pt → ∃ q : List ℚ,
      pt = q.map fin ∧ q.length = 3 ∧
      ∀ c < 3, |q.getD c 0 - exS.value c (1 / 8) (1 / 2 ^ 1074)| ≤ 1 / 10 ^ 14
        * surface (knotFn exS.kvU) 2 4 (knotFn exS.kvV) 1 3 (fun i => |coord exS.ctrlpts c i|) (1 / 8) (1 / 2 ^ 1074)
        + (5 + 1) * (1 / 2 ^ 1050) :=
  surface_point_binary64 exS_clamped (by decide) (by decide)
    (by intro i h1 h2; change 2 ≤ i at h1; change i < 4 at h2; interval_cases i <;> decide +kernel)
    (by intro i h1 h2; change 1 ≤ i at h1; change i < 3 at h2; interval_cases i <;> decide +kernel)
    exS_unit.1 exS_unit.2 (by decide +kernel) (by decide +kernel) (by norm_num) (by decide +kernel)
    (by decide +kernel) (by decide +kernel) (by decide +kernel) (by decide +kernel) (by decide +kernel)
    (by decide +kernel)

end PySpline
