import Verif.Lemmas.IeeeDersAll
import Verif.Lemmas.IeeeSurf
import Verif.Lemmas.RoundedDersSurf

/-!
# Products of derivatives in IEEE arithmetic with a block of control points
-/

set_option linter.unusedSectionVars false

namespace PySpline

open Polynomial Spec Ext

variable {K : Type} [Field K] [LinearOrder K] [IsStrictOrderedRing K]

/-- `basisFunctionDersR_apx` with one bound for all orders. -/
theorem basisFunctionDersR_apx_all {ρ η M B H : K} {rd : K → Ext K} (hr' : IeeeRounding ρ η M rd) {U : List K}
    (hU : Monotone (knotFn U)) {k p : ℕ} {u : K}
    (hp : p ≤ k) (hk : k + p < U.length) (hs : knotFn U k < knotFn U (k + 1))
    (h1 : knotFn U k ≤ u) (h2 : u ≤ knotFn U (k + 1))
    (hrep : ∀ x ∈ U, rd x = fin x) (hu : rd u = fin u)
    (hH : knotFn U (k + p) - knotFn U (k + 1 - p) ≤ H) (hz : DersSize ρ η M B ((2 * H + 1) * η) p)
    (hB : 1 ≤ B * (knotFn U (k + 1) - knotFn U k)) (hMh : 8 ≤ M * (knotFn U (k + 1) - knotFn U k))
    (hMH : 2 * H ≤ M) (order : ℕ) :
    Returns (basisFunctionDersR rd (k : ℤ) (fin u) p (lift1 U) order) fun ders =>
      Shape ders (p + 1) (order + 1) ∧
      (∀ r ≤ p, IsNear rd ρ (6 * p) ((4 ^ p - 1) * ((2 * H + 1) * η)) (at2 ders r 0 0)
        ((piece (knotFn U) k p (k - p + r)).eval u)) ∧
      ∀ r m, r ≤ p → m ≤ order →
        IsApx rd (1 / ρ) (6 * p + 4) (dersErr p ((8 * B) ^ p * ((2 * H + 1) * η + 3 * η))) (at2 ders r m 0)
          ((Spec.deriv m (piece (knotFn U) k p (k - p + r))).eval u)
          (p.descFactorial m * rawAbs (knotFn U) k p u r m) := by
  refine (basisFunctionDersR_apx hr' hU hp hk hs h1 h2 hrep hu hH hz hB hMh hMH order).mono ?_
  rintro ders ⟨sh, hn, ha⟩
  refine ⟨sh, hn, fun r m hr hm => ?_⟩
  rcases Nat.eq_zero_or_pos m with rfl | h
  · have := ((hn r hr).apx hr').mono hr' (l := 6 * p + 4)
      (Q := dersErr p ((8 * B) ^ p * ((2 * H + 1) * η + 3 * η))) (by omega) (by
        have hB1 := hz.one_le
        have c0 := hz.c0
        have hη := hr'.eta
        have a1 : (4 : K) ^ p ≤ (8 * B) ^ p := pow_le_pow_left₀ (by norm_num) (by linarith) p
        have a0 : (0 : K) ≤ 4 ^ p := by positivity
        have a2 : (4 ^ p - 1) * ((2 * H + 1) * η) ≤ (8 * B) ^ p * ((2 * H + 1) * η + 3 * η) :=
          mul_le_mul (by linarith) (by linarith) c0 (by linarith)
        refine a2.trans ?_
        unfold dersErr
        refine le_mul_of_one_le_left (hz.tau0 hr') ?_
        have : (1 : K) ≤ ((p + 1) * (p.factorial + 2) : ℕ) := by
          exact_mod_cast Nat.succ_le_of_lt (Nat.mul_pos (by omega) (by omega))
        push_cast at this
        exact this)
    have e : (p.descFactorial 0 : K) * rawAbs (knotFn U) k p u r 0
        = (piece (knotFn U) k p (k - p + r)).eval u := by
      simp [rawAbs, aCoef]
    rw [e]
    exact this
  · exact ha r m hr h hm

theorem columnE_natCast {m : List (List (Ext K))} {r c : ℕ} (h : Shape m r c) (k : ℕ) (hk : k < c) :
    columnE m (k : ℤ) = .ok (m.map fun row => row.getD k 0) := by
  unfold columnE
  exact mapPy_eq_ok _ _ _ fun row hrow => pyGet_nat _ _ _ _ rfl (by rw [h.2 row hrow]; exact hk)

/-- The share of underflow in `bu @ M @ bv`: `T1` and `T2` are the absolute errors of the factors, `S1` and `S2`
the sums of their sizes, `C` bounds the entries of the matrix with `a` rows and `b` columns. -/
def bilinearShare (a b : ℕ) (C S1 T1 S2 T2 η : K) : K :=
  b * (C * S1 * T2 + a * (C * T1 + η) * (S2 + T2) + η)

/-- The error of `bu @ M @ bv` with factors of any sign. -/
theorem BilinearR.approx_signed {rd : K → Ext K} {ρ η M : K} (hr : IeeeRounding ρ η M rd) {a b k l : ℕ}
    {T1 T2 S1 S2 C : K} {bu bv : List (Ext K)} {f h F H : ℕ → K} (g : ℕ → ℕ → K) (ha : 1 ≤ a) (hb : 1 ≤ b)
    (hbu : bu.length = a) (hbv : bv.length = b)
    (hfu : ∀ i < a, IsApx rd (1 / ρ) k T1 (bu.getD i 0) (f i) (F i))
    (hfv : ∀ j < b, IsApx rd (1 / ρ) l T2 (bv.getD j 0) (h j) (H j)) (hg : ∀ i < a, ∀ j < b, |g i j| ≤ C)
    (hS1 : ∑ i ∈ Finset.range a, F i ≤ S1) (hS2 : ∑ j ∈ Finset.range b, H j ≤ S2)
    (hM1 : (1 / ρ) ^ (k + a + l + b) * (C * S1 + a * (C * T1 + η)) ≤ M)
    (hM : (1 / ρ) ^ (k + a + l + b) * (C * S1 * S2 + bilinearShare a b C S1 T1 S2 T2 η) ≤ M) {x : Ext K}
    (hx : BilinearR rd bu (lift2 ((List.range a).map fun i => (List.range b).map (g i))) bv x) :
    ∃ s, x = fin s ∧ |s - ∑ i ∈ Finset.range a, ∑ j ∈ Finset.range b, f i * g i j * h j| ≤
      ((1 / ρ) ^ (k + a + l + b) - 1) * (∑ i ∈ Finset.range a, ∑ j ∈ Finset.range b, F i * |g i j| * H j)
      + (1 / ρ) ^ (k + a + l + b) * bilinearShare a b C S1 T1 S2 T2 η := by
  obtain ⟨w, -, hw1, hw2, hw3, hw4⟩ := hx
  have hh : ((lift2 ((List.range a).map fun i => (List.range b).map (g i))).headD []).length = b := by
    obtain ⟨t, rfl⟩ : ∃ t, a = t + 1 := ⟨a - 1, by omega⟩
    rw [List.range_succ_eq_map]; simp [lift2]
  rw [hh] at hw1
  have hη := hr.eta
  have hρ1 := hr.one_le
  have hC0 : 0 ≤ C := (abs_nonneg _).trans (hg 0 (by omega) 0 (by omega))
  have hT1 : 0 ≤ T1 := (hfu 0 (by omega)).1
  have hT2 : 0 ≤ T2 := (hfv 0 (by omega)).1
  have hfF : ∀ i < a, |f i| ≤ F i := fun i hi => by
    obtain ⟨-, _, -, -, h, -⟩ := hfu i hi
    exact h
  have hhH : ∀ j < b, |h j| ≤ H j := fun j hj => by
    obtain ⟨-, _, -, -, h, -⟩ := hfv j hj
    exact h
  have hF0 : ∀ i < a, 0 ≤ F i := fun i hi => (abs_nonneg _).trans (hfF i hi)
  have hH0 : ∀ j < b, 0 ≤ H j := fun j hj => (abs_nonneg _).trans (hhH j hj)
  have hHS : ∀ j < b, H j ≤ S2 := fun j hj =>
    (Finset.single_le_sum (fun i hi => hH0 i (Finset.mem_range.1 hi)) (Finset.mem_range.2 hj)).trans hS2
  set A := (a : K) * (C * T1 + η) with hA
  have hA0 : 0 ≤ A := mul_nonneg (Nat.cast_nonneg _) (add_nonneg (mul_nonneg hC0 hT1) hη)
  have hW0 : ∀ j < b, 0 ≤ ∑ i ∈ Finset.range a, F i * |g i j| := fun j hj =>
    Finset.sum_nonneg fun i hi => mul_nonneg (hF0 i (Finset.mem_range.1 hi)) (abs_nonneg _)
  have hWC : ∀ j < b, ∑ i ∈ Finset.range a, F i * |g i j| ≤ C * S1 := fun j hj => by
    calc _ ≤ ∑ i ∈ Finset.range a, F i * C :=
          Finset.sum_le_sum fun i hi => mul_le_mul_of_nonneg_left (hg i (Finset.mem_range.1 hi) j hj)
            (hF0 i (Finset.mem_range.1 hi))
      _ ≤ C * S1 := by rw [← Finset.sum_mul, mul_comm]; exact mul_le_mul_of_nonneg_left hS1 hC0
  have hYW : ∀ j < b, |∑ i ∈ Finset.range a, f i * g i j| ≤ ∑ i ∈ Finset.range a, F i * |g i j| := fun j hj =>
    (Finset.abs_sum_le_sum_abs _ _).trans (Finset.sum_le_sum fun i hi => by
      rw [abs_mul]
      exact mul_le_mul_of_nonneg_right (hfF i (Finset.mem_range.1 hi)) (abs_nonneg _))
  have hus : ∀ i, ∃ s : K, i < a → bu.getD i 0 = fin s ∧
      |s - f i| ≤ ((1 / ρ) ^ k - 1) * F i + (1 / ρ) ^ k * T1 := by
    intro i
    by_cases hi : i < a
    swap
    · exact ⟨0, fun h => absurd h hi⟩
    obtain ⟨-, s, e1, -, -, e3⟩ := hfu i hi
    exact ⟨s, fun _ => ⟨e1, e3⟩⟩
  choose us hus using hus
  have hw : ∀ j, ∃ s : K, j < b → w.getD j 0 = fin s ∧ |s - ∑ i ∈ Finset.range a, f i * g i j| ≤
      ((1 / ρ) ^ (k + a) - 1) * (∑ i ∈ Finset.range a, F i * |g i j|) + (1 / ρ) ^ (k + a) * A := by
    intro j
    by_cases hj : j < b
    swap
    · exact ⟨0, fun h => absurd h hj⟩
    have h1 := hw3 j (by omega)
    rw [lift2_columns g hj, zip_fin hbu (by simp) (fun i hi => (hus i hi).1) (c := fun i => g i j)
      (fun i hi => by simp [List.getD_eq_getElem?_getD, hi])] at h1
    obtain ⟨s, e1, -, e2⟩ := DotR.approx2 hr (n := a) (k := k) (F := C * T1) (y := fun i => f i * g i j)
      (B := fun i => F i * |g i j|)
      (fun i hi => by
        rw [abs_mul]
        exact mul_le_mul_of_nonneg_right (hfF i hi) (abs_nonneg _))
      (fun i hi => by
        rw [← sub_mul, abs_mul]
        have b1 := mul_le_mul_of_nonneg_right (hus i hi).2 (abs_nonneg (g i j))
        have b2 := mul_le_mul_of_nonneg_left (hg i hi j hj) (mul_nonneg (le_trans zero_le_one (one_le_pow₀ hρ1
          (n := k))) hT1)
        linarith) h1 (by
      calc _ ≤ (1 / ρ) ^ (k + a) * (C * S1 + A) :=
            mul_le_mul_of_nonneg_left (by linarith [hWC j hj]) (le_trans zero_le_one (one_le_pow₀ hρ1))
        _ ≤ (1 / ρ) ^ (k + a + l + b) * (C * S1 + A) :=
            mul_le_mul_of_nonneg_right (pow_le_pow_right₀ hρ1 (by omega)) (by linarith [hWC j hj, hW0 j hj])
        _ ≤ _ := hM1)
    exact ⟨s, fun _ => ⟨e1, e2⟩⟩
  choose ws hws using hw
  have hvs : ∀ j, ∃ s : K, j < b → bv.getD j 0 = fin s ∧
      |s - h j| ≤ ((1 / ρ) ^ l - 1) * H j + (1 / ρ) ^ l * T2 := by
    intro j
    by_cases hj : j < b
    swap
    · exact ⟨0, fun h => absurd h hj⟩
    obtain ⟨-, s, e1, -, -, e3⟩ := hfv j hj
    exact ⟨s, fun _ => ⟨e1, e3⟩⟩
  choose vs hvs using hvs
  rw [zip_fin hw1 hbv (fun j hj => (hws j hj).1) (fun j hj => (hvs j hj).1)] at hw4
  have key := DotR.approx2 hr (n := b) (k := k + a + l) (F := C * S1 * T2 + A * (S2 + T2))
    (y := fun j => (∑ i ∈ Finset.range a, f i * g i j) * h j)
    (B := fun j => (∑ i ∈ Finset.range a, F i * |g i j|) * H j)
    (fun j hj => by
      rw [abs_mul]
      exact mul_le_mul (hYW j hj) (hhH j hj) (abs_nonneg _) (hW0 j hj))
    (fun j hj => by
      obtain ⟨-, p1⟩ := hws j hj
      obtain ⟨-, p3⟩ := hvs j hj
      have p4 := hYW j hj
      have p5 := hW0 j hj
      have p6 := hWC j hj
      have p7 := hhH j hj
      have p8 := hHS j hj
      have p9 := hH0 j hj
      have G1 : 1 ≤ (1 / ρ) ^ (k + a) := one_le_pow₀ hρ1
      have G2 : 1 ≤ (1 / ρ) ^ l := one_le_pow₀ hρ1
      rw [pow_add]
      generalize (1 / ρ) ^ (k + a) = g1 at *
      generalize (1 / ρ) ^ l = g2 at *
      generalize ∑ i ∈ Finset.range a, f i * g i j = Y at *
      generalize ∑ i ∈ Finset.range a, F i * |g i j| = W at *
      generalize ws j = w' at *
      generalize vs j = v' at *
      generalize h j = t at *
      generalize H j = t' at *
      have q1 : |v'| ≤ g2 * (t' + T2) := by
        have := abs_add_le (v' - t) t
        rw [sub_add_cancel] at this
        linarith
      have q2 : |w' * v' - Y * t| ≤ |w' - Y| * |v'| + |Y| * |v' - t| := by
        have := abs_add_le ((w' - Y) * v') (Y * (v' - t))
        rw [abs_mul, abs_mul] at this
        rwa [show (w' - Y) * v' + Y * (v' - t) = w' * v' - Y * t by ring] at this
      have r0 : 0 ≤ (g1 - 1) * W + g1 * A := add_nonneg (mul_nonneg (by linarith) p5) (mul_nonneg (by linarith) hA0)
      have q3 : |w' - Y| * |v'| ≤ ((g1 - 1) * W + g1 * A) * (g2 * (t' + T2)) := mul_le_mul p1 q1 (abs_nonneg _) r0
      have q4 : |Y| * |v' - t| ≤ W * ((g2 - 1) * t' + g2 * T2) := mul_le_mul p4 p3 (abs_nonneg _) p5
      have g12 : 0 ≤ g1 * g2 := mul_nonneg (by linarith) (by linarith)
      have q5 : g1 * g2 * (W * T2 + A * (t' + T2)) ≤ g1 * g2 * (C * S1 * T2 + A * (S2 + T2)) := by
        refine mul_le_mul_of_nonneg_left (add_le_add (mul_le_mul_of_nonneg_right p6 hT2) ?_) g12
        exact mul_le_mul_of_nonneg_left (by linarith) hA0
      have q6 : ((g1 - 1) * W + g1 * A) * (g2 * (t' + T2)) + W * ((g2 - 1) * t' + g2 * T2)
          = (g1 * g2 - 1) * (W * t') + g1 * g2 * (W * T2 + A * (t' + T2)) := by ring
      linarith)
    hw4 (by
      refine le_trans (mul_le_mul_of_nonneg_left ?_ (le_trans zero_le_one (one_le_pow₀ hρ1))) hM
      refine add_le_add ?_ le_rfl
      calc _ ≤ ∑ j ∈ Finset.range b, C * S1 * H j := Finset.sum_le_sum fun j hj =>
            mul_le_mul_of_nonneg_right (hWC j (Finset.mem_range.1 hj)) (hH0 j (Finset.mem_range.1 hj))
        _ ≤ C * S1 * S2 := by
            rw [← Finset.mul_sum]
            exact mul_le_mul_of_nonneg_left hS2 ((hW0 0 (by omega)).trans (hWC 0 (by omega))))
  obtain ⟨s, e1, -, e2⟩ := key
  refine ⟨s, e1, ?_⟩
  have e : ∀ (e : ℕ → ℕ → K) (h : ℕ → K), ∑ j ∈ Finset.range b, (∑ i ∈ Finset.range a, e i j) * h j
      = ∑ i ∈ Finset.range a, ∑ j ∈ Finset.range b, e i j * h j := by
    intro e h
    rw [Finset.sum_comm]
    exact Finset.sum_congr rfl fun j _ => by rw [Finset.sum_mul]
  rw [e, e] at e2
  exact e2

end PySpline
