import Verif.Lemmas.IeeeDot

/-!
# `bu @ M @ bv` in arithmetic with overflow and underflow
-/

set_option linter.unusedSectionVars false

namespace PySpline

open Spec Ext

section
variable {K : Type} [Field K] [LinearOrder K] [IsStrictOrderedRing K]

/-- A sum of products that are themselves approximations. -/
theorem DotR.approx2 {rd : K → Ext K} {ρ η M : K} (hr : IeeeRounding ρ η M rd) {n k : ℕ} {F : K}
    {a c y B : ℕ → K} (hy : ∀ r < n, |y r| ≤ B r)
    (hd : ∀ r < n, |a r * c r - y r| ≤ ((1 / ρ) ^ k - 1) * B r + (1 / ρ) ^ k * F) {e : Ext K}
    (h : DotR rd ((List.range n).map fun r => (fin (a r), fin (c r))) e)
    (hM : (1 / ρ) ^ (k + n) * (∑ r ∈ Finset.range n, B r + n * (F + η)) ≤ M) :
    ∃ s, e = fin s ∧ rd s = fin s ∧ |s - ∑ r ∈ Finset.range n, y r| ≤
      ((1 / ρ) ^ (k + n) - 1) * (∑ r ∈ Finset.range n, B r) + (1 / ρ) ^ (k + n) * (n * (F + η)) := by
  have hg := hr.one_le
  have hη := hr.eta
  set g := 1 / ρ with hgdef
  have e1 : dotSum (((List.range n).map fun r => ((fin (a r) : Ext K), (fin (c r) : Ext K))).map pairVal)
      = ∑ r ∈ Finset.range n, a r * c r := by
    rw [dotSum, List.map_map, List.map_map, ← sum_map_range]; rfl
  have e2 : dotAbs (((List.range n).map fun r => ((fin (a r) : Ext K), (fin (c r) : Ext K))).map pairVal)
      = ∑ r ∈ Finset.range n, |a r * c r| := by
    rw [dotAbs, List.map_map, List.map_map, ← sum_map_range]; rfl
  have hs : ∀ f : ℕ → K, (∀ r < n, f r ≤ (g ^ k - 1) * B r + g ^ k * F) →
      ∑ r ∈ Finset.range n, f r ≤ (g ^ k - 1) * (∑ r ∈ Finset.range n, B r) + g ^ k * (n * F) := by
    intro f hf
    refine (Finset.sum_le_sum fun r hr' => hf r (Finset.mem_range.1 hr')).trans (le_of_eq ?_)
    rw [Finset.sum_add_distrib, ← Finset.mul_sum, Finset.sum_const, Finset.card_range, nsmul_eq_mul]
    ring
  have hd' : |∑ r ∈ Finset.range n, a r * c r - ∑ r ∈ Finset.range n, y r| ≤
      (g ^ k - 1) * (∑ r ∈ Finset.range n, B r) + g ^ k * (n * F) := by
    rw [← Finset.sum_sub_distrib]
    exact (Finset.abs_sum_le_sum_abs _ _).trans (hs _ hd)
  have hA : ∑ r ∈ Finset.range n, |a r * c r| ≤ g ^ k * (∑ r ∈ Finset.range n, B r + n * F) := by
    have h1 : ∑ r ∈ Finset.range n, |a r * c r| ≤
        ∑ r ∈ Finset.range n, |a r * c r - y r| + ∑ r ∈ Finset.range n, B r := by
      rw [← Finset.sum_add_distrib]
      refine Finset.sum_le_sum fun r hr' => ?_
      have := abs_add_le (a r * c r - y r) (y r)
      rw [sub_add_cancel] at this
      linarith [hy r (Finset.mem_range.1 hr')]
    have h2 := hs _ hd
    linarith
  have gn : 1 ≤ g ^ n := one_le_pow₀ hg
  have gk : 1 ≤ g ^ k := one_le_pow₀ hg
  have nη : 0 ≤ (n : K) * η := mul_nonneg (Nat.cast_nonneg _) hη
  have y1 := mul_le_mul_of_nonneg_left hA (show 0 ≤ g ^ n by linarith)
  have y2 : g ^ n * (n * η) ≤ g ^ n * g ^ k * (n * η) :=
    mul_le_mul_of_nonneg_right (le_mul_of_one_le_right (by linarith) gk) nη
  have hbound : dotBound g η (((List.range n).map fun r => ((fin (a r) : Ext K), (fin (c r) : Ext K))).map pairVal)
      = (g ^ n - 1) * (∑ r ∈ Finset.range n, |a r * c r|) + g ^ n * (n * η) := by
    rw [dotBound, e2]; simp
  have hz := h.error hr (fun q hq => by
    obtain ⟨r, -, rfl⟩ := List.mem_map.1 hq
    exact ⟨_, _, rfl⟩) (by
      rw [← hgdef, hbound, e2]
      rw [pow_add] at hM
      linarith)
  rw [← hgdef, hbound, e1] at hz
  obtain ⟨s, rfl, rs, hs⟩ := hz
  refine ⟨s, rfl, rs, ?_⟩
  have h5 := abs_add_le (s - ∑ r ∈ Finset.range n, a r * c r)
    (∑ r ∈ Finset.range n, a r * c r - ∑ r ∈ Finset.range n, y r)
  rw [sub_add_sub_cancel] at h5
  have y3 := mul_le_mul_of_nonneg_left hA (show 0 ≤ g ^ n - 1 by linarith)
  rw [pow_add]
  linarith

/-- Two lists of numbers, zipped. -/
theorem zip_fin {n : ℕ} {L N : List (Ext K)} (hL : L.length = n) (hN : N.length = n) {a c : ℕ → K}
    (ha : ∀ r < n, L.getD r 0 = fin (a r)) (hc : ∀ r < n, N.getD r 0 = fin (c r)) :
    L.zip N = (List.range n).map fun r => (fin (a r), fin (c r)) := by
  refine List.ext_getElem (by simp [hL, hN]) fun r h1 h2 => ?_
  have h3 : r < n := by simpa using h2
  have x := ha r h3
  have y := hc r h3
  rw [List.getD_eq_getElem?_getD, List.getElem?_eq_getElem (by omega)] at x y
  have x' : L[r] = fin (a r) := x
  have y' : N[r] = fin (c r) := y
  simp [x', y']

/-- The matrix of a surface, column by column. -/
theorem lift2_columns {a b : ℕ} (g : ℕ → ℕ → K) {j : ℕ} (hj : j < b) :
    (lift2 ((List.range a).map fun i => (List.range b).map (g i))).map (fun row => row.getD j 0)
      = (List.range a).map fun i => fin (g i j) := by
  rw [lift2, List.map_map, List.map_map]
  refine List.map_congr_left fun i _ => ?_
  simp [List.getD_eq_getElem?_getD, hj]

/-- The error of `bu @ M @ bv`. -/
theorem BilinearR.approx {rd : K → Ext K} {ρ η M : K} (hr : IeeeRounding ρ η M rd) {a b k l : ℕ} {E1 E2 C : K}
    {bu bv : List (Ext K)} {f h : ℕ → K} (g : ℕ → ℕ → K) (ha : 1 ≤ a) (hb : 1 ≤ b) (hbu : bu.length = a)
    (hbv : bv.length = b) (hfu : ∀ i < a, IsNear rd ρ k E1 (bu.getD i 0) (f i))
    (hfv : ∀ j < b, IsNear rd ρ l E2 (bv.getD j 0) (h j)) (hg : ∀ i < a, ∀ j < b, |g i j| ≤ C)
    (hf1 : ∑ i ∈ Finset.range a, f i = 1) (hh1 : ∑ j ∈ Finset.range b, h j = 1) (hE2 : E2 ≤ 1)
    (hM : (1 / ρ) ^ (k + a + l + b) * (C + b * (C * E2 + 2 * (a * (C * E1 + η)) + η)) ≤ M) {x : Ext K}
    (hx : BilinearR rd bu (lift2 ((List.range a).map fun i => (List.range b).map (g i))) bv x) :
    ∃ s, x = fin s ∧ |s - ∑ i ∈ Finset.range a, ∑ j ∈ Finset.range b, f i * g i j * h j| ≤
      ((1 / ρ) ^ (k + a + l + b) - 1) * (∑ i ∈ Finset.range a, ∑ j ∈ Finset.range b, f i * |g i j| * h j)
      + (1 / ρ) ^ (k + a + l + b) * (b * (C * E2 + 2 * (a * (C * E1 + η)) + η)) := by
  obtain ⟨w, -, hw1, hw2, hw3, hw4⟩ := hx
  have hh : ((lift2 ((List.range a).map fun i => (List.range b).map (g i))).headD []).length = b := by
    obtain ⟨t, rfl⟩ : ∃ t, a = t + 1 := ⟨a - 1, by omega⟩
    rw [List.range_succ_eq_map]; simp [lift2]
  rw [hh] at hw1
  have hη := hr.eta
  have hρ1 := hr.one_le
  have hC0 : 0 ≤ C := (abs_nonneg _).trans (hg 0 (by omega) 0 (by omega))
  have hE10 : 0 ≤ E1 := (hfu 0 (by omega)).1
  have hE20 : 0 ≤ E2 := (hfv 0 (by omega)).1
  have hf0 : ∀ i < a, 0 ≤ f i := fun i hi => by
    obtain ⟨-, _, -, -, -, h, -⟩ := hfu i hi
    exact h
  have hh0 : ∀ j < b, 0 ≤ h j := fun j hj => by
    obtain ⟨-, _, -, -, -, h, -⟩ := hfv j hj
    exact h
  have hh1' : ∀ j < b, h j ≤ 1 := fun j hj => by
    rw [← hh1]
    exact Finset.single_le_sum (fun i hi => hh0 i (Finset.mem_range.1 hi)) (Finset.mem_range.2 hj)
  set A := (a : K) * (C * E1 + η) with hA
  have hA0 : 0 ≤ A := mul_nonneg (Nat.cast_nonneg _) (add_nonneg (mul_nonneg hC0 hE10) hη)
  have hW0 : ∀ j < b, 0 ≤ ∑ i ∈ Finset.range a, f i * |g i j| := fun j hj =>
    Finset.sum_nonneg fun i hi => mul_nonneg (hf0 i (Finset.mem_range.1 hi)) (abs_nonneg _)
  have hWC : ∀ j < b, ∑ i ∈ Finset.range a, f i * |g i j| ≤ C := fun j hj => by
    calc _ ≤ ∑ i ∈ Finset.range a, f i * C :=
          Finset.sum_le_sum fun i hi => mul_le_mul_of_nonneg_left (hg i (Finset.mem_range.1 hi) j hj)
            (hf0 i (Finset.mem_range.1 hi))
      _ = C := by rw [← Finset.sum_mul, hf1, one_mul]
  have hYW : ∀ j, |∑ i ∈ Finset.range a, f i * g i j| ≤ ∑ i ∈ Finset.range a, |f i * g i j| := fun j =>
    Finset.abs_sum_le_sum_abs _ _
  have hYW' : ∀ j, ∑ i ∈ Finset.range a, |f i * g i j| = ∑ i ∈ Finset.range a, f i * |g i j| := fun j =>
    Finset.sum_congr rfl fun i hi => by rw [abs_mul, abs_of_nonneg (hf0 i (Finset.mem_range.1 hi))]
  have hB1 : (1 : K) ≤ b := by exact_mod_cast hb
  have hbig : C + A ≤ C + b * (C * E2 + 2 * A + η) := by
    have h1 : 0 ≤ C * E2 + 2 * A + η := add_nonneg (add_nonneg (mul_nonneg hC0 hE20) (by linarith)) hη
    have h2 : 1 * (C * E2 + 2 * A + η) ≤ b * (C * E2 + 2 * A + η) := mul_le_mul_of_nonneg_right hB1 h1
    have h3 : 0 ≤ C * E2 := mul_nonneg hC0 hE20
    linarith
  have hw : ∀ j, ∃ s : K, j < b → w.getD j 0 = fin s ∧ |s - ∑ i ∈ Finset.range a, f i * g i j| ≤
      ((1 / ρ) ^ (k + a) - 1) * (∑ i ∈ Finset.range a, f i * |g i j|) + (1 / ρ) ^ (k + a) * A := by
    intro j
    by_cases hj : j < b
    swap
    · exact ⟨0, fun h => absurd h hj⟩
    have h1 := hw3 j (by omega)
    rw [lift2_columns g hj] at h1
    obtain ⟨s, e1, -, e2⟩ := DotR.approx hr hbu hfu (c := fun i => g i j) (fun i hi => hg i hi j hj) h1 (by
      calc _ ≤ (1 / ρ) ^ (k + a) * (C + A) :=
            mul_le_mul_of_nonneg_left (by linarith [hWC j hj]) (le_trans zero_le_one (one_le_pow₀ hρ1))
        _ ≤ (1 / ρ) ^ (k + a + l + b) * (C + A) :=
            mul_le_mul_of_nonneg_right (pow_le_pow_right₀ hρ1 (by omega)) (by linarith)
        _ ≤ _ := (mul_le_mul_of_nonneg_left hbig (le_trans zero_le_one (one_le_pow₀ hρ1))).trans hM)
    exact ⟨s, fun _ => ⟨e1, e2⟩⟩
  choose ws hws using hw
  have hvs : ∀ j, ∃ s : K, j < b → bv.getD j 0 = fin s ∧ 0 ≤ s ∧
      |s - h j| ≤ ((1 / ρ) ^ l - 1) * h j + (1 / ρ) ^ l * E2 := by
    intro j
    by_cases hj : j < b
    swap
    · exact ⟨0, fun h => absurd h hj⟩
    obtain ⟨s, e1, -, e2, e3⟩ := (hfv j hj).abs_sub_le hr
    exact ⟨s, fun _ => ⟨e1, e2, e3⟩⟩
  choose vs hvs using hvs
  rw [zip_fin hw1 hbv (fun j hj => (hws j hj).1) (fun j hj => (hvs j hj).1)] at hw4
  have key := DotR.approx2 hr (n := b) (k := k + a + l) (F := C * E2 + 2 * A)
    (y := fun j => (∑ i ∈ Finset.range a, f i * g i j) * h j)
    (B := fun j => (∑ i ∈ Finset.range a, f i * |g i j|) * h j)
    (fun j hj => by
      rw [abs_mul, abs_of_nonneg (hh0 j hj)]
      exact mul_le_mul_of_nonneg_right ((hYW j).trans (le_of_eq (hYW' j))) (hh0 j hj))
    (fun j hj => by
      obtain ⟨-, p1⟩ := hws j hj
      obtain ⟨-, p2, p3⟩ := hvs j hj
      have p4 := (hYW j).trans (le_of_eq (hYW' j))
      have p5 := hW0 j hj
      have p6 := hWC j hj
      have p7 := hh0 j hj
      have p8 := hh1' j hj
      have G1 : 1 ≤ (1 / ρ) ^ (k + a) := one_le_pow₀ hρ1
      have G2 : 1 ≤ (1 / ρ) ^ l := one_le_pow₀ hρ1
      rw [pow_add]
      generalize (1 / ρ) ^ (k + a) = g1 at *
      generalize (1 / ρ) ^ l = g2 at *
      generalize ∑ i ∈ Finset.range a, f i * g i j = Y at *
      generalize ∑ i ∈ Finset.range a, f i * |g i j| = W at *
      generalize ws j = w' at *
      generalize vs j = v' at *
      generalize h j = t at *
      have q1 : v' ≤ g2 * (t + E2) := by
        have := (abs_le.1 p3).2
        linarith
      have q2 : |w' * v' - Y * t| ≤ |w' - Y| * v' + |Y| * |v' - t| := by
        have := abs_add_le ((w' - Y) * v') (Y * (v' - t))
        rw [abs_mul, abs_mul, abs_of_nonneg p2] at this
        rwa [show (w' - Y) * v' + Y * (v' - t) = w' * v' - Y * t by ring] at this
      have r0 : 0 ≤ (g1 - 1) * W + g1 * A := add_nonneg (mul_nonneg (by linarith) p5) (mul_nonneg (by linarith) hA0)
      have q3 : |w' - Y| * v' ≤ ((g1 - 1) * W + g1 * A) * (g2 * (t + E2)) := mul_le_mul p1 q1 p2 r0
      have q4 : |Y| * |v' - t| ≤ W * ((g2 - 1) * t + g2 * E2) := mul_le_mul p4 p3 (abs_nonneg _) p5
      have g12 : 0 ≤ g1 * g2 := mul_nonneg (by linarith) (by linarith)
      have q5 : g1 * g2 * (W * E2 + A * (t + E2)) ≤ g1 * g2 * (C * E2 + 2 * A) := by
        refine mul_le_mul_of_nonneg_left (add_le_add (mul_le_mul_of_nonneg_right p6 hE20) ?_) g12
        have := mul_le_mul_of_nonneg_left (show t + E2 ≤ 2 by linarith) hA0
        linarith
      have q6 : ((g1 - 1) * W + g1 * A) * (g2 * (t + E2)) + W * ((g2 - 1) * t + g2 * E2)
          = (g1 * g2 - 1) * (W * t) + g1 * g2 * (W * E2 + A * (t + E2)) := by ring
      linarith)
    hw4 (by
      refine le_trans (mul_le_mul_of_nonneg_left ?_ (le_trans zero_le_one (one_le_pow₀ hρ1))) hM
      refine add_le_add ?_ le_rfl
      calc _ ≤ ∑ j ∈ Finset.range b, C * h j := Finset.sum_le_sum fun j hj =>
            mul_le_mul_of_nonneg_right (hWC j (Finset.mem_range.1 hj)) (hh0 j (Finset.mem_range.1 hj))
        _ = C := by rw [← Finset.mul_sum, hh1, mul_one])
  obtain ⟨s, e1, -, e2⟩ := key
  refine ⟨s, e1, ?_⟩
  have e : ∀ e : ℕ → ℕ → K, ∑ j ∈ Finset.range b, (∑ i ∈ Finset.range a, e i j) * h j
      = ∑ i ∈ Finset.range a, ∑ j ∈ Finset.range b, e i j * h j := by
    intro e
    rw [Finset.sum_comm]
    exact Finset.sum_congr rfl fun j _ => by rw [Finset.sum_mul]
  rw [e, e] at e2
  exact e2

theorem BilinearR.exists (rd : K → Ext K) {a b : ℕ} {bu bv : List (Ext K)} (g : ℕ → ℕ → K) (ha : 1 ≤ a)
    (hb : 1 ≤ b) (hbu : bu.length = a) (hbv : bv.length = b) :
    ∃ x, BilinearR rd bu (lift2 ((List.range a).map fun i => (List.range b).map (g i))) bv x := by
  have hh : ((lift2 ((List.range a).map fun i => (List.range b).map (g i))).headD []).length = b := by
    obtain ⟨t, rfl⟩ : ∃ t, a = t + 1 := ⟨a - 1, by omega⟩
    rw [List.range_succ_eq_map]; simp [lift2]
  have h1 : ∀ j, ∃ s, DotR rd (bu.zip ((lift2 ((List.range a).map fun i => (List.range b).map (g i))).map
      fun row => row.getD j 0)) s := by
    intro j
    refine DotR.exists rd fun h => ?_
    have := congrArg List.length h
    simp only [List.length_zip, List.length_map, lift2, List.length_range, List.length_nil] at this
    omega
  choose w hw using h1
  obtain ⟨x, hx⟩ := DotR.exists rd (l := ((List.range b).map w).zip bv) (fun h => by
    have := congrArg List.length h
    simp [hbv] at this
    omega)
  refine ⟨x, (List.range b).map w, by simp [hbu, lift2], by rw [hh]; simp, by simp [hbv], fun j hj => ?_, hx⟩
  have hj' : j < b := by simpa using hj
  have : ((List.range b).map w).getD j 0 = w j := by simp [List.getD_eq_getElem?_getD, hj']
  rw [this]
  exact hw j

end

end PySpline
