import Verif.Lemmas.Ieee
import Verif.Lemmas.Rounded

/-!
# Sums of products in arithmetic with overflow and underflow
-/

set_option linter.unusedSectionVars false

namespace PySpline

open Polynomial Spec Ext

section
variable {K : Type} [Field K] [LinearOrder K] [IsStrictOrderedRing K]

/-- The number an extended number stands for. -/
def Ext.val : Ext K → K
  | fin x => x
  | _ => 0

/-- The numbers in a list of pairs. -/
def pairVal (q : Ext K × Ext K) : K × K := (q.1.val, q.2.val)

/-- Both are numbers. -/
def PairFin (q : Ext K × Ext K) : Prop := ∃ a b, q = (fin a, fin b)

namespace IeeeRounding
variable {rd : K → Ext K} {ρ η M : K}

theorem one_le (hr : IeeeRounding ρ η M rd) : 1 ≤ 1 / ρ := by
  rw [le_div_iff₀ hr.pos]; linarith [hr.le_one]

/-- The error of one operation. -/
theorem near_abs (hr : IeeeRounding ρ η M rd) {x : K} (h : |x| ≤ M) :
    ∃ y, rd x = fin y ∧ rd y = fin y ∧ |y - x| ≤ (1 / ρ - 1) * |x| + 1 / ρ * η := by
  have key : ∀ x : K, 0 ≤ x → x ≤ M →
      ∃ y, rd x = fin y ∧ rd y = fin y ∧ |y - x| ≤ (1 / ρ - 1) * x + 1 / ρ * η := by
    intro x h0 h1
    obtain ⟨y, e, hy, h2, h3⟩ := hr.near x h0 h1
    have := (IsNear.abs_sub_le hr (k := 1) (E := η) (e := fin y) (b := x)
      ⟨hr.eta, y, rfl, hr.idem _ _ e, hy, h0, by simpa using h2, by simpa using h3⟩)
    obtain ⟨a, ha, h4⟩ := this
    cases ha
    rw [pow_one] at h4
    exact ⟨y, e, hr.idem _ _ e, h4.2.2⟩
  rcases le_total 0 x with h0 | h0
  · rw [abs_of_nonneg h0] at h ⊢
    exact key x h0 h
  · rw [abs_of_nonpos h0] at h ⊢
    obtain ⟨y, e, e2, h1⟩ := key (-x) (by linarith) h
    have n : ∀ z w, rd (-z) = fin w → rd z = fin (-w) := by
      intro z w hz
      have := hr.neg (-z)
      rw [neg_neg, hz] at this
      exact this
    refine ⟨-y, n x y e, ?_, ?_⟩
    · rw [hr.neg, e2]; rfl
    · rw [abs_sub_comm]
      rwa [show x - -y = y - -x by ring]

/-- The error of a sum of stored numbers. -/
theorem add_abs (hr : IeeeRounding ρ η M rd) {a b : K} (ha : rd a = fin a) (hb : rd b = fin b)
    (h : |a + b| ≤ M) : ∃ y, rd (a + b) = fin y ∧ rd y = fin y ∧ |y - (a + b)| ≤ (1 / ρ - 1) * |a + b| := by
  have key : ∀ a b : K, rd a = fin a → rd b = fin b → 0 ≤ a + b → a + b ≤ M →
      ∃ y, rd (a + b) = fin y ∧ rd y = fin y ∧ |y - (a + b)| ≤ (1 / ρ - 1) * (a + b) := by
    intro a b ha hb h0 h1
    obtain ⟨y, e, hy, h2, h3⟩ := hr.add a b ha hb h0 h1
    have := (IsNear.abs_sub_le hr (k := 1) (E := 0) (e := fin y) (b := a + b)
      ⟨le_rfl, y, rfl, hr.idem _ _ e, hy, h0, by simpa using h2, by simpa using h3⟩)
    obtain ⟨z, hz, h4⟩ := this
    cases hz
    rw [pow_one, mul_zero, add_zero] at h4
    exact ⟨y, e, hr.idem _ _ e, h4.2.2⟩
  rcases le_total 0 (a + b) with h0 | h0
  · rw [abs_of_nonneg h0] at h ⊢
    exact key a b ha hb h0 h
  · rw [abs_of_nonpos h0] at h ⊢
    obtain ⟨y, e, e2, h1⟩ := key (-a) (-b) (by rw [hr.neg, ha]; rfl) (by rw [hr.neg, hb]; rfl)
      (by linarith) (by linarith)
    rw [show -a + -b = -(a + b) by ring] at e h1
    refine ⟨-y, ?_, ?_, ?_⟩
    · have := hr.neg (-(a + b))
      rw [neg_neg, e] at this
      exact this
    · rw [hr.neg, e2]; rfl
    · rw [abs_sub_comm]
      rwa [show a + b - -y = y - -(a + b) by ring]

end IeeeRounding

theorem DotR.length_pos {rd : K → Ext K} {l : List (Ext K × Ext K)} {s : Ext K} (h : DotR rd l s) :
    1 ≤ l.length := by
  induction h with
  | mul a b => simp
  | add h1 h2 i1 i2 => simp; omega
  | fma a b h i => simp
  | perm hp h i => rw [← hp.length_eq]; exact i

theorem DotR.exists (rd : K → Ext K) {l : List (Ext K × Ext K)} (h : l ≠ []) : ∃ s, DotR rd l s := by
  induction l with
  | nil => exact absurd rfl h
  | cons x l ih =>
    by_cases hl : l = []
    · subst hl; exact ⟨_, .mul x.1 x.2⟩
    · obtain ⟨s, hs⟩ := ih hl
      exact ⟨_, .add (.mul x.1 x.2) hs⟩

/-- The bound on the error of a sum of products. -/
def dotBound (g η : K) (l : List (K × K)) : K := (g ^ l.length - 1) * dotAbs l + g ^ l.length * (l.length * η)

/-- The error of a sum of products, in whatever order it is computed. -/
theorem DotR.error {rd : K → Ext K} {ρ η M : K} (hr : IeeeRounding ρ η M rd) {L : List (Ext K × Ext K)}
    {e : Ext K} (h : DotR rd L e) (hfin : ∀ q ∈ L, PairFin q)
    (hM : dotAbs (L.map pairVal) + dotBound (1 / ρ) η (L.map pairVal) ≤ M) :
    ∃ s, e = fin s ∧ rd s = fin s ∧
      |s - dotSum (L.map pairVal)| ≤ dotBound (1 / ρ) η (L.map pairVal) := by
  have hg := hr.one_le
  have hη := hr.eta
  have hpow : ∀ {a b : ℕ}, a ≤ b → (1 / ρ) ^ a ≤ (1 / ρ) ^ b := fun h => pow_le_pow_right₀ hg h
  have hg0 : ∀ n, 1 ≤ (1 / ρ) ^ n := fun n => one_le_pow₀ hg
  induction h with
  | mul a b =>
    obtain ⟨x, y, hxy⟩ := hfin (a, b) (by simp)
    cases hxy
    simp only [dotBound, List.map_cons, List.map_nil, pairVal, Ext.val, dotAbs, dotSum, List.length_cons,
      List.length_nil, List.sum_cons, List.sum_nil, add_zero, zero_add, pow_one, Nat.cast_one, one_mul] at hM ⊢
    have h0 : 0 ≤ 1 / ρ * η := mul_nonneg (by linarith) hη
    have h1 : 0 ≤ (1 / ρ - 1) * |x * y| := mul_nonneg (by linarith) (abs_nonneg _)
    obtain ⟨z, e1, e2, h2⟩ := hr.near_abs (x := x * y) (by linarith)
    exact ⟨z, e1, e2, h2⟩
  | @add l m s t h1 h2 i1 i2 =>
    have l1 := h1.length_pos
    have l2 := h2.length_pos
    unfold dotBound at i1 i2 hM ⊢
    rw [List.map_append, dotAbs_append, List.length_append, List.length_map, List.length_map] at hM
    rw [List.map_append, dotSum_append, dotAbs_append, List.length_append, List.length_map, List.length_map]
    rw [List.length_map] at i1 i2
    have A := dotAbs_nonneg (l.map pairVal)
    have B := dotAbs_nonneg (m.map pairVal)
    have C := abs_dotSum_le (l.map pairVal)
    have D := abs_dotSum_le (m.map pairVal)
    generalize dotAbs (l.map pairVal) = a at *
    generalize dotAbs (m.map pairVal) = b at *
    generalize dotSum (l.map pairVal) = c at *
    generalize dotSum (m.map pairVal) = d at *
    set g := 1 / ρ
    have x1 : 0 ≤ (l.length : K) * η := mul_nonneg (Nat.cast_nonneg _) hη
    have x2 : 0 ≤ (m.length : K) * η := mul_nonneg (Nat.cast_nonneg _) hη
    have y1 : (g ^ (l.length + 1)) * (a + l.length * η) ≤ g ^ (l.length + m.length) * (a + l.length * η) :=
      mul_le_mul_of_nonneg_right (hpow (by omega)) (by linarith)
    have y2 : (g ^ (m.length + 1)) * (b + m.length * η) ≤ g ^ (l.length + m.length) * (b + m.length * η) :=
      mul_le_mul_of_nonneg_right (hpow (by omega)) (by linarith)
    have y3 : (g ^ l.length) * (a + l.length * η) ≤ g ^ (l.length + m.length) * (a + l.length * η) :=
      mul_le_mul_of_nonneg_right (hpow (by omega)) (by linarith)
    have y4 : (g ^ m.length) * (b + m.length * η) ≤ g ^ (l.length + m.length) * (b + m.length * η) :=
      mul_le_mul_of_nonneg_right (hpow (by omega)) (by linarith)
    have z1 : 0 ≤ g ^ (l.length + m.length) * (a + l.length * η) :=
      mul_nonneg (by linarith [hg0 (l.length + m.length)]) (by linarith)
    have z2 : 0 ≤ g ^ (l.length + m.length) * (b + m.length * η) :=
      mul_nonneg (by linarith [hg0 (l.length + m.length)]) (by linarith)
    rw [Nat.cast_add] at hM ⊢
    obtain ⟨s, rfl, rs, hs⟩ := i1 (fun q hq => hfin q (by simp [hq])) (by linarith)
    obtain ⟨t, rfl, rt, ht⟩ := i2 (fun q hq => hfin q (by simp [hq])) (by linarith)
    have e1 : |s + t| ≤ g ^ l.length * (a + l.length * η) + g ^ m.length * (b + m.length * η) := by
      have a1 : |s| ≤ |s - c| + |c| := by
        have := abs_add_le (s - c) c; rwa [sub_add_cancel] at this
      have a2 : |t| ≤ |t - d| + |d| := by
        have := abs_add_le (t - d) d; rwa [sub_add_cancel] at this
      have := abs_add_le s t
      linarith
    obtain ⟨z, r1, r2, hz⟩ := hr.add_abs rs rt (by linarith)
    refine ⟨z, r1, r2, ?_⟩
    have e3 : |z - (c + d)| ≤ |z - (s + t)| + (|s - c| + |t - d|) := by
      have a1 := abs_add_le (z - (s + t)) ((s - c) + (t - d))
      have a2 := abs_add_le (s - c) (t - d)
      rw [show z - (s + t) + ((s - c) + (t - d)) = z - (c + d) by ring] at a1
      linarith
    have e4 := mul_le_mul_of_nonneg_left e1 (show 0 ≤ g - 1 by linarith)
    rw [pow_succ] at y1 y2
    linarith
  | @fma l s a b h i =>
    obtain ⟨x, y, hxy⟩ := hfin (a, b) (by simp)
    cases hxy
    have l1 := h.length_pos
    unfold dotBound at i hM ⊢
    rw [List.map_append, dotAbs_append, List.length_append, List.length_map] at hM
    rw [List.map_append, dotSum_append, dotAbs_append, List.length_append, List.length_map]
    rw [List.length_map] at i
    have d1 : dotSum (List.map pairVal [(fin x, fin y)]) = x * y := by simp [dotSum, pairVal, Ext.val]
    have d2 : dotAbs (List.map pairVal [(fin x, fin y)]) = |x * y| := by simp [dotAbs, pairVal, Ext.val]
    have d3 : (List.map pairVal [(fin x, fin y)]).length = 1 := rfl
    rw [d2, d3] at hM
    rw [d1, d2, d3]
    have A := dotAbs_nonneg (l.map pairVal)
    have B := abs_nonneg (x * y)
    have C := abs_dotSum_le (l.map pairVal)
    generalize dotAbs (l.map pairVal) = a at *
    generalize dotSum (l.map pairVal) = c at *
    set g := 1 / ρ
    have x1 : 0 ≤ (l.length : K) * η := mul_nonneg (Nat.cast_nonneg _) hη
    have y1 : g ^ l.length * (a + l.length * η) ≤ g ^ (l.length + 1) * (a + l.length * η) :=
      mul_le_mul_of_nonneg_right (hpow (by omega)) (by linarith)
    have y2 : g ^ 1 * (|x * y| + η) ≤ g ^ (l.length + 1) * (|x * y| + η) :=
      mul_le_mul_of_nonneg_right (hpow (by omega)) (by linarith)
    have y3 : 1 * (|x * y| + η) ≤ g ^ (l.length + 1) * (|x * y| + η) :=
      mul_le_mul_of_nonneg_right (hg0 _) (by linarith)
    rw [Nat.cast_add, Nat.cast_one] at hM ⊢
    have y4 : 0 ≤ g ^ (l.length + 1) * (|x * y| + η) := by linarith
    obtain ⟨s, rfl, rs, hs⟩ := i (fun q hq => hfin q (by simp [hq])) (by linarith)
    have e1 : |s + x * y| ≤ g ^ l.length * (a + l.length * η) + |x * y| := by
      have a1 : |s| ≤ |s - c| + |c| := by
        have := abs_add_le (s - c) c; rwa [sub_add_cancel] at this
      have := abs_add_le s (x * y)
      linarith
    obtain ⟨z, r1, r2, hz⟩ := hr.near_abs (x := s + x * y) (by linarith)
    refine ⟨z, r1, r2, ?_⟩
    have e3 : |z - (c + x * y)| ≤ |z - (s + x * y)| + |s - c| := by
      have a1 := abs_add_le (z - (s + x * y)) (s - c)
      rwa [show z - (s + x * y) + (s - c) = z - (c + x * y) by ring] at a1
    have e4 := mul_le_mul_of_nonneg_left e1 (show 0 ≤ g - 1 by linarith)
    rw [pow_one] at y2
    rw [pow_succ] at y1 y2 y3 y4 ⊢
    linarith
  | @perm l m s hp h i =>
    have hp' := hp.map pairVal
    unfold dotBound at hM i ⊢
    rw [← dotAbs_perm hp', ← hp'.length_eq] at hM
    rw [← dotSum_perm hp', ← dotAbs_perm hp', ← hp'.length_eq]
    exact i (fun q hq => hfin q (hp.mem_iff.1 hq)) hM

/-- A sum of products with computed coefficients, each exact up to `k` roundings and `E`. -/
theorem DotR.approx {rd : K → Ext K} {ρ η M : K} (hr : IeeeRounding ρ η M rd) {n k : ℕ} {E C : K} {N : List (Ext K)}
    {b c : ℕ → K} (hN : N.length = n) (hn : ∀ r < n, IsNear rd ρ k E (N.getD r 0) (b r))
    (hc : ∀ r < n, |c r| ≤ C) {e : Ext K}
    (h : DotR rd (N.zip ((List.range n).map fun r => fin (c r))) e)
    (hM : (1 / ρ) ^ (k + n) * (∑ r ∈ Finset.range n, b r * |c r| + n * (C * E + η)) ≤ M) :
    ∃ s, e = fin s ∧ rd s = fin s ∧ |s - ∑ r ∈ Finset.range n, b r * c r| ≤
      ((1 / ρ) ^ (k + n) - 1) * (∑ r ∈ Finset.range n, b r * |c r|) + (1 / ρ) ^ (k + n) * (n * (C * E + η)) := by
  have hg := hr.one_le
  have hη := hr.eta
  set g := 1 / ρ with hgdef
  have ha : ∀ r, ∃ a : K, r < n → N.getD r 0 = fin a ∧ 0 ≤ a ∧ |a - b r| ≤ (g ^ k - 1) * b r + g ^ k * E := by
    intro r
    by_cases hrn : r < n
    · obtain ⟨a, e, -, h1, h2⟩ := (hn r hrn).abs_sub_le hr
      exact ⟨a, fun _ => ⟨e, h1, h2⟩⟩
    · exact ⟨0, fun h => absurd h hrn⟩
  choose a ha using ha
  have hlist : N.zip ((List.range n).map fun r => fin (c r)) = (List.range n).map fun r => (fin (a r), fin (c r)) := by
    refine List.ext_getElem (by simp [hN]) fun r h1 h2 => ?_
    have h3 : r < n := by simpa using h2
    have := (ha r h3).1
    rw [List.getD_eq_getElem?_getD, List.getElem?_eq_getElem (by omega)] at this
    simpa using this
  rw [hlist] at h
  have e1 : dotSum (((List.range n).map fun r => ((fin (a r) : Ext K), (fin (c r) : Ext K))).map pairVal)
      = ∑ r ∈ Finset.range n, a r * c r := by
    rw [dotSum, List.map_map, List.map_map, ← sum_map_range]; rfl
  have e2 : dotAbs (((List.range n).map fun r => ((fin (a r) : Ext K), (fin (c r) : Ext K))).map pairVal)
      = ∑ r ∈ Finset.range n, a r * |c r| := by
    rw [dotAbs, List.map_map, List.map_map, ← sum_map_range]
    congr 1
    refine List.map_congr_left fun r hr' => ?_
    show |a r * c r| = _
    rw [abs_mul, abs_of_nonneg (ha r (List.mem_range.1 hr')).2.1]
  have hE : n ≠ 0 → 0 ≤ E := fun hn0 => (hn 0 (by omega)).1
  have hb0 : ∀ r < n, 0 ≤ b r := fun r hr' => by
    obtain ⟨-, _, -, -, -, h, -⟩ := hn r hr'
    exact h
  -- the products with the exact and with the computed coefficients
  have hd : |∑ r ∈ Finset.range n, a r * c r - ∑ r ∈ Finset.range n, b r * c r| ≤
      (g ^ k - 1) * (∑ r ∈ Finset.range n, b r * |c r|) + g ^ k * (n * (C * E)) := by
    rw [← Finset.sum_sub_distrib]
    refine (Finset.abs_sum_le_sum_abs _ _).trans ?_
    have : ∀ r ∈ Finset.range n, |a r * c r - b r * c r| ≤ (g ^ k - 1) * (b r * |c r|) + g ^ k * (C * E) := by
      intro r hr'
      rw [Finset.mem_range] at hr'
      rw [← sub_mul, abs_mul]
      have x1 := mul_le_mul_of_nonneg_right (ha r hr').2.2 (abs_nonneg (c r))
      have x2 := mul_le_mul_of_nonneg_right (hc r hr') (hE (by omega))
      have x3 := mul_le_mul_of_nonneg_left x2 (show 0 ≤ g ^ k from le_trans zero_le_one (one_le_pow₀ hg))
      linarith
    refine (Finset.sum_le_sum this).trans (le_of_eq ?_)
    rw [Finset.sum_add_distrib, ← Finset.mul_sum, Finset.sum_const, Finset.card_range, nsmul_eq_mul]
    ring
  have hA : ∑ r ∈ Finset.range n, a r * |c r| ≤ g ^ k * (∑ r ∈ Finset.range n, b r * |c r| + n * (C * E)) := by
    have : ∀ r ∈ Finset.range n, a r * |c r| ≤ g ^ k * (b r * |c r|) + g ^ k * (C * E) := by
      intro r hr'
      rw [Finset.mem_range] at hr'
      have x0 : a r ≤ g ^ k * b r + g ^ k * E := by
        have := (abs_le.1 (ha r hr').2.2).2
        linarith
      have x1 := mul_le_mul_of_nonneg_right x0 (abs_nonneg (c r))
      have x2 := mul_le_mul_of_nonneg_right (hc r hr') (hE (by omega))
      have x3 := mul_le_mul_of_nonneg_left x2 (show 0 ≤ g ^ k from le_trans zero_le_one (one_le_pow₀ hg))
      linarith
    refine (Finset.sum_le_sum this).trans (le_of_eq ?_)
    rw [Finset.sum_add_distrib, ← Finset.mul_sum, Finset.sum_const, Finset.card_range, nsmul_eq_mul]
    ring
  have hS0 : 0 ≤ ∑ r ∈ Finset.range n, b r * |c r| :=
    Finset.sum_nonneg fun r hr' => mul_nonneg (hb0 r (Finset.mem_range.1 hr')) (abs_nonneg _)
  have gn : 1 ≤ g ^ n := one_le_pow₀ hg
  have gk : 1 ≤ g ^ k := one_le_pow₀ hg
  have nη : 0 ≤ (n : K) * η := mul_nonneg (Nat.cast_nonneg _) hη
  have y1 := mul_le_mul_of_nonneg_left hA (show 0 ≤ g ^ n by linarith)
  have y2 : g ^ n * (n * η) ≤ g ^ n * g ^ k * (n * η) :=
    mul_le_mul_of_nonneg_right (le_mul_of_one_le_right (by linarith) gk) nη
  have hbound : dotBound g η (((List.range n).map fun r => ((fin (a r) : Ext K), (fin (c r) : Ext K))).map pairVal)
      = (g ^ n - 1) * (∑ r ∈ Finset.range n, a r * |c r|) + g ^ n * (n * η) := by
    rw [dotBound, e2]; simp
  have hz := h.error hr (fun q hq => by
    obtain ⟨r, -, rfl⟩ := List.mem_map.1 hq
    exact ⟨_, _, rfl⟩) (by
      rw [← hgdef, hbound, e2]
      rw [pow_add] at hM
      linarith)
  rw [← hgdef, hbound, e1] at hz
  obtain ⟨s, rfl, rs, hs⟩ := hz
  refine ⟨s, rfl, rs, ?_⟩
  have h5 := abs_add_le (s - ∑ r ∈ Finset.range n, a r * c r)
    (∑ r ∈ Finset.range n, a r * c r - ∑ r ∈ Finset.range n, b r * c r)
  rw [sub_add_sub_cancel] at h5
  have y3 := mul_le_mul_of_nonneg_left hA (show 0 ≤ g ^ n - 1 by linarith)
  rw [pow_add]
  linarith

end

end PySpline
