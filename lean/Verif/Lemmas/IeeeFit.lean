import Verif.Lemmas.IeeeDot
import Verif.Lemmas.RoundedFit
import Verif.Lemmas.Extended
import Verif.Model.IeeeFit

/-!
# The matrix of the fits in IEEE arithmetic
-/

set_option linter.unusedSectionVars false

namespace PySpline

open Spec Ext

variable {K : Type} [Field K] [LinearOrder K] [IsStrictOrderedRing K]

theorem pyGet_lift1 (U : List K) (i : ℤ) (m : ℕ) (hi : i = (m : ℤ)) (hm : m < U.length) :
    pyGet (lift1 U) i = .ok (fin (knotFn U m)) := by
  rw [pyGet_nat (lift1 U) i m 0 hi (by simpa using hm)]
  congr 1
  rw [List.getD_eq_getElem?_getD, List.getElem?_map, List.getElem?_eq_getElem hm, knotFn_eq hm]
  rfl

theorem eqv_zero (x : K) : eqv (fin x) 0 = true ↔ x = 0 := eqv_lift x 0

/-- `IsNear`, and zero for zero. -/
def IsNearZ (rd : K → Ext K) (ρ : K) (k : ℕ) (E : K) (e : Ext K) (b : K) : Prop :=
  IsNear rd ρ k E e b ∧ (b = 0 → e = fin 0)

namespace IsNearZ
variable {rd : K → Ext K} {ρ η M E F R H h b c δ t : K} {k l : ℕ} {e f : Ext K}

theorem mono (hr : IeeeRounding ρ η M rd) (h : IsNearZ rd ρ k E e b) (hkl : k ≤ l) (hEF : E ≤ F) :
    IsNearZ rd ρ l F e b := ⟨h.1.mono hr hkl hEF, h.2⟩

theorem zero (hr : IeeeRounding ρ η M rd) (k : ℕ) (hE : 0 ≤ E) : IsNearZ rd ρ k E (fin 0) 0 :=
  ⟨IsNear.zero hr k hE, fun _ => rfl⟩

theorem one (hr : IeeeRounding ρ η M rd) (k : ℕ) (hE : 0 ≤ E) : IsNearZ rd ρ k E (fin 1) 1 :=
  ⟨(IsNear.one hr).mono hr (Nat.zero_le k) hE, fun h => absurd h one_ne_zero⟩

theorem nonneg (h : IsNear rd ρ k E e b) : 0 ≤ b := by
  obtain ⟨-, _, _, _, _, h, _⟩ := h
  exact h

theorem of_exact (hr : IeeeRounding ρ η M rd) (h : IsNear rd ρ k 0 e b) : IsNearZ rd ρ k 0 e b := by
  refine ⟨h, ?_⟩
  rintro rfl
  obtain ⟨-, a, rfl, -, h2, -, -, h5⟩ := h
  rw [add_zero] at h5
  have := pow_pos hr.pos k
  have : a ≤ 0 := by
    by_contra hc
    push Not at hc
    have := mul_pos hc this
    linarith
  rw [le_antisymm this h2]

theorem add (hr : IeeeRounding ρ η M rd) (h1 : IsNearZ rd ρ k E e b) (h2 : IsNearZ rd ρ k F f c)
    (hM : b + E + (c + F) ≤ M * ρ ^ k) : IsNearZ rd ρ (k + 1) (E + F) (rnd rd (e + f)) (b + c) := by
  refine ⟨h1.1.add hr h2.1 hM, fun h => ?_⟩
  have hb := nonneg h1.1
  have hc := nonneg h2.1
  rw [h1.2 (by linarith), h2.2 (by linarith)]
  show rd (0 + 0) = _
  rw [add_zero, hr.zero]

theorem mul (hr : IeeeRounding ρ η M rd) (h1 : IsNearZ rd ρ l 0 f R) (h2 : IsNearZ rd ρ k E e b) (hR : R ≤ H)
    (hM : R * (b + E) ≤ M * ρ ^ (l + k)) :
    IsNearZ rd ρ (l + k + 1) (H / ρ ^ l * E + η) (rnd rd (f * e)) (R * b) := by
  refine ⟨h1.1.mul hr h2.1 hR hM, fun h => ?_⟩
  obtain ⟨-, x, rfl, -⟩ := h1.1
  obtain ⟨-, y, rfl, -⟩ := h2.1
  have : x * y = 0 := by
    rcases mul_eq_zero.1 h with h | h
    · have := h1.2 h
      cases this
      exact zero_mul _
    · have := h2.2 h
      cases this
      exact mul_zero _
  show rd (x * y) = _
  rw [this, hr.zero]

theorem div (hr : IeeeRounding ρ η M rd) (h1 : IsNearZ rd ρ k E e b) (h2 : IsNear rd ρ l 0 f h) (hh : 0 < h)
    (hM : b + E ≤ M * ρ ^ (k + l) * h) :
    IsNearZ rd ρ (k + l + 1) (E / (ρ ^ l * h) + η) (rnd rd (e / f)) (b / h) := by
  refine ⟨h1.1.div hr h2 hh hM, fun hz => ?_⟩
  have hb : b = 0 := by
    rcases div_eq_zero_iff.1 hz with h | h
    · exact h
    · exact absurd h hh.ne'
  rw [h1.2 hb]
  obtain ⟨-, y, rfl, -, -, -, y4, -⟩ := h2
  have hy : 0 < y := by
    have := mul_pos hh (pow_pos hr.pos l)
    linarith
  rw [fin_div _ hy.ne', zero_div]
  exact hr.zero

/-- What the tests for zero leave out is within the error. -/
theorem skip (hr : IeeeRounding ρ η M rd) (h : IsNearZ rd ρ k E (fin 0) b) (h0 : 0 ≤ t) (ht : t ≤ b) (hkl : k ≤ l)
    (hEF : E ≤ F) : IsNearZ rd ρ l F (fin 0) t := by
  refine ⟨?_, fun _ => rfl⟩
  obtain ⟨hE, a, ha, -, -, -, h4, -⟩ := h.1.mono hr hkl hEF
  cases ha
  refine ⟨hE, 0, rfl, hr.zero, le_rfl, h0, ?_, by linarith⟩
  exact (mul_le_mul_of_nonneg_right ht (pow_pos hr.pos l).le).trans h4

/-- Adding what was left out. -/
theorem add_skip (hr : IeeeRounding ρ η M rd) (h1 : IsNearZ rd ρ k E e b) (h2 : IsNearZ rd ρ k F (fin 0) c) :
    IsNearZ rd ρ (k + 1) (E + F) e (b + c) := by
  have hb := nonneg h1.1
  have hc := nonneg h2.1
  refine IsNearZ.mono hr (k := k) ⟨?_, fun h => h1.2 (by linarith)⟩ (Nat.le_succ k) le_rfl
  obtain ⟨hE, x, rfl, x1, x2, x3, x4, x5⟩ := h1.1
  obtain ⟨hF, y, hy, -, -, -, y4, -⟩ := h2.1
  cases hy
  refine ⟨add_nonneg hE hF, x, rfl, x1, x2, add_nonneg hb hc, ?_, by linarith⟩
  rw [add_mul]
  linarith

end IsNearZ

/-- The conditions on the sizes in `one_basis_function`: the knots in use differ by at most `H`, and by at
least `δ` if they differ. -/
structure OneSizes (ρ η M δ H : K) (p : ℕ) : Prop where
  pos : 0 < δ
  le : δ ≤ H
  M8 : 8 ≤ M
  Mδ : 8 ≤ M * δ
  MH : 4 * H ≤ M
  small : 4 ^ p * ((2 * H + 2 / δ + 1) * η) ≤ 1
  rho : 1 ≤ 2 * ρ ^ (5 * p)

section
variable {ρ η M δ H : K} {p : ℕ} {rd : K → Ext K}

theorem OneSizes.pw (hs : OneSizes ρ η M δ H p) (hr : IeeeRounding ρ η M rd) {m : ℕ} (hm : m ≤ 5 * p) :
    1 ≤ 2 * ρ ^ m :=
  hs.rho.trans (mul_le_mul_of_nonneg_left (pow_le_pow_of_le_one hr.pos.le hr.le_one hm) zero_le_two)

theorem OneSizes.pM (hs : OneSizes ρ η M δ H p) (hr : IeeeRounding ρ η M rd) {m : ℕ} (hm : m ≤ 5 * p) :
    M ≤ 2 * (M * ρ ^ m) := by
  have := mul_le_mul_of_nonneg_left (hs.pw hr hm) (show 0 ≤ M by linarith [hs.M8])
  linarith

/-- The first term of the recursion. -/
theorem OneSizes.first (hs : OneSizes ρ η M δ H p) (hr : IeeeRounding ρ η M rd) {u a b' x E : K} {n0 : Ext K}
    {m : ℕ} (hm : m + 5 ≤ 5 * p) (hn : IsNearZ rd ρ m E n0 x) (hx : x ≤ 1) (hE : E ≤ 1) (hu : rd u = fin u)
    (ha : rd a = fin a) (hb : rd b' = fin b') (h1 : a ≤ u) (h2 : u ≤ b') (hδ : δ ≤ b' - a) (hH : b' - a ≤ H) :
    IsNearZ rd ρ (m + 4) (2 * E + (2 * H + 2 / δ + 1) * η)
      (rnd rd (rnd rd (rnd rd (fin u - fin a) * n0) / rnd rd (fin b' - fin a))) ((u - a) / (b' - a) * x) := by
  have p0 := hr.pos
  have hη := hr.eta
  have hM0 : 0 ≤ M := by linarith [hs.M8]
  have hx0 := IsNearZ.nonneg hn.1
  have hE0 : 0 ≤ E := hn.1.1
  have hd0 := hs.pos
  have hh : 0 < b' - a := by linarith
  have hHM : H ≤ M := by linarith [hs.MH]
  have q1 := IsNearZ.of_exact hr (IsNear.sub hr hu ha (by linarith) (by linarith))
  have q2 := IsNear.sub hr hb ha hh.le (by linarith)
  have h4p : (1 : K) ≤ 4 ^ p := one_le_pow₀ (by norm_num)
  have hδη : 2 / δ * η ≤ 1 := by
    have := hs.small
    have a1 : 0 ≤ (2 * H + 2 / δ + 1) * η := mul_nonneg (by have := div_pos two_pos hd0; linarith) hη
    have a2 := mul_le_mul_of_nonneg_right h4p a1
    have a3 : 0 ≤ (2 * H + 1) * η := mul_nonneg (by linarith) hη
    linarith
  have hηδ : η ≤ δ := by
    rw [div_mul_eq_mul_div, div_le_one hd0] at hδη
    linarith
  have i1 : 1 / ρ ≤ 2 := by
    rw [div_le_iff₀ p0]
    have := hs.pw hr (m := 1) (by omega)
    rw [pow_one] at this
    linarith
  have i2 : E / ρ ^ 2 ≤ 2 * E := by
    rw [div_le_iff₀ (pow_pos p0 2)]
    have := mul_le_mul_of_nonneg_left (hs.pw hr (m := 2) (by omega)) hE0
    linarith
  have q3 := q1.mul hr hn (H := b' - a) (by linarith) (by
    have a1 : (u - a) * (x + E) ≤ H * 2 := mul_le_mul (by linarith) (by linarith) (by linarith) (by linarith)
    have := hs.pM hr (m := 1 + m) (by omega)
    linarith [hs.MH])
  have q4 := q3.div hr q2 hh (by
    have a1 : (u - a) * x ≤ (b' - a) * 1 := mul_le_mul (by linarith) hx hx0 hh.le
    have a2 : (b' - a) / ρ ^ 1 * E ≤ (b' - a) * 2 := by
      rw [pow_one, div_eq_mul_one_div, mul_assoc]
      refine mul_le_mul_of_nonneg_left ?_ hh.le
      calc 1 / ρ * E ≤ 2 * 1 := mul_le_mul i1 hE hE0 (by norm_num)
        _ = 2 := by norm_num
    have a3 := mul_le_mul_of_nonneg_right (hs.pM hr (m := 1 + m + 1 + 1) (by omega)) hh.le
    have a4 := mul_le_mul_of_nonneg_right hs.M8 hh.le
    linarith)
  have q5 := q4.mono hr (l := m + 4) (F := 2 * E + (2 * H + 2 / δ + 1) * η) (by omega) (by
    have e : ((b' - a) / ρ ^ 1 * E + η) / (ρ ^ 1 * (b' - a)) + η
        = E / ρ ^ 2 + (1 / ρ) * (1 / (b' - a)) * η + η := by
      field_simp
    rw [e]
    have a1 : (1 / ρ) * (1 / (b' - a)) ≤ 2 * (1 / δ) :=
      mul_le_mul i1 (one_div_le_one_div_of_le hd0 hδ) (one_div_pos.2 hh).le (by norm_num)
    have a2 := mul_le_mul_of_nonneg_right a1 hη
    have a3 : 0 ≤ H * η := mul_nonneg (by linarith) hη
    have a4 : 2 / δ = 2 * (1 / δ) := by ring
    rw [a4]
    linarith)
  refine (congrArg (IsNearZ rd ρ (m + 4) _ _) ?_).mp q5
  ring

/-- The two terms with `temp`. -/
theorem OneSizes.term (hs : OneSizes ρ η M δ H p) (hr : IeeeRounding ρ η M rd) {a b' x E Q : K} {nj q : Ext K}
    {m : ℕ} (hm : m + 5 ≤ 5 * p) (hn : IsNearZ rd ρ m E nj x) (hx : x ≤ 1) (hE : E ≤ 1)
    (ha : rd a = fin a) (hb : rd b' = fin b') (hq : IsNear rd ρ 1 0 q Q) (hQ : Q ≤ b' - a)
    (hδ : δ ≤ b' - a) (hH : b' - a ≤ H) :
    IsNearZ rd ρ (m + 4) (2 * E + (2 * H + 2 / δ + 1) * η)
      (rnd rd (q * rnd rd (nj / rnd rd (fin b' - fin a)))) (Q / (b' - a) * x) := by
  have p0 := hr.pos
  have hη := hr.eta
  have hM0 : 0 ≤ M := by linarith [hs.M8]
  have hx0 := IsNearZ.nonneg hn.1
  have hQ0 := IsNearZ.nonneg hq
  have hE0 : 0 ≤ E := hn.1.1
  have hd0 := hs.pos
  have hh : 0 < b' - a := by linarith
  have hHM : H ≤ M := by linarith [hs.MH]
  have q2 := IsNear.sub hr hb ha hh.le (by linarith)
  have h4p : (1 : K) ≤ 4 ^ p := one_le_pow₀ (by norm_num)
  have h2δ := div_pos two_pos hd0
  have hHη : H * η ≤ 1 := by
    have := hs.small
    have a1 : 0 ≤ (2 * H + 2 / δ + 1) * η := mul_nonneg (by linarith) hη
    have a2 := mul_le_mul_of_nonneg_right h4p a1
    have a3 : 0 ≤ (H + 2 / δ + 1) * η := mul_nonneg (by linarith) hη
    linarith
  have i1 : 1 / ρ ≤ 2 := by
    rw [div_le_iff₀ p0]
    have := hs.pw hr (m := 1) (by omega)
    rw [pow_one] at this
    linarith
  have i2 : E / ρ ^ 2 ≤ 2 * E := by
    rw [div_le_iff₀ (pow_pos p0 2)]
    have := mul_le_mul_of_nonneg_left (hs.pw hr (m := 2) (by omega)) hE0
    linarith
  have i3 : E / ρ ≤ 2 * E := by
    rw [div_eq_mul_one_div, mul_comm]
    exact mul_le_mul_of_nonneg_right i1 hE0
  have q3 := hn.div hr q2 hh (by
    have a3 := mul_le_mul_of_nonneg_right (hs.pM hr (m := m + 1) (by omega)) hh.le
    have a4 := mul_le_mul_of_nonneg_left hδ hM0
    linarith [hs.Mδ])
  have q4 := (IsNearZ.of_exact hr hq).mul hr q3 (H := b' - a) hQ (by
    have a1 : Q * (x / (b' - a) + (E / (ρ ^ 1 * (b' - a)) + η))
        ≤ (b' - a) * (x / (b' - a) + (E / (ρ ^ 1 * (b' - a)) + η)) := by
      refine mul_le_mul_of_nonneg_right hQ ?_
      positivity
    have e : (b' - a) * (x / (b' - a) + (E / (ρ ^ 1 * (b' - a)) + η)) = x + E / ρ + (b' - a) * η := by
      field_simp
      ring
    have a2 := mul_le_mul_of_nonneg_right hH hη
    have := hs.pM hr (m := 1 + (m + 1 + 1)) (by omega)
    linarith [hs.M8])
  have q5 := q4.mono hr (l := m + 4) (F := 2 * E + (2 * H + 2 / δ + 1) * η) (by omega) (by
    have e : (b' - a) / ρ ^ 1 * (E / (ρ ^ 1 * (b' - a)) + η) + η
        = E / ρ ^ 2 + (1 / ρ) * (b' - a) * η + η := by
      field_simp
    rw [e]
    have a1 : (1 / ρ) * (b' - a) ≤ 2 * H := mul_le_mul i1 hH hh.le (by norm_num)
    have a2 := mul_le_mul_of_nonneg_right a1 hη
    have a3 : 0 ≤ 2 / δ * η := mul_nonneg h2δ.le hη
    linarith)
  refine (congrArg (IsNearZ rd ρ (m + 4) _ _) ?_).mp q5
  ring

end

/-! ## The basis functions add up to at most one, inside the domain or not -/

theorem sum_N_le_one {V : ℕ → K} (hV : Monotone V) (u : K) (p : ℕ) :
    ∀ m, ∑ i ∈ Finset.range m, N V p i u ≤ 1 := by
  induction p with
  | zero =>
    intro m
    have : ∑ i ∈ Finset.range m, N V 0 i u = if V 0 ≤ u ∧ u < V m then 1 else 0 := by
      induction m with
      | zero => rw [Finset.sum_range_zero, if_neg (by rintro ⟨a, b⟩; linarith)]
      | succ m ih =>
        rw [Finset.sum_range_succ, ih]
        unfold N
        have h0 : V 0 ≤ V m := hV (Nat.zero_le m)
        have h1 : V m ≤ V (m + 1) := hV (Nat.le_succ m)
        by_cases a : u < V m
        · have b : ¬ V m ≤ u := not_le.2 a
          have c : u < V (m + 1) := a.trans_le h1
          simp [a, b, c]
        · have b : V m ≤ u := not_lt.1 a
          have c : V 0 ≤ u := h0.trans b
          simp [a, b, c]
    rw [this]
    split <;> simp
  | succ q ih =>
    intro m
    set T : ℕ → K := fun i => (u - V i) / (V (i + q + 1) - V i) * N V q i u with hT
    have hT0 : ∀ i, 0 ≤ T i ∧ T i ≤ N V q i u := by
      intro i
      by_cases hz : N V q i u = 0
      · simp [hT, hz]
      · obtain ⟨a, b⟩ := N_support hV hz
        have hn := N_nonneg hV q i u
        have d : 0 < V (i + q + 1) - V i := by linarith
        exact ⟨mul_nonneg (div_nonneg (by linarith) d.le) hn,
          mul_le_of_le_one_left hn (by rw [div_le_one d]; linarith)⟩
    have hN : ∀ i, N V (q + 1) i u = T i + (N V q (i + 1) u - T (i + 1)) := by
      intro i
      rw [N, hT]
      dsimp only
      congr 1
      by_cases hz : N V q (i + 1) u = 0
      · simp [hz]
      · obtain ⟨a, b⟩ := N_support hV hz
        have e : i + 1 + q + 1 = i + q + 1 + 1 := by omega
        rw [e] at b ⊢
        have d : V (i + q + 1 + 1) - V (i + 1) ≠ 0 := by
          have : 0 < V (i + q + 1 + 1) - V (i + 1) := by linarith
          exact this.ne'
        field_simp
        ring
    have hs : ∀ m, ∑ i ∈ Finset.range m, N V (q + 1) i u
        = T 0 - T m + ∑ i ∈ Finset.range m, N V q (i + 1) u := by
      intro m
      induction m with
      | zero => simp
      | succ m ih' => rw [Finset.sum_range_succ, ih', Finset.sum_range_succ, hN m]; ring
    have h1 := ih (m + 1)
    rw [Finset.sum_range_succ'] at h1
    rw [hs m]
    linarith [(hT0 0).2, (hT0 m).1]

theorem N_le_one {V : ℕ → K} (hV : Monotone V) (u : K) (p i : ℕ) : N V p i u ≤ 1 :=
  (Finset.single_le_sum (f := fun i => N V p i u) (fun j _ => N_nonneg hV p j u)
    (Finset.mem_range.2 (Nat.lt_succ_self i))).trans (sum_N_le_one hV u p (i + 1))

/-! ## `one_basis_function` -/

/-- `one_basis_function` in IEEE arithmetic: the exact value up to `5 p` roundings and underflow. -/
theorem oneBasisFunctionR_near {ρ η M δ H : K} {rd : K → Ext K} (hr : IeeeRounding ρ η M rd) {U : List K}
    (hU : Monotone (knotFn U)) {p i : ℕ} {u : K} (hi : i + p + 1 < U.length) (hs : OneSizes ρ η M δ H p)
    (hrep : ∀ x ∈ U, rd x = fin x) (hu : rd u = fin u) (hδ : ∀ x ∈ U, ∀ y ∈ U, x < y → δ ≤ y - x)
    (hH : knotFn U (i + p + 1) - knotFn U i ≤ H) :
    Returns (oneBasisFunctionR rd p (lift1 U) i (fin u)) fun x =>
      IsNearZ rd ρ (5 * p) ((4 ^ p - 1) * ((2 * H + 2 / δ + 1) * η)) x
      (if (i = 0 ∧ u = knotFn U 0) ∨
          ((i : ℤ) = (U.length : ℤ) - p - 2 ∧ u = knotFn U (U.length - 1)) then 1
        else N (knotFn U) p i u) := by
  have p0 := hr.pos
  have p1 := hr.le_one
  have hη := hr.eta
  have hd0 := hs.pos
  set c := (2 * H + 2 / δ + 1) * η with hc
  have hc0 : 0 ≤ c := mul_nonneg (by have := div_pos two_pos hd0; linarith [hs.le]) hη
  have hE0 : ∀ k : ℕ, 0 ≤ (4 ^ k - 1) * c := fun k =>
    mul_nonneg (by have : (1 : K) ≤ 4 ^ k := one_le_pow₀ (by norm_num)
                   linarith) hc0
  have hE1 : ∀ k ≤ p, (4 ^ k - 1) * c ≤ 1 := by
    intro k hk
    have a2 : (4 : K) ^ k ≤ 4 ^ p := pow_le_pow_right₀ (by norm_num) hk
    have := mul_le_mul_of_nonneg_right a2 hc0
    have := hs.small
    linarith
  unfold oneBasisFunctionR
  set V := knotFn U with hV
  have hlen : (lift1 U).length = U.length := by simp
  rw [hlen, pyGet_lift1 U 0 0 rfl (by omega), ok_bind,
    pyGet_lift1 U _ (U.length - 1) (by omega) (by omega), ok_bind]
  rw [← hV]
  by_cases hsp : (i = 0 ∧ u = V 0) ∨ ((i : ℤ) = (U.length : ℤ) - p - 2 ∧ u = V (U.length - 1))
  · rw [if_pos (by rwa [eqv_lift, eqv_lift]), if_pos hsp]; exact Returns.ok (IsNearZ.one hr _ (hE0 p))
  rw [if_neg (by rwa [eqv_lift, eqv_lift]), if_neg hsp]
  rw [pyGet_lift1 U _ i rfl (by omega), ok_bind]
  by_cases hlo : u < V i
  · rw [if_pos ((lt_lift _ _).2 hlo), N_zero_of_not_support hU (Or.inl hlo)]; exact Returns.ok (IsNearZ.zero hr _ (hE0 p))
  rw [if_neg (mt (lt_lift _ _).1 hlo), pyGet_lift1 U _ (i + p + 1) (by push_cast; rfl) hi, ok_bind]
  by_cases hhi : u > V (i + p + 1)
  · rw [if_pos ((lt_lift _ _).2 hhi), N_zero_of_not_support hU (Or.inr hhi.le)]; exact Returns.ok (IsNearZ.zero hr _ (hE0 p))
  rw [if_neg (mt (lt_lift _ _).1 hhi)]
  have hrepV : ∀ m, m < U.length → rd (V m) = fin (V m) := fun m hm =>
    hrep _ (by rw [hV, knotFn_eq hm]; exact List.getElem_mem _)
  have hgap : ∀ x y, x < U.length → y < U.length → V x < V y → δ ≤ V y - V x := fun x y hx hy h => by
    refine hδ _ ?_ _ ?_ h
    · rw [hV, knotFn_eq hx]; exact List.getElem_mem _
    · rw [hV, knotFn_eq hy]; exact List.getElem_mem _
  have hwide : ∀ x y, i ≤ x → y ≤ i + p + 1 → V y - V x ≤ H := fun x y hx hy => by
    have a1 : V i ≤ V x := hU hx
    have a2 : V y ≤ V (i + p + 1) := hU hy
    linarith
  dsimp only
  refine Returns.bind (Returns.forN (fun j (N' : List (Ext K)) => N'.length = i + p + 1 ∧
    (∀ x < j, N'.getD x 0 = fin (N V 0 (i + x) u)) ∧ (∀ x, j ≤ x → N'.getD x 0 = fin 0)) (by omega) ?_ ?_) ?_
  · refine ⟨by simp, by intro x hx; omega, ?_⟩
    intro x _
    simp only [List.getD_eq_getElem?_getD, List.getElem?_replicate]
    split <;> rfl
  · rintro j N' - hj ⟨h1, h2, h3⟩
    rw [pyGet_lift1 U _ (i + j) (by push_cast; rfl) (by omega), ok_bind,
      pyGet_lift1 U _ (i + j + 1) (by push_cast; rfl) (by omega), ok_bind]
    by_cases hcc : V (i + j) ≤ u ∧ u < V (i + j + 1)
    · rw [if_pos (by rwa [le_lift, lt_lift]), pySet_nat N' _ j _ rfl (by omega)]
      refine Returns.ok ⟨by simp [h1], ?_, ?_⟩
      · intro x hx
        rw [getD_set _ _ _ _ _ (by omega)]
        by_cases hxj : x = j
        · subst hxj; rw [if_pos rfl]; unfold N; rw [if_pos hcc]; rfl
        · rw [if_neg hxj]; exact h2 x (by omega)
      · intro x hx
        rw [getD_set _ _ _ _ _ (by omega), if_neg (by omega)]; exact h3 x (by omega)
    · rw [if_neg (by rwa [le_lift, lt_lift])]
      refine Returns.ok ⟨h1, ?_, fun x hx => h3 x (by omega)⟩
      intro x hx
      by_cases hxj : x = j
      · subst hxj; rw [h3 x le_rfl]; unfold N; rw [if_neg hcc]
      · exact h2 x (by omega)
  rintro N0 ⟨hlen0, hN0, -⟩
  refine Returns.bind (Returns.forN (fun k (N' : List (Ext K)) => N'.length = i + p + 1 ∧
    (∀ x, x + (k - 1) ≤ p → IsNearZ rd ρ (5 * (k - 1)) ((4 ^ (k - 1) - 1) * c) (N'.getD x 0)
      (N V (k - 1) (i + x) u)))
    (by omega) ?_ ?_) ?_
  · refine ⟨hlen0, fun x hx => ?_⟩
    rw [hN0 x (by omega)]
    show IsNearZ rd ρ 0 ((4 ^ 0 - 1) * c) _ (N V 0 (i + x) u)
    unfold N
    split
    · exact IsNearZ.one hr 0 (hE0 0)
    · exact IsNearZ.zero hr 0 (hE0 0)
  · rintro k N' hk1 hk2 ⟨h1, h2⟩
    obtain ⟨q, rfl⟩ : ∃ q, k = q + 1 := ⟨k - 1, by omega⟩
    simp only [Nat.add_sub_cancel] at h2 ⊢
    have hEq : 2 * ((4 ^ q - 1) * c) + c + (2 * ((4 ^ q - 1) * c) + c) ≤ (4 ^ (q + 1) - 1) * c := by
      rw [pow_succ]
      linarith
    have hEs := hE1 (q + 1) (by omega)
    rw [pyGet_nat N' 0 0 0 rfl (by omega), ok_bind]
    have hn0 := h2 0 (by omega)
    rw [add_zero] at hn0
    refine Returns.bind (P := fun saved => IsNearZ rd ρ (5 * q + 4) (2 * ((4 ^ q - 1) * c) + c) saved
      ((u - V i) / (V (i + (q + 1)) - V i) * N V q i u)) ?_ ?_
    · obtain ⟨-, x, hx, -⟩ := hn0.1
      rw [hx] at hn0 ⊢
      by_cases hx0 : x = 0
      · rw [if_neg (not_not.2 ((eqv_zero x).2 hx0))]
        subst hx0
        refine Returns.ok (hn0.skip hr ?_ ?_ (by omega) (by linarith [hE0 q]))
        all_goals
          by_cases hz : N V q i u = 0
          · rw [hz, mul_zero]
          · obtain ⟨a, b⟩ := N_support hU hz
            have hn := N_nonneg hU q i u
            have e : i + (q + 1) = i + q + 1 := by omega
            rw [e]
            have d : 0 < V (i + q + 1) - V i := by linarith
            first
              | exact mul_nonneg (div_nonneg (by linarith) d.le) hn
              | exact mul_le_of_le_one_left hn (by rw [div_le_one d]; linarith)
      · rw [if_pos (mt (eqv_zero x).1 hx0), ok_bind,
          pyGet_lift1 U _ (i + (q + 1)) (by push_cast; rfl) (by omega), ok_bind]
        have hz : N V q i u ≠ 0 := fun h => hx0 (by have := hn0.2 h; cases this; rfl)
        obtain ⟨a, b⟩ := N_support hU hz
        have e : i + (q + 1) = i + q + 1 := by omega
        rw [← e] at b
        exact Returns.ok (hs.first hr (by omega) hn0 (N_le_one hU u q i) (hE1 q (by omega)) hu
          (hrepV _ (by omega)) (hrepV _ (by omega)) a b.le (hgap _ _ (by omega) (by omega) (by linarith))
          (hwide _ _ le_rfl (by omega)))
    intro saved hsaved
    refine Returns.bind (Returns.forN (fun j (st : List (Ext K) × Ext K) => st.1.length = i + p + 1 ∧
      (∀ x < j, IsNearZ rd ρ (5 * (q + 1)) ((4 ^ (q + 1) - 1) * c) (st.1.getD x 0) (N V (q + 1) (i + x) u)) ∧
      (∀ x, j ≤ x → x + q ≤ p → IsNearZ rd ρ (5 * q) ((4 ^ q - 1) * c) (st.1.getD x 0) (N V q (i + x) u)) ∧
      IsNearZ rd ρ (5 * q + 4) (2 * ((4 ^ q - 1) * c) + c) st.2
        ((u - V (i + j)) / (V (i + j + (q + 1)) - V (i + j)) * N V q (i + j) u))
      (by omega) ?_ ?_) ?_
    · exact ⟨h1, by intro x hx; omega, fun x _ hx => h2 x hx, hsaved⟩
    · rintro j ⟨N', saved⟩ - hj ⟨g1, g2, g3, g4⟩
      simp only at g1 g2 g3 g4 ⊢
      have n1 := g3 (j + 1) (by omega) (by omega)
      rw [pyGet_lift1 U _ (i + j + 1) (by push_cast; rfl) (by omega), ok_bind,
        pyGet_lift1 U _ (i + j + (q + 1) + 1) (by push_cast; rfl) (by omega), ok_bind,
        pyGet_nat N' _ (j + 1) 0 (by push_cast; rfl) (by omega), ok_bind, ← hV]
      have e2 : i + (j + 1) = i + j + 1 := by omega
      have e3 : i + (j + 1) + (q + 1) = i + j + (q + 1) + 1 := by omega
      have hN : N V (q + 1) (i + j) u
          = (u - V (i + j)) / (V (i + j + (q + 1)) - V (i + j)) * N V q (i + j) u
            + (V (i + j + (q + 1) + 1) - u) / (V (i + j + (q + 1) + 1) - V (i + j + 1))
            * N V q (i + (j + 1)) u := by
        have e1 : i + j + (q + 1) = i + j + q + 1 := by omega
        rw [e1, e2]
        show N V (q + 1) (i + j) u = _
        rw [N]
      have hle : N V (q + 1) (i + j) u ≤ 1 := N_le_one hU u (q + 1) (i + j)
      obtain ⟨-, x, hx, -⟩ := n1.1
      rw [hx] at n1 ⊢
      have fits : ∀ {t : K}, N V q (i + (j + 1)) u ≠ 0 → V (i + j + 1) ≤ u ∧ u < V (i + j + (q + 1) + 1) := by
        intro t hz
        obtain ⟨a, b⟩ := N_support hU hz
        have e1 : i + (j + 1) + q + 1 = i + j + (q + 1) + 1 := by omega
        rw [e1] at b
        rw [e2] at a
        exact ⟨a, b⟩
      by_cases hx0 : x = 0
      · rw [if_pos ((eqv_zero x).2 hx0), pySet_nat N' _ j _ rfl (by omega), ok_bind]
        subst hx0
        have hn := N_nonneg hU q (i + (j + 1)) u
        have s1 : IsNearZ rd ρ (5 * q + 4) (2 * ((4 ^ q - 1) * c) + c) (fin 0)
            ((V (i + j + (q + 1) + 1) - u) / (V (i + j + (q + 1) + 1) - V (i + j + 1)) * N V q (i + (j + 1)) u) := by
          refine n1.skip hr ?_ ?_ (by omega) (by linarith [hE0 q])
          all_goals
            by_cases hz : N V q (i + (j + 1)) u = 0
            · rw [hz, mul_zero]
            · obtain ⟨a, b⟩ := fits (t := 0) hz
              have d : 0 < V (i + j + (q + 1) + 1) - V (i + j + 1) := by linarith
              first
                | exact mul_nonneg (div_nonneg (by linarith) d.le) hn
                | exact mul_le_of_le_one_left hn (by rw [div_le_one d]; linarith)
        have s2 : IsNearZ rd ρ (5 * q + 4) (2 * ((4 ^ q - 1) * c) + c) (fin 0)
            ((u - V (i + (j + 1))) / (V (i + (j + 1) + (q + 1)) - V (i + (j + 1))) * N V q (i + (j + 1)) u) := by
          refine n1.skip hr ?_ ?_ (by omega) (by linarith [hE0 q])
          all_goals
            by_cases hz : N V q (i + (j + 1)) u = 0
            · rw [hz, mul_zero]
            · obtain ⟨a, b⟩ := fits (t := 0) hz
              rw [e3, e2]
              rw [e2] at hn
              have d : 0 < V (i + j + (q + 1) + 1) - V (i + j + 1) := by linarith
              first
                | exact mul_nonneg (div_nonneg (by linarith) d.le) hn
                | exact mul_le_of_le_one_left hn (by rw [div_le_one d]; linarith)
        refine Returns.ok ⟨by simp [g1], ?_, ?_, s2⟩
        · intro x hx
          show IsNearZ rd ρ _ _ ((N'.set j saved).getD x 0) _
          rw [getD_set _ _ _ _ _ (by omega)]
          by_cases hxj : x = j
          · subst hxj
            rw [if_pos rfl, hN]
            exact (g4.add_skip hr s1).mono hr (by omega) hEq
          · rw [if_neg hxj]; exact g2 x (by omega)
        · intro x hx1 hx2
          show IsNearZ rd ρ _ _ ((N'.set j saved).getD x 0) _
          rw [getD_set _ _ _ _ _ (by omega), if_neg (by omega)]; exact g3 x (by omega) hx2
      · rw [if_neg (mt (eqv_zero x).1 hx0)]
        have hz : N V q (i + (j + 1)) u ≠ 0 := fun h => hx0 (by have := n1.2 h; cases this; rfl)
        obtain ⟨a, b⟩ := fits (t := 0) hz
        have hw := hwide (i + j + 1) (i + j + (q + 1) + 1) (by omega) (by omega)
        have hg := hgap (i + j + 1) (i + j + (q + 1) + 1) (by omega) (by omega) (by linarith)
        have hHM : H ≤ M := by linarith [hs.MH, hs.le]
        have r1 := hs.term hr (by omega) n1 (N_le_one hU u q _) (hE1 q (by omega))
          (hrepV (i + j + 1) (by omega)) (hrepV (i + j + (q + 1) + 1) (by omega))
          (IsNear.sub hr (hrepV (i + j + (q + 1) + 1) (by omega)) hu (by linarith) (by linarith)) (by linarith) hg hw
        have r2 := hs.term hr (by omega) n1 (N_le_one hU u q _) (hE1 q (by omega))
          (hrepV (i + j + 1) (by omega)) (hrepV (i + j + (q + 1) + 1) (by omega))
          (IsNear.sub hr hu (hrepV (i + j + 1) (by omega)) (by linarith) (by linarith)) (by linarith) hg hw
        rw [pySet_nat N' _ j _ rfl (by omega), ok_bind]
        refine Returns.ok ⟨by simp [g1], ?_, ?_, ?_⟩
        · intro x hx
          show IsNearZ rd ρ _ _ ((N'.set j _).getD x 0) _
          rw [getD_set _ _ _ _ _ (by omega)]
          by_cases hxj : x = j
          · subst hxj
            rw [if_pos rfl, hN]
            refine (g4.add hr r1 ?_).mono hr (by omega) hEq
            have := hs.pM hr (m := 5 * q + 4) (by omega)
            rw [hN] at hle
            linarith [hs.M8]
          · rw [if_neg hxj]; exact g2 x (by omega)
        · intro x hx1 hx2
          show IsNearZ rd ρ _ _ ((N'.set j _).getD x 0) _
          rw [getD_set _ _ _ _ _ (by omega), if_neg (by omega)]; exact g3 x (by omega) hx2
        · rw [e3, e2]
          rw [e2] at r2
          exact r2
    · rintro ⟨N', saved⟩ ⟨g1, g2, -, -⟩
      exact Returns.ok ⟨g1, fun x hx => g2 x (by omega)⟩
  rintro N' ⟨h1, h2⟩
  rw [pyGet_nat N' 0 0 0 rfl (by omega)]
  exact Returns.ok (h2 0 (by simp))

end PySpline
