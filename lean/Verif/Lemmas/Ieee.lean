import Verif.Model.Ieee
import Verif.Lemmas.Curve
import Verif.Lemmas.Extended

/-!
# Error propagation in arithmetic with overflow and underflow
-/

set_option linter.unusedSectionVars false

namespace PySpline

open Polynomial Spec Ext

section
variable {K : Type} [Field K] [LinearOrder K] [IsStrictOrderedRing K]

/-- What is assumed of the rounding `rd`.  Up to size `M` no result is infinite; the relative error
is given by `ρ`, and to it an absolute error `η` is added (underflow), but not for sums and
differences of stored numbers. -/
structure IeeeRounding (ρ η M : K) (rd : K → Ext K) : Prop where
  pos : 0 < ρ
  le_one : ρ ≤ 1
  eta : 0 ≤ η
  zero : rd 0 = fin 0
  one : rd 1 = fin 1
  neg : ∀ x, rd (-x) = -rd x
  idem : ∀ x y, rd x = fin y → rd y = fin y
  near : ∀ x, 0 ≤ x → x ≤ M → ∃ y, rd x = fin y ∧ 0 ≤ y ∧ x * ρ ≤ y + η ∧ y * ρ ≤ x + η
  add : ∀ a b, rd a = fin a → rd b = fin b → 0 ≤ a + b → a + b ≤ M →
    ∃ y, rd (a + b) = fin y ∧ 0 ≤ y ∧ (a + b) * ρ ≤ y ∧ y * ρ ≤ a + b

/-- `e` is a stored number and is `b ≥ 0` up to `k` roundings and up to `E`. -/
def IsNear (rd : K → Ext K) (ρ : K) (k : ℕ) (E : K) (e : Ext K) (b : K) : Prop :=
  0 ≤ E ∧ ∃ a, e = fin a ∧ rd a = fin a ∧ 0 ≤ a ∧ 0 ≤ b ∧ b * ρ ^ k ≤ a + E ∧ a * ρ ^ k ≤ b + E

namespace IsNear
variable {rd : K → Ext K} {ρ η M E F R H h b c : K} {k l : ℕ} {e f : Ext K}

theorem mono (hr : IeeeRounding ρ η M rd) (h : IsNear rd ρ k E e b) (hkl : k ≤ l) (hEF : E ≤ F) :
    IsNear rd ρ l F e b := by
  obtain ⟨h0, a, rfl, h1, h2, h3, h4, h5⟩ := h
  have : ρ ^ l ≤ ρ ^ k := pow_le_pow_of_le_one hr.pos.le hr.le_one hkl
  have a1 := mul_le_mul_of_nonneg_left this h3
  have a2 := mul_le_mul_of_nonneg_left this h2
  exact ⟨h0.trans hEF, a, rfl, h1, h2, h3, by linarith, by linarith⟩

theorem zero (hr : IeeeRounding ρ η M rd) (k : ℕ) (hE : 0 ≤ E) : IsNear rd ρ k E 0 0 :=
  ⟨hE, 0, rfl, hr.zero, le_rfl, le_rfl, by simpa using hE, by simpa using hE⟩

theorem one (hr : IeeeRounding ρ η M rd) : IsNear rd ρ 0 0 1 1 :=
  ⟨le_rfl, 1, rfl, hr.one, zero_le_one, zero_le_one, by simp, by simp⟩

theorem sub (hr : IeeeRounding ρ η M rd) {x y : K} (hx : rd x = fin x) (hy : rd y = fin y) (h0 : 0 ≤ x - y)
    (hM : x - y ≤ M) : IsNear rd ρ 1 0 (rnd rd (fin x - fin y)) (x - y) := by
  have hy' : rd (-y) = fin (-y) := by rw [hr.neg, hy]; rfl
  rw [sub_eq_add_neg] at h0 hM
  obtain ⟨z, h1, h2, h3, h4⟩ := hr.add x (-y) hx hy' h0 hM
  rw [← sub_eq_add_neg] at h0 h1 h3 h4
  refine ⟨le_rfl, z, h1, hr.idem _ _ h1, h2, h0, ?_, ?_⟩
  · rw [pow_one, add_zero]; exact h3
  · rw [pow_one, add_zero]; exact h4

theorem add (hr : IeeeRounding ρ η M rd) (h1 : IsNear rd ρ k E e b) (h2 : IsNear rd ρ k F f c)
    (hM : b + E + (c + F) ≤ M * ρ ^ k) : IsNear rd ρ (k + 1) (E + F) (rnd rd (e + f)) (b + c) := by
  obtain ⟨hE, x, rfl, x1, x2, x3, x4, x5⟩ := h1
  obtain ⟨hF, y, rfl, y1, y2, y3, y4, y5⟩ := h2
  have pk := pow_pos hr.pos k
  obtain ⟨z, z1, z2, z3, z4⟩ := hr.add x y x1 y1 (add_nonneg x2 y2) (by
    refine le_of_mul_le_mul_right ?_ pk
    rw [add_mul]
    linarith)
  refine ⟨add_nonneg hE hF, z, z1, hr.idem _ _ z1, z2, add_nonneg x3 y3, ?_, ?_⟩
  · have a1 : (b + c) * ρ ^ k ≤ x + y + (E + F) := by rw [add_mul]; linarith
    have a2 := mul_le_mul_of_nonneg_right a1 hr.pos.le
    have a3 := mul_le_of_le_one_right (add_nonneg hE hF) hr.le_one
    rw [pow_succ, ← mul_assoc]
    linarith
  · have a2 := mul_le_mul_of_nonneg_right z4 pk.le
    rw [pow_succ, mul_comm (ρ ^ k), ← mul_assoc]
    linarith

/-- Rounding of a product or quotient. -/
theorem rnd (hr : IeeeRounding ρ η M rd) {x : K} (hE : 0 ≤ E) (hx : 0 ≤ x) (hb : 0 ≤ b)
    (h1 : b * ρ ^ k ≤ x + E) (h2 : x * ρ ^ k ≤ b + E) (hM : x ≤ M) :
    IsNear rd ρ (k + 1) (E + η) (PySpline.rnd rd (fin x)) b := by
  have pk := pow_pos hr.pos k
  have p1 : ρ ^ k ≤ 1 := pow_le_one₀ hr.pos.le hr.le_one
  obtain ⟨z, z1, z2, z3, z4⟩ := hr.near x hx hM
  refine ⟨add_nonneg hE hr.eta, z, z1, hr.idem _ _ z1, z2, hb, ?_, ?_⟩
  · have a2 := mul_le_mul_of_nonneg_right h1 hr.pos.le
    have a3 := mul_le_of_le_one_right hE hr.le_one
    rw [pow_succ, ← mul_assoc]
    linarith
  · have a2 := mul_le_mul_of_nonneg_right z4 pk.le
    have a3 := mul_le_of_le_one_right hr.eta p1
    rw [pow_succ, mul_comm (ρ ^ k), ← mul_assoc]
    linarith

theorem div (hr : IeeeRounding ρ η M rd) (h1 : IsNear rd ρ k E e b) (h2 : IsNear rd ρ l 0 f h) (hh : 0 < h)
    (hM : b + E ≤ M * ρ ^ (k + l) * h) :
    IsNear rd ρ (k + l + 1) (E / (ρ ^ l * h) + η) (PySpline.rnd rd (e / f)) (b / h) := by
  obtain ⟨hE, x, rfl, x1, x2, x3, x4, x5⟩ := h1
  obtain ⟨-, y, rfl, y1, y2, -, y4, y5⟩ := h2
  rw [add_zero] at y4 y5
  have pk := pow_pos hr.pos k
  have pl := pow_pos hr.pos l
  have l1 : ρ ^ l ≤ 1 := pow_le_one₀ hr.pos.le hr.le_one
  have hy : 0 < y := (mul_pos hh pl).trans_le y4
  have e1 : (fin x / fin y : Ext K) = fin (x / y) := fin_div x hy.ne'
  rw [e1]
  have hE1 : E / y ≤ E / (ρ ^ l * h) := div_le_div_of_nonneg_left hE (mul_pos pl hh) (by linarith)
  have hE2 : E / h ≤ E / (ρ ^ l * h) :=
    div_le_div_of_nonneg_left hE (mul_pos pl hh) (mul_le_of_le_one_left hh.le l1)
  refine IsNear.rnd hr (div_nonneg hE (mul_pos pl hh).le) (div_nonneg x2 hy.le) (div_nonneg x3 hh.le) ?_ ?_ ?_
  · refine le_trans ?_ (add_le_add_right hE1 _)
    rw [← add_div, le_div_iff₀ hy, div_mul_eq_mul_div, div_mul_eq_mul_div, div_le_iff₀ hh]
    calc b * ρ ^ (k + l) * y = (b * ρ ^ k) * (y * ρ ^ l) := by rw [pow_add]; ring
      _ ≤ (x + E) * h := mul_le_mul x4 y5 (mul_nonneg hy.le pl.le) (add_nonneg x2 hE)
  · refine le_trans ?_ (add_le_add_right hE2 _)
    rw [← add_div, le_div_iff₀ hh, div_mul_eq_mul_div, div_mul_eq_mul_div, div_le_iff₀ hy]
    calc x * ρ ^ (k + l) * h = (x * ρ ^ k) * (h * ρ ^ l) := by rw [pow_add]; ring
      _ ≤ (b + E) * y := mul_le_mul x5 y4 (mul_nonneg hh.le pl.le) (add_nonneg x3 hE)
  · rw [div_le_iff₀ hy]
    have hM0 : 0 ≤ M := by
      by_contra hc
      push Not at hc
      have : M * ρ ^ (k + l) * h < 0 := mul_neg_of_neg_of_pos
        (mul_neg_of_neg_of_pos hc (pow_pos hr.pos _)) hh
      linarith
    have : M * ρ ^ (k + l) * h ≤ M * y * ρ ^ k := by
      rw [pow_add, show M * (ρ ^ k * ρ ^ l) * h = M * (h * ρ ^ l) * ρ ^ k by ring]
      exact mul_le_mul_of_nonneg_right (mul_le_mul_of_nonneg_left y4 hM0) pk.le
    exact le_of_mul_le_mul_right (by linarith) pk

theorem mul (hr : IeeeRounding ρ η M rd) (h1 : IsNear rd ρ l 0 f R) (h2 : IsNear rd ρ k E e b) (hR : R ≤ H)
    (hM : R * (b + E) ≤ M * ρ ^ (l + k)) :
    IsNear rd ρ (l + k + 1) (H / ρ ^ l * E + η) (PySpline.rnd rd (f * e)) (R * b) := by
  obtain ⟨-, y, rfl, y1, y2, y3, y4, y5⟩ := h1
  obtain ⟨hE, x, rfl, x1, x2, x3, x4, x5⟩ := h2
  rw [add_zero] at y4 y5
  have pk := pow_pos hr.pos k
  have pl := pow_pos hr.pos l
  have l1 : ρ ^ l ≤ 1 := pow_le_one₀ hr.pos.le hr.le_one
  have yH : y ≤ H / ρ ^ l := by rw [le_div_iff₀ pl]; linarith
  have RH : R ≤ H / ρ ^ l := by
    rw [le_div_iff₀ pl]
    linarith [mul_le_of_le_one_right y3 l1]
  show IsNear rd ρ (l + k + 1) (H / ρ ^ l * E + η) (PySpline.rnd rd (fin (y * x))) (R * b)
  refine IsNear.rnd hr (mul_nonneg (y2.trans yH) hE) (mul_nonneg y2 x2) (mul_nonneg y3 x3) ?_ ?_ ?_
  · calc R * b * ρ ^ (l + k) = (R * ρ ^ l) * (b * ρ ^ k) := by rw [pow_add]; ring
      _ ≤ y * (x + E) := mul_le_mul y4 x4 (mul_nonneg x3 pk.le) y2
      _ = y * x + y * E := by ring
      _ ≤ _ := by linarith [mul_le_mul_of_nonneg_right yH hE]
  · calc y * x * ρ ^ (l + k) = (y * ρ ^ l) * (x * ρ ^ k) := by rw [pow_add]; ring
      _ ≤ R * (b + E) := mul_le_mul y5 x5 (mul_nonneg x2 pk.le) y3
      _ = R * b + R * E := by ring
      _ ≤ _ := by linarith [mul_le_mul_of_nonneg_right RH hE]
  · refine le_of_mul_le_mul_right ?_ (pow_pos hr.pos (l + k))
    calc y * x * ρ ^ (l + k) = (y * ρ ^ l) * (x * ρ ^ k) := by rw [pow_add]; ring
      _ ≤ R * (b + E) := mul_le_mul y5 x5 (mul_nonneg x2 pk.le) y3
      _ ≤ _ := hM

/-- The absolute error. -/
theorem abs_sub_le (hr : IeeeRounding ρ η M rd) (h : IsNear rd ρ k E e b) :
    ∃ a, e = fin a ∧ rd a = fin a ∧ 0 ≤ a ∧ |a - b| ≤ ((1 / ρ) ^ k - 1) * b + (1 / ρ) ^ k * E := by
  obtain ⟨hE, a, he, h1, h2, h3, h4, h5⟩ := h
  refine ⟨a, he, h1, h2, ?_⟩
  have pk := pow_pos hr.pos k
  have e : (1 / ρ) ^ k = 1 / ρ ^ k := one_div_pow ρ k
  have hle : ρ ^ k ≤ 1 := pow_le_one₀ hr.pos.le hr.le_one
  have h6 : a ≤ 1 / ρ ^ k * (b + E) := by
    rw [div_mul_eq_mul_div, one_mul, le_div_iff₀ pk]
    exact h5
  have h7 : 2 * b ≤ (1 / ρ ^ k) * b + ρ ^ k * b := by
    rw [← add_mul]
    refine mul_le_mul_of_nonneg_right ?_ h3
    rw [← sub_nonneg]
    have : 1 / ρ ^ k + ρ ^ k - 2 = (1 - ρ ^ k) ^ 2 / ρ ^ k := by field_simp; ring
    rw [this]
    positivity
  have h8 : E ≤ 1 / ρ ^ k * E := by
    rw [div_mul_eq_mul_div, one_mul, le_div_iff₀ pk]
    exact mul_le_of_le_one_right hE hle
  rw [e, abs_le, sub_mul, one_mul]
  constructor <;> linarith [mul_comm b (ρ ^ k)]

/-- One pass of the inner loop of `basis_functions`. -/
theorem step (hr : IeeeRounding ρ η M rd) {nr rr lf : Ext K} {L : K} (h1 : IsNear rd ρ k E nr b)
    (h2 : IsNear rd ρ 1 0 rr R) (h3 : IsNear rd ρ 1 0 lf L) (hh : 0 < h) (hRL : R + L = h) (hH : h ≤ H)
    (hb : b ≤ 1) (hE : E ≤ 1) (hη : h * η ≤ 1) (hM : 8 ≤ M) (hMh : 8 ≤ M * h) (hMH : 2 * H ≤ M)
    (hρ : 1 ≤ 2 * ρ ^ (k + 6)) :
    IsNear rd ρ (k + 5) (2 * E + (2 * H + 1) * η)
        (PySpline.rnd rd (rr * PySpline.rnd rd (nr / PySpline.rnd rd (rr + lf)))) (R * (b / h)) ∧
      IsNear rd ρ (k + 5) (2 * E + (2 * H + 1) * η)
        (PySpline.rnd rd (lf * PySpline.rnd rd (nr / PySpline.rnd rd (rr + lf)))) (L * (b / h)) := by
  have p0 := hr.pos
  have pw : ∀ m, m ≤ k + 6 → 1 ≤ 2 * ρ ^ m := fun m hm =>
    hρ.trans (mul_le_mul_of_nonneg_left (pow_le_pow_of_le_one p0.le hr.le_one hm) zero_le_two)
  have hE0 : 0 ≤ E := h1.1
  have hη0 := hr.eta
  have hM0 : 0 ≤ M := by linarith
  have pM : ∀ m, m ≤ k + 6 → M ≤ 2 * (M * ρ ^ m) := fun m hm => by
    have := mul_le_mul_of_nonneg_left (pw m hm) hM0
    linarith
  have n4 := h2.add hr h3 (by have := pM 1 (by omega); linarith)
  rw [hRL, add_zero] at n4
  have n5 := h1.div hr n4 hh (by
    have := mul_le_mul_of_nonneg_right (pM (k + 2) (by omega)) hh.le
    linarith)
  have e2 : E / ρ ^ 2 ≤ 2 * E := by
    rw [div_le_iff₀ (pow_pos p0 2)]
    have := mul_le_mul_of_nonneg_left (pw 2 (by omega)) hE0
    linarith
  have e3 : E / ρ ^ 3 ≤ 2 * E := by
    rw [div_le_iff₀ (pow_pos p0 3)]
    have := mul_le_mul_of_nonneg_left (pw 3 (by omega)) hE0
    linarith
  have key : ∀ {Q : K} {q : Ext K}, IsNear rd ρ 1 0 q Q → Q ≤ h →
      IsNear rd ρ (k + 5) (2 * E + (2 * H + 1) * η)
        (PySpline.rnd rd (q * PySpline.rnd rd (nr / PySpline.rnd rd (rr + lf)))) (Q * (b / h)) := by
    intro Q q hq hQ
    have hQ0 : 0 ≤ Q := by
      obtain ⟨-, _, _, _, _, h, _⟩ := hq
      exact h
    have hb0 : 0 ≤ b := by
      obtain ⟨-, _, _, _, _, h, _⟩ := h1
      exact h
    have n6 := hq.mul hr n5 hQ (by
      have : Q * (b / h + (E / (ρ ^ (1 + 1) * h) + η)) ≤ h * (b / h + (E / (ρ ^ (1 + 1) * h) + η)) := by
        refine mul_le_mul_of_nonneg_right hQ ?_
        have := pow_pos p0 (1 + 1)
        positivity
      have e : h * (b / h + (E / (ρ ^ (1 + 1) * h) + η)) = b + E / ρ ^ 2 + h * η := by
        have := pow_pos p0 2
        field_simp
        ring
      have := pM (1 + (k + (1 + 1) + 1)) (by omega)
      linarith)
    refine n6.mono hr (by omega) ?_
    have e : h / ρ ^ 1 * (E / (ρ ^ (1 + 1) * h) + η) + η = E / ρ ^ 3 + (h / ρ) * η + η := by
      field_simp
      ring
    rw [e]
    have : h / ρ ≤ 2 * H := by
      rw [div_le_iff₀ p0]
      have := mul_le_mul_of_nonneg_left (pw 1 (by omega)) hh.le
      have := mul_le_mul_of_nonneg_right hH p0.le
      rw [pow_one] at *
      linarith
    have := mul_le_mul_of_nonneg_right this hη0
    linarith
  have hR0 : 0 ≤ R := by
    obtain ⟨-, _, _, _, _, h, _⟩ := h2
    exact h
  have hL0 : 0 ≤ L := by
    obtain ⟨-, _, _, _, _, h, _⟩ := h3
    exact h
  exact ⟨key h2 (by linarith), key h3 (by linarith)⟩

end IsNear

theorem piece_le_one {V : ℕ → K} (hV : Monotone V) {k : ℕ} {u : K} (hs : V k < V (k + 1)) (h1 : V k ≤ u)
    (h2 : u ≤ V (k + 1)) {p : ℕ} (hp : p ≤ k) {r : ℕ} (hr : r ≤ p) : (piece V k p (k - p + r)).eval u ≤ 1 := by
  have h := congrArg (eval u) (sum_pieces_range hV hp hs)
  rw [eval_finsetSum, eval_one] at h
  rw [← h]
  exact Finset.single_le_sum (f := fun r => (piece V k p (k - p + r)).eval u)
    (fun i _ => piece_nonneg hV h1 h2 _ _) (Finset.mem_range.2 (by omega))

/-- `basis_functions` in IEEE arithmetic. -/
theorem basisFunctionsR_near {ρ η M H : K} {rd : K → Ext K} (hr : IeeeRounding ρ η M rd) {U : List K}
    (hU : Monotone (knotFn U)) {k p : ℕ} {u : K}
    (hp : p ≤ k) (hk : k + p < U.length) (hs : knotFn U k < knotFn U (k + 1))
    (h1 : knotFn U k ≤ u) (h2 : u ≤ knotFn U (k + 1))
    (hrep : ∀ x ∈ U, rd x = fin x) (hu : rd u = fin u)
    (hH : knotFn U (k + p) - knotFn U (k + 1 - p) ≤ H) (hE : 4 ^ p * (2 * H + 1) * η ≤ 1)
    (hM : 8 ≤ M) (hMh : 8 ≤ M * (knotFn U (k + 1) - knotFn U k)) (hMH : 2 * H ≤ M)
    (hρ : 1 ≤ 2 * ρ ^ (6 * p)) :
    Returns (basisFunctionsR rd (k : ℤ) (fin u) p (lift1 U)) fun N =>
      N.length = p + 1 ∧ ∀ r ≤ p, IsNear rd ρ (6 * p) ((4 ^ p - 1) * ((2 * H + 1) * η)) (N.getD r 0)
        ((piece (knotFn U) k p (k - p + r)).eval u) := by
  have p0 := hr.pos
  have p1 := hr.le_one
  have hη := hr.eta
  set V := knotFn U with hV
  have hH0 : 1 ≤ p → V (k + 1) - V k ≤ H := fun h => by
    have a : V (k + 1) ≤ V (k + p) := hU (by omega)
    have b : V (k + 1 - p) ≤ V k := hU (by omega)
    linarith
  set c := (2 * H + 1) * η with hc
  -- the bound after round `j`
  have hEj : ∀ j, 1 ≤ p → j ≤ p → 0 ≤ (4 ^ j - 1) * c ∧ (4 ^ j - 1) * c ≤ 1 := by
    intro j hp1 hj
    have := hH0 hp1
    have hc0 : 0 ≤ c := mul_nonneg (by linarith) hη
    have a1 : (1 : K) ≤ 4 ^ j := one_le_pow₀ (by norm_num)
    have a2 : (4 : K) ^ j ≤ 4 ^ p := pow_le_pow_right₀ (by norm_num) hj
    have a3 := mul_le_mul_of_nonneg_right a2 hc0
    rw [mul_assoc, ← hc] at hE
    exact ⟨mul_nonneg (by linarith) hc0, by linarith⟩
  unfold basisFunctionsR
  refine Returns.bind (P := fun st => st.1.length = p + 1 ∧
    ∀ r ≤ p, IsNear rd ρ (6 * p) ((4 ^ p - 1) * c) (st.1.getD r 0) ((piece V k p (k - p + r)).eval u)) ?_ ?_
  swap
  · rintro ⟨N, left, right⟩ h
    exact Returns.ok h
  have key := Returns.forN (a := 1) (b := p + 1)
    (s := ((List.replicate (p + 1) 1 : List (Ext K)), List.replicate (p + 1) 0, List.replicate (p + 1) 0))
    (f := fun j (N, left, right) => do
      let a ← pyGet (lift1 U) ((k : ℤ) + 1 - j)
      let left ← pySet left j (rnd rd (fin u - a))
      let b ← pyGet (lift1 U) ((k : ℤ) + j)
      let right ← pySet right j (rnd rd (b - fin u))
      let (N, saved) ← forN 0 j (N, (0 : Ext K)) fun r (N, saved) => do
        let nr ← pyGet N r
        let rr ← pyGet right ((r : ℤ) + 1)
        let lf ← pyGet left ((j : ℤ) - r)
        let temp := rnd rd (nr / rnd rd (rr + lf))
        let N ← pySet N r (rnd rd (saved + rnd rd (rr * temp)))
        .ok (N, rnd rd (lf * temp))
      let N ← pySet N j saved
      .ok (N, left, right))
    (fun j st => st.1.length = p + 1 ∧ st.2.1.length = p + 1 ∧ st.2.2.length = p + 1 ∧
      (∀ r < j, IsNear rd ρ (6 * (j - 1)) ((4 ^ (j - 1) - 1) * c) (st.1.getD r 0)
        ((piece V k (j - 1) (k + 1 - j + r)).eval u)) ∧
      (∀ q, 1 ≤ q → q < j → IsNear rd ρ 1 0 (st.2.1.getD q 0) (u - V (k + 1 - q)) ∧
        IsNear rd ρ 1 0 (st.2.2.getD q 0) (V (k + q) - u)))
    (by omega) ?_ ?_
  · refine key.mono ?_
    rintro ⟨N, left, right⟩ ⟨h1, -, -, h4, -⟩
    refine ⟨h1, fun r hr => ?_⟩
    have := h4 r (by omega)
    simpa [show k + 1 - (p + 1) = k - p by omega] using this
  · refine ⟨by simp, by simp, by simp, ?_, ?_⟩
    · intro r hr'
      have : r = 0 := by omega
      subst this
      simpa [piece] using IsNear.one hr
    · intro q h1 h2; omega
  · rintro j ⟨N, left, right⟩ hj1 hj2 ⟨hN, hl, hrl, hb, hlr⟩
    simp only at hN hl hrl hb hlr ⊢
    have hgetU : ∀ (i : ℤ) (m : ℕ), i = (m : ℤ) → m < U.length → pyGet (lift1 U) i = .ok (fin (V m)) := by
      intro i m hi hm
      rw [pyGet_nat (lift1 U) i m 0 hi (by simpa using hm)]
      congr 1
      rw [List.getD_eq_getElem?_getD, List.getElem?_map, List.getElem?_eq_getElem hm, hV, knotFn_eq hm]
      rfl
    rw [hgetU _ (k + 1 - j) (by omega) (by omega), ok_bind,
      pySet_nat left _ j _ rfl (by omega), ok_bind,
      hgetU _ (k + j) (by omega) (by omega), ok_bind,
      pySet_nat right _ j _ rfl (by omega), ok_bind]
    have hrepV : ∀ m, m < U.length → rd (V m) = fin (V m) := fun m hm =>
      hrep _ (by rw [hV, knotFn_eq hm]; exact List.getElem_mem _)
    set left' := left.set j (rnd rd (fin u - fin (V (k + 1 - j)))) with hleft'
    set right' := right.set j (rnd rd (fin (V (k + j)) - fin u)) with hright'
    have hl' : left'.length = p + 1 := by simp [hleft', hl]
    have hr' : right'.length = p + 1 := by simp [hright', hrl]
    have hHM : H ≤ M := by
      have := hH0 (by omega)
      linarith
    have hlr' : ∀ q, 1 ≤ q → q < j + 1 → IsNear rd ρ 1 0 (left'.getD q 0) (u - V (k + 1 - q)) ∧
        IsNear rd ρ 1 0 (right'.getD q 0) (V (k + q) - u) := by
      intro q q1 q2
      rw [hleft', hright', getD_set _ _ _ _ _ (by omega), getD_set _ _ _ _ _ (by omega)]
      by_cases hq : q = j
      · subst hq
        have a1 : V (k + 1 - q) ≤ V k := hU (by omega)
        have a2 : V (k + 1) ≤ V (k + q) := hU (by omega)
        have a3 : V (k + q) ≤ V (k + p) := hU (by omega)
        have a4 : V (k + 1 - p) ≤ V (k + 1 - q) := hU (by omega)
        rw [if_pos rfl, if_pos rfl]
        exact ⟨IsNear.sub hr hu (hrepV _ (by omega)) (by linarith) (by linarith),
          IsNear.sub hr (hrepV _ (by omega)) hu (by linarith) (by linarith)⟩
      · simp only [if_neg hq]; exact hlr q q1 (by omega)
    have hSj : 2 * ((4 ^ (j - 1) - 1) * c) + (2 * H + 1) * η ≤ (4 ^ j - 1) * c / 2 := by
      have := hH0 (by omega)
      have hc0 : 0 ≤ c := mul_nonneg (by linarith) hη
      obtain ⟨m, rfl⟩ : ∃ m, j = m + 1 := ⟨j - 1, by omega⟩
      rw [Nat.add_sub_cancel, pow_succ, ← hc]
      linarith
    have hEb := hEj j (by omega) (by omega)
    refine Returns.bind (P := fun st => st.1.length = p + 1 ∧
      (∀ r < j, IsNear rd ρ (6 * j) ((4 ^ j - 1) * c) (st.1.getD r 0) ((piece V k j (k - j + r)).eval u)) ∧
      IsNear rd ρ (6 * j) ((4 ^ j - 1) * c) st.2 ((piece V k j k).eval u)) ?_ ?_
    · have inner := Returns.forN (a := 0) (b := j) (s := (N, (0 : Ext K)))
        (f := fun r (N, saved) => do
          let nr ← pyGet N r
          let rr ← pyGet right' ((r : ℤ) + 1)
          let lf ← pyGet left' ((j : ℤ) - r)
          let temp := rnd rd (nr / rnd rd (rr + lf))
          let N ← pySet N r (rnd rd (saved + rnd rd (rr * temp)))
          .ok (N, rnd rd (lf * temp)))
        (fun r st => st.1.length = p + 1 ∧
          (∀ q < r, IsNear rd ρ (6 * j) ((4 ^ j - 1) * c) (st.1.getD q 0) ((piece V k j (k - j + q)).eval u)) ∧
          (∀ q, r ≤ q → q < j → IsNear rd ρ (6 * (j - 1)) ((4 ^ (j - 1) - 1) * c) (st.1.getD q 0)
            ((piece V k (j - 1) (k + 1 - j + q)).eval u)) ∧
          IsNear rd ρ (6 * (j - 1) + 5) ((4 ^ j - 1) * c / 2) st.2
            (w V (j - 1) (k - j + r) * (u - V (k - j + r)) * (piece V k (j - 1) (k - j + r)).eval u) ∧
          w V (j - 1) (k - j + r) * (u - V (k - j + r)) * (piece V k (j - 1) (k - j + r)).eval u ≤ 1)
        (by omega) ?_ ?_
      · refine inner.mono ?_
        rintro ⟨N, saved⟩ ⟨h1, h2, -, h4, -⟩
        refine ⟨h1, h2, ?_⟩
        simp only at h4 ⊢
        obtain ⟨m, rfl⟩ : ∃ m, j = m + 1 := ⟨j - 1, by omega⟩
        have e : k - (m + 1) + (m + 1) = k := by omega
        rw [e] at h4
        rw [piece_succ, piece_eq_zero_of_lt V k m (k + 1) (by omega)]
        have := h4.mono hr (l := 6 * (m + 1)) (F := (4 ^ (m + 1) - 1) * c) (by omega) (by linarith [hEb.1])
        simpa [eval_mul, eval_sub] using this
      · refine ⟨hN, by intro q hq; omega, fun q _ hq => hb q hq, ?_, ?_⟩
        · rw [piece_eq_zero_of_gt V k (j - 1) (k - j + 0) (by omega)]
          simpa using IsNear.zero hr (6 * (j - 1) + 5) (show 0 ≤ (4 ^ j - 1) * c / 2 by linarith [hEb.1])
        · rw [piece_eq_zero_of_gt V k (j - 1) (k - j + 0) (by omega)]
          simp
      · rintro r ⟨N, saved⟩ - hrj ⟨i1, i2, i3, i4, i5⟩
        simp only at i1 i2 i3 i4 i5 ⊢
        rw [pyGet_nat N _ r 0 rfl (by omega), ok_bind,
          pyGet_nat right' _ (r + 1) 0 (by push_cast; rfl) (by omega), ok_bind,
          pyGet_nat left' _ (j - r) 0 (by omega) (by omega), ok_bind]
        have n1 := i3 r le_rfl hrj
        have n2 := (hlr' (r + 1) (by omega) (by omega)).2
        have n3 := (hlr' (j - r) (by omega) (by omega)).1
        have nb := piece_le_one hU hs h1 h2 (p := j - 1) (r := r) (by omega) (by omega)
        have nb0 := piece_nonneg hU h1 h2 (j - 1) (k - j + r + 1)
        have e1 : k + 1 - j + r = k - j + r + 1 := by omega
        have e2 : k + 1 - (j - r) = k - j + r + 1 := by omega
        have e3 : k + (r + 1) = k - j + r + 1 + (j - 1) + 1 := by omega
        have e0 : k - (j - 1) + r = k - j + r + 1 := by omega
        rw [e0] at nb
        rw [e1] at n1
        rw [e3] at n2
        rw [e2] at n3
        have l1 : V (k - j + r + 1) ≤ V k := hU (by omega)
        have l2 : V (k + 1) ≤ V (k - j + r + 1 + (j - 1) + 1) := hU (by omega)
        have l3 : V (k - j + r + 1 + (j - 1) + 1) ≤ V (k + p) := hU (by omega)
        have l4 : V (k + 1 - p) ≤ V (k - j + r + 1) := hU (by omega)
        set h := V (k - j + r + 1 + (j - 1) + 1) - V (k - j + r + 1) with hh
        have hpos : 0 < h := by linarith
        have hη1 : h * η ≤ 1 := by
          have q1 : h * η ≤ H * η := mul_le_mul_of_nonneg_right (by linarith) hη
          have q2 := (hEj 1 (by omega) (by omega)).2
          rw [hc] at q2
          have q3 : 0 ≤ H * η := mul_nonneg (by have := hH0 (by omega); linarith) hη
          linarith
        have hst := n1.step hr n2 n3 hpos (by rw [hh]; ring) (show h ≤ H by linarith) nb
          (hEj (j - 1) (by omega) (by omega)).2 hη1 hM
          (hMh.trans (mul_le_mul_of_nonneg_left (by linarith) (by linarith))) hMH
          (hρ.trans (mul_le_mul_of_nonneg_left (pow_le_pow_of_le_one p0.le p1 (by omega)) zero_le_two))
        generalize N.getD r 0 = nr at *
        generalize right'.getD (r + 1) 0 = rr at *
        generalize left'.getD (j - r) 0 = lf at *
        rw [pySet_nat N _ r _ rfl (by omega), ok_bind]
        obtain ⟨n6, n7⟩ := hst
        have n6 := n6.mono hr (l := 6 * (j - 1) + 5) (by omega) hSj
        have n7 := n7.mono hr (l := 6 * (j - 1) + 5) (by omega) hSj
        have bR : (V (k - j + r + 1 + (j - 1) + 1) - u) *
            ((piece V k (j - 1) (k - j + r + 1)).eval u / h) ≤ 1 := by
          rw [mul_div_assoc', div_le_one hpos]
          exact (mul_le_mul (by linarith : _ ≤ h) nb nb0 hpos.le).trans (mul_one _).le
        have bL : (u - V (k - j + r + 1)) * ((piece V k (j - 1) (k - j + r + 1)).eval u / h) ≤ 1 := by
          rw [mul_div_assoc', div_le_one hpos]
          exact (mul_le_mul (by linarith : _ ≤ h) nb nb0 hpos.le).trans (mul_one _).le
        have eL : (u - V (k - j + r + 1)) * ((piece V k (j - 1) (k - j + r + 1)).eval u / h)
            = w V (j - 1) (k - j + (r + 1)) * (u - V (k - j + (r + 1)))
              * (piece V k (j - 1) (k - j + (r + 1))).eval u := by
          rw [← add_assoc (k - j) r 1]
          unfold w
          rw [hh]
          ring
        refine Returns.ok ⟨by simp [i1], ?_, ?_, ?_, ?_⟩
        · intro q hq
          rw [getD_set _ _ _ _ _ (by omega)]
          by_cases hqr : q = r
          · subst hqr
            rw [if_pos rfl]
            have n8 := i4.add hr n6 (by
              have : 1 ≤ 2 * ρ ^ (6 * (j - 1) + 5) :=
                hρ.trans (mul_le_mul_of_nonneg_left (pow_le_pow_of_le_one p0.le p1 (by omega)) zero_le_two)
              have := mul_le_mul_of_nonneg_left this (show 0 ≤ M by linarith)
              linarith [hEb.2])
            have n9 := n8.mono hr (l := 6 * j) (F := (4 ^ j - 1) * c) (by omega) (by linarith)
            refine (congrArg (IsNear rd ρ (6 * j) _ _) ?_).mp n9
            obtain ⟨m, rfl⟩ : ∃ m, j = m + 1 := ⟨j - 1, by omega⟩
            rw [piece_succ, hh]
            simp only [eval_add, eval_mul, eval_C, eval_sub, eval_X, w, Nat.add_sub_cancel]
            have e4 : k - (m + 1) + q + m + 2 = k - (m + 1) + q + 1 + m + 1 := by omega
            rw [e4]
            congr 1
            ring
          · rw [if_neg hqr]; exact i2 q (by omega)
        · intro q hq1 hq2
          rw [getD_set _ _ _ _ _ (by omega), if_neg (by omega)]
          exact i3 q (by omega) hq2
        · rw [← eL]; exact n7
        · rw [← eL]; exact bL
    · rintro ⟨N, saved⟩ ⟨h1, h2, h3⟩
      simp only at h1 h2 h3 ⊢
      rw [pySet_nat N _ j _ rfl (by omega), ok_bind]
      refine Returns.ok ⟨by simp [h1], hl', hr', ?_, hlr'⟩
      intro r hr
      show IsNear rd ρ (6 * (j + 1 - 1)) ((4 ^ (j + 1 - 1) - 1) * c) ((N.set j saved).getD r 0) _
      rw [getD_set _ _ _ _ _ (by omega)]
      have e : k + 1 - (j + 1) + r = k - j + r := by omega
      rw [e, Nat.add_sub_cancel]
      by_cases hrj : r = j
      · subst hrj; rw [if_pos rfl, show k - r + r = k by omega]; exact h3
      · rw [if_neg hrj]; exact h2 r (by omega)

end

end PySpline
