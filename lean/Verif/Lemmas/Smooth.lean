import Verif.Lemmas.KnotValues
import Mathlib.Analysis.Calculus.Deriv.Polynomial
import Mathlib.Analysis.Calculus.ContDiff.Deriv
import Mathlib.Analysis.Calculus.ContDiff.Operations
import Mathlib.Analysis.Calculus.ContDiff.Polynomial
import Mathlib.Analysis.Calculus.IteratedDeriv.Lemmas

/-!
# B-spline basis functions as real functions
-/

namespace PySpline

open Polynomial Spec Set Filter Topology

section
variable {V : ℕ → ℝ}

theorem N_eventuallyEq_right (hV : Monotone V) {k : ℕ} {u : ℝ} (h1 : V k ≤ u) (h2 : u < V (k + 1))
    (p i : ℕ) : N V p i =ᶠ[𝓝[≥] u] fun t => (piece V k p i).eval t := by
  have : Ico u (V (k + 1)) ∈ 𝓝[≥] u := Ico_mem_nhdsGE h2
  filter_upwards [this] with t ht
  exact N_eq_piece hV (h1.trans ht.1) ht.2 p i

theorem N_eventuallyEq_left (hV : Monotone V) {k : ℕ} {u : ℝ} (h1 : V k < u) (h2 : u ≤ V (k + 1))
    (p i : ℕ) : N V p i =ᶠ[𝓝[<] u] fun t => (piece V k p i).eval t := by
  have : Ioo (V k) u ∈ 𝓝[<] u := Ioo_mem_nhdsLT h1
  filter_upwards [this] with t ht
  exact N_eq_piece hV ht.1.le (ht.2.trans_le h2) p i

theorem N_eventuallyEq (hV : Monotone V) {k : ℕ} {u : ℝ} (h1 : V k < u) (h2 : u < V (k + 1))
    (p i : ℕ) : N V p i =ᶠ[𝓝 u] fun t => (piece V k p i).eval t := by
  filter_upwards [Ioo_mem_nhds h1 h2] with t ht
  exact N_eq_piece hV ht.1.le ht.2 p i

/-- The knots around a parameter: `m` of them are equal to it. -/
structure Around (V : ℕ → ℝ) (u : ℝ) (k m : ℕ) : Prop where
  lt : V k < u
  eq : ∀ j < m, V (k + 1 + j) = u
  gt : u < V (k + m + 1)

theorem Around.le (h : Around V u k m) : V (k + m) ≤ u := by
  rcases Nat.eq_zero_or_pos m with rfl | hm
  · exact h.lt.le
  · have := h.eq (m - 1) (by omega)
    rw [show k + 1 + (m - 1) = k + m by omega] at this
    exact this.le

theorem Around.ge (h : Around V u k m) : u ≤ V (k + 1) := by
  rcases Nat.eq_zero_or_pos m with rfl | hm
  · exact h.gt.le
  · exact (h.eq 0 hm).ge

theorem Around.N_eq (hV : Monotone V) {u : ℝ} {k m : ℕ} (h : Around V u k m) (p i : ℕ) :
    N V p i u = (piece V (k + m) p i).eval u := N_eq_piece hV h.le h.gt p i

theorem Around.N_eq_left (hV : Monotone V) {u : ℝ} {k m p : ℕ} (h : Around V u k m) (hmp : m ≤ p) (i : ℕ) :
    N V p i u = (piece V k p i).eval u := by
  rw [h.N_eq hV, piece_continuous h.lt h.eq h.gt hmp]

theorem Around.eventuallyEq_left (hV : Monotone V) {u : ℝ} {k m p : ℕ} (h : Around V u k m) (hmp : m ≤ p)
    (i : ℕ) : N V p i =ᶠ[𝓝[≤] u] fun t => (piece V k p i).eval t := by
  rw [← Iio_insert, nhdsWithin_insert, EventuallyEq, eventually_sup]
  exact ⟨(eventually_pure).2 (h.N_eq_left hV hmp i), N_eventuallyEq_left hV h.lt h.ge p i⟩

/-- A basis function is continuous at a knot of multiplicity at most its degree. -/
theorem Around.continuousAt (hV : Monotone V) {u : ℝ} {k m p : ℕ} (h : Around V u k m) (hmp : m ≤ p)
    (i : ℕ) : ContinuousAt (N V p i) u := by
  rw [continuousAt_iff_continuous_left_right]
  constructor
  · exact ((piece V k p i).differentiable.continuous.continuousWithinAt).congr_of_eventuallyEq
      (h.eventuallyEq_left hV hmp i) (h.N_eq_left hV hmp i)
  · exact ((piece V (k + m) p i).differentiable.continuous.continuousWithinAt).congr_of_eventuallyEq
      (N_eventuallyEq_right hV h.le h.gt p i) (h.N_eq hV p i)

/-- The derivative of a basis function of degree `p + 1` at a knot of multiplicity at most `p`, or
between knots. -/
theorem Around.hasDerivAt (hV : Monotone V) {u : ℝ} {k m p : ℕ} (h : Around V u k m) (hmp : m ≤ p) (i : ℕ) :
    HasDerivAt (N V (p + 1) i) (((p : ℝ) + 1) * (w V p i * N V p i u - w V p (i + 1) * N V p (i + 1) u)) u := by
  rw [← hasDerivWithinAt_univ, ← Iic_union_Ici (a := u)]
  refine HasDerivWithinAt.union ?_ ?_
  · have hd := ((piece V k (p + 1) i).hasDerivAt u).hasDerivWithinAt (s := Iic u)
    rw [derivative_piece hV] at hd
    simp only [eval_mul, eval_C, eval_sub] at hd
    rw [h.N_eq_left hV hmp i, h.N_eq_left hV hmp (i + 1)]
    exact hd.congr_of_eventuallyEq (h.eventuallyEq_left hV (by omega) i) (h.N_eq_left hV (by omega) i)
  · have hd := ((piece V (k + m) (p + 1) i).hasDerivAt u).hasDerivWithinAt (s := Ici u)
    rw [derivative_piece hV] at hd
    simp only [eval_mul, eval_C, eval_sub] at hd
    rw [h.N_eq hV p i, h.N_eq hV p (i + 1)]
    exact hd.congr_of_eventuallyEq (N_eventuallyEq_right hV h.le h.gt (p + 1) i) (h.N_eq hV (p + 1) i)

/-- Every parameter strictly between two knots has knots around it. -/
theorem exists_around (hV : Monotone V) {u : ℝ} {n : ℕ} (h0 : V 0 < u) (h1 : u < V n) :
    ∃ k m, k + m < n ∧ Around V u k m := by
  classical
  obtain ⟨K, -, hK, a, b⟩ := exists_span h0.le h1 (Nat.zero_le n)
  -- the last knot below `u`
  obtain ⟨k, hk, c, d⟩ : ∃ k < n, V k < u ∧ u ≤ V (k + 1) := by
    clear K hK a b
    induction n with
    | zero => exact absurd (h0.trans h1) (lt_irrefl _)
    | succ n ih =>
      rcases lt_or_ge (V n) u with h | h
      · exact ⟨n, by omega, h, h1.le⟩
      · rcases h.eq_or_lt with h | h
        · clear ih
          -- `u = V n`
          have key : ∀ n, u ≤ V n → ∃ k < n + 1, V k < u ∧ u ≤ V (k + 1) := by
            intro n
            induction n with
            | zero => intro h; exact absurd (h0.trans_le h) (lt_irrefl _)
            | succ n ih =>
              intro h
              rcases lt_or_ge (V n) u with h' | h'
              · exact ⟨n, by omega, h', h⟩
              · obtain ⟨k, hk, r⟩ := ih h'
                exact ⟨k, by omega, r⟩
          exact key n h.le
        · obtain ⟨k, hk, r⟩ := ih h
          exact ⟨k, by omega, r⟩
  have hkK : k ≤ K := by
    by_contra hc
    have : V (K + 1) ≤ V k := hV (by omega)
    linarith
  refine ⟨k, K - k, by omega, c, fun j hj => le_antisymm ?_ ?_, by rwa [show k + (K - k) + 1 = K + 1 by omega]⟩
  · exact (hV (by omega : k + 1 + j ≤ K)).trans a
  · exact d.trans (hV (by omega))

/-- No knot of `(a, b)` has multiplicity above `m`. -/
def MultAtMost (V : ℕ → ℝ) (a b : ℝ) (m : ℕ) : Prop := ∀ i, a < V i → V i < b → V i < V (i + m)

theorem MultAtMost.around {a b : ℝ} {m : ℕ} (hm : MultAtMost V a b m) (hV : Monotone V) {n : ℕ}
    (h0 : V 0 ≤ a) (h1 : b ≤ V n) {u : ℝ} (hu : u ∈ Ioo a b) :
    ∃ k m', k + m' < n ∧ m' ≤ m ∧ Around V u k m' := by
  obtain ⟨k, m', h, ha⟩ := exists_around hV (h0.trans_lt hu.1) (hu.2.trans_le h1)
  refine ⟨k, m', h, ?_, ha⟩
  by_contra hc
  have e1 : V (k + 1) = u := ha.eq 0 (by omega)
  have e2 : V (k + 1 + m) = u := ha.eq m (by omega)
  have := hm (k + 1) (by rw [e1]; exact hu.1) (by rw [e1]; exact hu.2)
  rw [e1, e2] at this
  exact lt_irrefl _ this

/-- Basis functions of degree `p` are `r` times continuously differentiable between `a` and `b` if no
knot there has multiplicity above `p - r`. -/
theorem N_contDiffOn (hV : Monotone V) {a b : ℝ} {m n : ℕ} (hm : MultAtMost V a b m) (h0 : V 0 ≤ a)
    (h1 : b ≤ V n) (r : ℕ) : ∀ p, r + m ≤ p → ∀ i, ContDiffOn ℝ r (N V p i) (Ioo a b) := by
  induction r with
  | zero =>
    intro p hp i
    rw [show ((0 : ℕ) : WithTop ℕ∞) = 0 by rfl, contDiffOn_zero]
    intro u hu
    obtain ⟨k, m', -, hm', ha⟩ := hm.around hV h0 h1 hu
    exact (ha.continuousAt hV (by omega) i).continuousWithinAt
  | succ r ih =>
    intro p hp i
    obtain ⟨q, rfl⟩ : ∃ q, p = q + 1 := ⟨p - 1, by omega⟩
    have hd : ∀ u ∈ Ioo a b, HasDerivAt (N V (q + 1) i)
        (((q : ℝ) + 1) * (w V q i * N V q i u - w V q (i + 1) * N V q (i + 1) u)) u := by
      intro u hu
      obtain ⟨k, m', -, hm', ha⟩ := hm.around hV h0 h1 hu
      exact ha.hasDerivAt hV (by omega) i
    rw [show ((r + 1 : ℕ) : WithTop ℕ∞) = (r : WithTop ℕ∞) + 1 by push_cast; rfl,
      contDiffOn_succ_iff_deriv_of_isOpen isOpen_Ioo]
    refine ⟨fun u hu => (hd u hu).differentiableAt.differentiableWithinAt, fun h => ?_, ?_⟩
    · exact absurd h (by simp)
    · have hc : ContDiffOn ℝ r (fun u => ((q : ℝ) + 1) * (w V q i * N V q i u
          - w V q (i + 1) * N V q (i + 1) u)) (Ioo a b) := by
        refine contDiffOn_const.mul ((contDiffOn_const.mul (ih q (by omega) i)).sub
          (contDiffOn_const.mul (ih q (by omega) (i + 1))))
      exact hc.congr fun u hu => (hd u hu).deriv

theorem iteratedDeriv_polynomial (f : ℝ[X]) (m : ℕ) :
    iteratedDeriv m (fun t => f.eval t) = fun t => (Spec.deriv m f).eval t := by
  induction m generalizing f with
  | zero => simp [Spec.deriv]
  | succ m ih =>
    rw [iteratedDeriv_succ']
    have : _root_.deriv (fun t => f.eval t) = fun t => (derivative f).eval t := by
      ext t; exact f.deriv
    rw [this, ih]
    unfold Spec.deriv
    rw [Function.iterate_succ_apply]

theorem specDeriv_succ (r : ℕ) (f : ℝ[X]) : Spec.deriv (r + 1) f = Spec.deriv r (derivative f) := by
  unfold Spec.deriv; rw [Function.iterate_succ_apply]

theorem specDeriv_comb (r : ℕ) (a b c : ℝ) (f g : ℝ[X]) :
    Spec.deriv r (C a * (C b * f - C c * g)) = C a * (C b * Spec.deriv r f - C c * Spec.deriv r g) := by
  unfold Spec.deriv
  rw [iterate_derivative_C_mul, iterate_derivative_sub, iterate_derivative_C_mul, iterate_derivative_C_mul]

theorem Around.contDiffAt (hV : Monotone V) {u : ℝ} {k m r p : ℕ} (h : Around V u k m) (hp : r + m ≤ p)
    (i : ℕ) : ContDiffAt ℝ r (N V p i) u := by
  have hm : MultAtMost V (V k) (V (k + m + 1)) m := by
    intro i h1 h2
    have i1 : k < i := by by_contra hc; exact absurd (hV (by omega : i ≤ k)) (not_le.2 h1)
    have i2 : i < k + m + 1 := by
      by_contra hc; exact absurd (hV (by omega : k + m + 1 ≤ i)) (not_le.2 h2)
    have e : V i = u := by
      have := h.eq (i - k - 1) (by omega)
      rwa [show k + 1 + (i - k - 1) = i by omega] at this
    rw [e]
    exact h.gt.trans_le (hV (by omega))
  exact (N_contDiffOn hV hm (hV (Nat.zero_le k)) le_rfl r p hp i).contDiffAt (Ioo_mem_nhds h.lt h.gt)

/-- Near a parameter the other parameters are not knots. -/
theorem Around.eventually (h : Around V u k m) : ∀ᶠ t in 𝓝 u, t = u ∨ Around V t k 0 ∨ Around V t (k + m) 0 := by
  filter_upwards [Ioo_mem_nhds h.lt h.gt] with t ht
  rcases lt_trichotomy t u with h1 | h1 | h1
  · exact Or.inr (Or.inl ⟨ht.1, fun j hj => absurd hj (by omega), h1.trans_le h.ge⟩)
  · exact Or.inl h1
  · exact Or.inr (Or.inr ⟨h.le.trans_lt h1, fun j hj => absurd hj (by omega), ht.2⟩)

/-- The derivatives of the basis functions at a knot of multiplicity `m`, up to order `p - m`, are those
of the pieces on either side; between knots this holds for all orders. -/
theorem Around.derivs (hV : Monotone V) {u : ℝ} {k m : ℕ} (h : Around V u k m) (r : ℕ) :
    ∀ p, (m = 0 ∨ r + m ≤ p) → ∀ i, ContDiffAt ℝ r (N V p i) u ∧
      iteratedDeriv r (N V p i) u = (Spec.deriv r (piece V k p i)).eval u ∧
      iteratedDeriv r (N V p i) u = (Spec.deriv r (piece V (k + m) p i)).eval u := by
  rcases Nat.eq_zero_or_pos m with rfl | hm0
  · intro p _ i
    have he := N_eventuallyEq hV h.lt h.gt p i
    refine ⟨ContDiffAt.congr_of_eventuallyEq ?_ he, ?_, ?_⟩
    · simpa using ((piece V k p i).contDiff_aeval (𝕜 := ℝ) r).contDiffAt (x := u)
    · rw [he.iteratedDeriv_eq, iteratedDeriv_polynomial]
    · rw [he.iteratedDeriv_eq, iteratedDeriv_polynomial]; rfl
  induction r with
  | zero =>
    intro p hp i
    have hp' : m ≤ p := by omega
    refine ⟨?_, ?_, ?_⟩
    · exact h.contDiffAt hV (by omega) i
    · rw [iteratedDeriv_zero]; exact h.N_eq_left hV hp' i
    · rw [iteratedDeriv_zero]; exact h.N_eq hV p i
  | succ r ih =>
    intro p hp i
    have hp' : r + 1 + m ≤ p := by omega
    obtain ⟨q, rfl⟩ : ∃ q, p = q + 1 := ⟨p - 1, by omega⟩
    have hd : ∀ᶠ t in 𝓝 u, HasDerivAt (N V (q + 1) i)
        (((q : ℝ) + 1) * (w V q i * N V q i t - w V q (i + 1) * N V q (i + 1) t)) t := by
      filter_upwards [h.eventually] with t ht
      rcases ht with rfl | ht | ht
      · exact h.hasDerivAt hV (by omega) i
      · exact ht.hasDerivAt hV (by omega) i
      · exact ht.hasDerivAt hV (by omega) i
    have hde : _root_.deriv (N V (q + 1) i) =ᶠ[𝓝 u] fun t =>
        ((q : ℝ) + 1) * (w V q i * N V q i t - w V q (i + 1) * N V q (i + 1) t) :=
      hd.mono fun t ht => ht.deriv
    obtain ⟨c1, a1, b1⟩ := ih q (by omega) i
    obtain ⟨c2, a2, b2⟩ := ih q (by omega) (i + 1)
    have hval : iteratedDeriv (r + 1) (N V (q + 1) i) u = ((q : ℝ) + 1) *
        (w V q i * iteratedDeriv r (N V q i) u - w V q (i + 1) * iteratedDeriv r (N V q (i + 1)) u) := by
      rw [iteratedDeriv_succ', hde.iteratedDeriv_eq, iteratedDeriv_const_mul,
        iteratedDeriv_fun_sub, iteratedDeriv_const_mul, iteratedDeriv_const_mul]
      all_goals first | exact c1 | exact c2 | exact contDiffAt_const.mul c1 | exact contDiffAt_const.mul c2 | exact (contDiffAt_const.mul c1).sub (contDiffAt_const.mul c2)
    refine ⟨?_, ?_, ?_⟩
    · exact h.contDiffAt hV (by omega) i
    · rw [hval, a1, a2, specDeriv_succ, derivative_piece hV, specDeriv_comb]
      simp
    · rw [hval, b1, b2, specDeriv_succ, derivative_piece hV, specDeriv_comb]
      simp

end

end PySpline
