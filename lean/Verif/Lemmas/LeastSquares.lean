import Verif.Model.Fitting
import Verif.Spec
import Verif.Lemmas.Parameterize
import Mathlib.Algebra.Order.BigOperators.Ring.Finset
import Mathlib.Algebra.BigOperators.Ring.Finset

/-!
# Least squares with fixed entries
-/

set_option linter.unusedSectionVars false

namespace PySpline

open Spec Finset

section
variable {K : Type} [Field K] [LinearOrder K] [IsStrictOrderedRing K]

/-! ## A least-squares solver exists over every ordered field -/

/-- Normal equations: for every matrix with `n` columns and every right-hand side there is an `x`
whose residual is orthogonal to all columns. -/
theorem exists_normal (m : ℕ) (A : ℕ → ℕ → K) (n : ℕ) : ∀ b : ℕ → K, ∃ x : ℕ → K, ∀ j < n,
    ∑ r ∈ range m, A r j * (∑ i ∈ range n, A r i * x i - b r) = 0 := by
  induction n with
  | zero => intro b; exact ⟨fun _ => 0, fun j hj => absurd hj (by omega)⟩
  | succ n ih =>
    intro b
    obtain ⟨y, hy⟩ := ih fun r => A r n
    obtain ⟨x, hx⟩ := ih b
    -- the part of the new column orthogonal to the others, and the old residual
    set e : ℕ → K := fun r => ∑ i ∈ range n, A r i * y i - A r n with he
    set res : ℕ → K := fun r => ∑ i ∈ range n, A r i * x i - b r with hres
    set s := ∑ r ∈ range m, e r * e r with hs
    set t := (∑ r ∈ range m, e r * res r) / s with ht
    -- `x' = x - t (y, -1)`
    refine ⟨fun i => if i = n then t else x i - t * y i, fun j hj => ?_⟩
    have hnew : ∀ r, ∑ i ∈ range (n + 1), A r i * (if i = n then t else x i - t * y i) - b r
        = res r - t * e r := by
      intro r
      rw [sum_range_succ, if_pos rfl]
      have : ∑ i ∈ range n, A r i * (if i = n then t else x i - t * y i)
          = ∑ i ∈ range n, A r i * x i - t * ∑ i ∈ range n, A r i * y i := by
        rw [mul_sum, ← sum_sub_distrib]
        refine sum_congr rfl fun i hi => ?_
        rw [if_neg (by have := mem_range.1 hi; omega)]
        ring
      rw [this, he, hres]
      ring
    simp only [hnew]
    have hsplit : ∀ j', ∑ r ∈ range m, A r j' * (res r - t * e r)
        = ∑ r ∈ range m, A r j' * res r - t * ∑ r ∈ range m, A r j' * e r := by
      intro j'
      rw [mul_sum, ← sum_sub_distrib]
      exact sum_congr rfl fun r _ => by ring
    rw [hsplit]
    rcases Nat.lt_succ_iff_lt_or_eq.1 hj with hj | rfl
    · rw [hx j hj, hy j hj]; ring
    · -- the new column is a combination of the old ones minus `e`
      have horth : ∀ f : ℕ → K, (∀ j' < j, ∑ r ∈ range m, A r j' * f r = 0) →
          ∑ r ∈ range m, A r j * f r = - ∑ r ∈ range m, e r * f r := by
        intro f hf
        have h1 : ∑ r ∈ range m, (∑ i ∈ range j, A r i * y i) * f r = 0 := by
          have : ∑ r ∈ range m, (∑ i ∈ range j, A r i * y i) * f r
              = ∑ i ∈ range j, y i * ∑ r ∈ range m, A r i * f r := by
            simp only [sum_mul, mul_sum]
            rw [sum_comm]
            exact sum_congr rfl fun i _ => sum_congr rfl fun r _ => by ring
          rw [this]
          exact sum_eq_zero fun i hi => by rw [hf i (mem_range.1 hi), mul_zero]
        have h2 : ∑ r ∈ range m, e r * f r = ∑ r ∈ range m, (∑ i ∈ range j, A r i * y i) * f r
            - ∑ r ∈ range m, A r j * f r := by
          rw [← sum_sub_distrib]
          exact sum_congr rfl fun r _ => by rw [he]; ring
        rw [h2, h1]; ring
      rw [horth res hx, horth e hy, ← hs]
      by_cases h0 : s = 0
      · have hz : ∀ r ∈ range m, e r = 0 := by
          intro r hr
          have := (sum_eq_zero_iff_of_nonneg fun r _ => mul_self_nonneg (e r)).1 (hs ▸ h0) r hr
          exact mul_self_eq_zero.1 this
        rw [h0, sum_eq_zero fun r hr => by rw [hz r hr, zero_mul]]
        ring
      · rw [ht]; field_simp; ring

/-- The residual of any vector, compared with that of a solution of the normal equations. -/
theorem normal_pythagoras {m n : ℕ} {A : ℕ → ℕ → K} {b x : ℕ → K}
    (h : ∀ j < n, ∑ r ∈ range m, A r j * (∑ i ∈ range n, A r i * x i - b r) = 0) (z : ℕ → K) :
    ∑ r ∈ range m, (∑ i ∈ range n, A r i * z i - b r) ^ 2
      = ∑ r ∈ range m, (∑ i ∈ range n, A r i * x i - b r) ^ 2
        + ∑ r ∈ range m, (∑ i ∈ range n, A r i * (z i - x i)) ^ 2 := by
  have hcross : ∑ r ∈ range m, (∑ i ∈ range n, A r i * (z i - x i))
      * (∑ i ∈ range n, A r i * x i - b r) = 0 := by
    have : ∑ r ∈ range m, (∑ i ∈ range n, A r i * (z i - x i)) * (∑ i ∈ range n, A r i * x i - b r)
        = ∑ j ∈ range n, (z j - x j) * ∑ r ∈ range m, A r j * (∑ i ∈ range n, A r i * x i - b r) := by
      simp only [mul_sum (range m)]
      rw [sum_comm]
      refine sum_congr rfl fun r _ => ?_
      rw [sum_mul]
      exact sum_congr rfl fun i _ => by ring
    rw [this]
    exact sum_eq_zero fun j hj => by rw [h j (mem_range.1 hj), mul_zero]
  have hexp : ∑ r ∈ range m, (∑ i ∈ range n, A r i * z i - b r) ^ 2
      = ∑ r ∈ range m, (∑ i ∈ range n, A r i * x i - b r) ^ 2
        + ∑ r ∈ range m, (∑ i ∈ range n, A r i * (z i - x i)) ^ 2
        + 2 * ∑ r ∈ range m, (∑ i ∈ range n, A r i * (z i - x i))
            * (∑ i ∈ range n, A r i * x i - b r) := by
    rw [mul_sum, ← sum_add_distrib, ← sum_add_distrib]
    refine sum_congr rfl fun r _ => ?_
    have : ∑ i ∈ range n, A r i * z i
        = ∑ i ∈ range n, A r i * x i + ∑ i ∈ range n, A r i * (z i - x i) := by
      rw [← sum_add_distrib]
      exact sum_congr rfl fun i _ => by ring
    rw [this]; ring
  rw [hexp, hcross]
  ring

/-- A solution of the normal equations minimizes the squared residual. -/
theorem normal_least {m n : ℕ} {A : ℕ → ℕ → K} {b x : ℕ → K}
    (h : ∀ j < n, ∑ r ∈ range m, A r j * (∑ i ∈ range n, A r i * x i - b r) = 0) (z : ℕ → K) :
    ∑ r ∈ range m, (∑ i ∈ range n, A r i * x i - b r) ^ 2
      ≤ ∑ r ∈ range m, (∑ i ∈ range n, A r i * z i - b r) ^ 2 := by
  rw [normal_pythagoras h z]
  have : 0 ≤ ∑ r ∈ range m, (∑ i ∈ range n, A r i * (z i - x i)) ^ 2 :=
    sum_nonneg fun r _ => sq_nonneg _
  linarith

/-- The hypothesis on `np.linalg.lstsq` can be satisfied over every ordered field. -/
theorem exists_lstsq : ∃ ls : ℕ → List (List K) → List K → List K, IsLstsq ls := by
  have key : ∀ (n : ℕ) (A : List (List K)) (b : List K), ∃ l : List K, l.length = n ∧
      ∀ x : ℕ → K, sqResid A n (fun i => l.getD i 0) b ≤ sqResid A n x b := by
    intro n A b
    obtain ⟨x, hx⟩ := exists_normal b.length (fun r i => (A.getD r []).getD i 0) n
      fun r => b.getD r 0
    refine ⟨(List.range n).map x, by simp, fun z => ?_⟩
    have e : sqResid A n (fun i => ((List.range n).map x).getD i 0) b = sqResid A n x b := by
      unfold sqResid
      refine sum_congr rfl fun r _ => ?_
      congr 2
      refine sum_congr rfl fun i hi => ?_
      congr 1
      simp [List.getD_eq_getElem?_getD, mem_range.1 hi]
    rw [e]
    exact normal_least hx z
  choose ls h1 h2 using key
  exact ⟨ls, ⟨fun n A b _ _ => h1 n A b, fun n A b _ _ => h2 n A b⟩⟩

/-- The same for solvers that return the solution of least norm: it is the combination `Aᵀ y` of the rows with the same
residual. -/
theorem exists_minNorm : ∃ ls : ℕ → List (List K) → List K → List K, IsMinNormLstsq ls := by
  have key : ∀ (n : ℕ) (A : List (List K)) (b : List K), ∃ l : List K, l.length = n ∧
      (∀ x : ℕ → K, sqResid A n (fun i => l.getD i 0) b ≤ sqResid A n x b) ∧
      ∀ x : ℕ → K, sqResid A n x b ≤ sqResid A n (fun i => l.getD i 0) b →
        ∑ i ∈ range n, l.getD i 0 ^ 2 ≤ ∑ i ∈ range n, x i ^ 2 := by
    intro n A b
    set M : ℕ → ℕ → K := fun r i => (A.getD r []).getD i 0 with hM
    obtain ⟨x₀, hx₀⟩ := exists_normal b.length M n fun r => b.getD r 0
    obtain ⟨y, hy⟩ := exists_normal n (fun i r => M r i) b.length x₀
    set w : ℕ → K := fun i => ∑ r ∈ range b.length, M r i * y r with hw
    have hAw : ∀ r < b.length, ∑ i ∈ range n, M r i * w i = ∑ i ∈ range n, M r i * x₀ i := by
      intro r hr
      have := hy r hr
      rw [← sub_eq_zero, ← sum_sub_distrib, ← this]
      exact sum_congr rfl fun i _ => by rw [hw]; ring
    have hnw : ∀ j < n, ∑ r ∈ range b.length, M r j * (∑ i ∈ range n, M r i * w i - b.getD r 0) = 0 := by
      intro j hj
      refine Eq.trans ?_ (hx₀ j hj)
      exact sum_congr rfl fun r hr => by rw [hAw r (mem_range.1 hr)]
    have e : ∀ f : ℕ → K → K, ∑ i ∈ range n, f i (((List.range n).map w).getD i 0) = ∑ i ∈ range n, f i (w i) := by
      intro f
      refine sum_congr rfl fun i hi => ?_
      congr 1
      simp [List.getD_eq_getElem?_getD, mem_range.1 hi]
    have e' : sqResid A n (fun i => ((List.range n).map w).getD i 0) b = sqResid A n w b := by
      unfold sqResid
      refine sum_congr rfl fun r _ => ?_
      rw [e fun i t => (A.getD r []).getD i 0 * t]
    refine ⟨(List.range n).map w, by simp, fun z => ?_, fun z hz => ?_⟩
    · rw [e']
      exact normal_least hnw z
    · rw [e'] at hz
      rw [e fun _ t => t ^ 2]
      -- `z - w` is in the kernel, hence orthogonal to `w`
      have hker : ∀ r < b.length, ∑ i ∈ range n, M r i * (z i - w i) = 0 := by
        have hp := normal_pythagoras hnw z
        have h0 : ∑ r ∈ range b.length, (∑ i ∈ range n, M r i * (z i - w i)) ^ 2 = 0 := by
          refine le_antisymm ?_ (sum_nonneg fun r _ => sq_nonneg _)
          unfold sqResid at hz
          linarith
        intro r hr
        exact pow_eq_zero_iff two_ne_zero |>.1
          ((sum_eq_zero_iff_of_nonneg fun r _ => sq_nonneg _).1 h0 r (mem_range.2 hr))
      have horth : ∑ i ∈ range n, w i * (z i - w i) = 0 := by
        have : ∑ i ∈ range n, w i * (z i - w i)
            = ∑ r ∈ range b.length, y r * ∑ i ∈ range n, M r i * (z i - w i) := by
          simp only [mul_sum (range n)]
          rw [sum_comm]
          refine sum_congr rfl fun i _ => ?_
          rw [hw]
          dsimp only
          rw [sum_mul]
          exact sum_congr rfl fun r _ => by ring
        rw [this]
        exact sum_eq_zero fun r hr => by rw [hker r (mem_range.1 hr), mul_zero]
      have hexp : ∑ i ∈ range n, z i ^ 2 = ∑ i ∈ range n, w i ^ 2 + ∑ i ∈ range n, (z i - w i) ^ 2
          + 2 * ∑ i ∈ range n, w i * (z i - w i) := by
        rw [mul_sum, ← sum_add_distrib, ← sum_add_distrib]
        exact sum_congr rfl fun i _ => by ring
      rw [hexp, horth]
      have : 0 ≤ ∑ i ∈ range n, (z i - w i) ^ 2 := sum_nonneg fun i _ => sq_nonneg _
      linarith
  choose ls h1 h2 h3 using key
  exact ⟨ls, ⟨⟨fun n A b _ _ => h1 n A b, fun n A b _ _ => h2 n A b⟩, fun n A b _ _ => h3 n A b⟩⟩

/-! ## Ranks -/

/-- Number of indices below `i` with the property. -/
def rank (F : ℕ → Bool) : ℕ → ℕ
  | 0 => 0
  | i + 1 => if F i then rank F i + 1 else rank F i

/-- Number of indices below `i` without the property. -/
def corank (F : ℕ → Bool) : ℕ → ℕ
  | 0 => 0
  | i + 1 => if F i then corank F i else corank F i + 1

theorem rank_add_corank (F : ℕ → Bool) (i : ℕ) : rank F i + corank F i = i := by
  induction i with
  | zero => rfl
  | succ i ih => unfold rank corank; split <;> omega

theorem rank_mono (F : ℕ → Bool) {i j : ℕ} (h : i ≤ j) : rank F i ≤ rank F j := by
  induction j, h using Nat.le_induction with
  | base => exact le_rfl
  | succ j _ ih => refine ih.trans ?_; conv_rhs => unfold rank
                   split <;> omega

theorem corank_mono (F : ℕ → Bool) {i j : ℕ} (h : i ≤ j) : corank F i ≤ corank F j := by
  induction j, h using Nat.le_induction with
  | base => exact le_rfl
  | succ j _ ih => refine ih.trans ?_; conv_rhs => unfold corank
                   split <;> omega

theorem corank_lt (F : ℕ → Bool) {i j : ℕ} (h : i < j) (hi : F i = false) :
    corank F i < corank F j := by
  refine lt_of_lt_of_le ?_ (corank_mono F (Nat.succ_le_of_lt h))
  unfold corank
  rw [hi]
  simp only [Bool.false_eq_true, if_false]
  cases i <;> exact Nat.lt_succ_self _

theorem rank_lt (F : ℕ → Bool) {i j : ℕ} (h : i < j) (hi : F i = true) : rank F i < rank F j := by
  refine lt_of_lt_of_le ?_ (rank_mono F (Nat.succ_le_of_lt h))
  unfold rank
  rw [hi]
  simp only [if_true]
  cases i <;> exact Nat.lt_succ_self _

theorem sum_corank (F : ℕ → Bool) (f : ℕ → K) (n : ℕ) :
    ∑ t ∈ range (corank F n), f t = ∑ j ∈ range n, if F j then 0 else f (corank F j) := by
  induction n with
  | zero => rfl
  | succ n ih =>
    rw [sum_range_succ, ← ih]
    conv_lhs => unfold corank
    cases F n
    · simp [sum_range_succ]
    · simp

theorem exists_corank (F : ℕ → Bool) (x : ℕ → K) (n : ℕ) :
    ∃ y : ℕ → K, ∀ j < n, F j = false → y (corank F j) = x j := by
  induction n with
  | zero => exact ⟨x, fun j hj => absurd hj (by omega)⟩
  | succ n ih =>
    obtain ⟨y, hy⟩ := ih
    by_cases hn : F n = false
    · refine ⟨Function.update y (corank F n) (x n), fun j hj hf => ?_⟩
      rcases Nat.lt_succ_iff_lt_or_eq.1 hj with hj | rfl
      · have := corank_lt F hj hf
        rw [Function.update_of_ne (by omega), hy j hj hf]
      · rw [Function.update_self]
    · refine ⟨y, fun j hj hf => ?_⟩
      rcases Nat.lt_succ_iff_lt_or_eq.1 hj with hj | rfl
      · exact hy j hj hf
      · exact absurd hf hn

/-! ## Columns -/

theorem column_nat {m : List (List K)} {r c : ℕ} (h : Shape m r c) (i : ℤ) (k : ℕ) (hi : i = k)
    (hk : k < c) : column m i = .ok (m.map fun row => row.getD k 0) := by
  unfold column
  exact mapPy_eq_ok _ _ _ fun row hrow => pyGet_nat _ _ _ _ hi (by rw [h.2 row hrow]; exact hk)

theorem setColumn_nat {m : List (List K)} {r c : ℕ} (h : Shape m r c) (i : ℤ) (k : ℕ) (v : List K)
    (hi : i = k) (hk : k < c) (hv : v.length = r) :
    ∃ m', setColumn m i v = .ok m' ∧ Shape m' r c ∧
      ∀ x < r, ∀ y, at2 m' x y 0 = if y = k then v.getD x 0 else at2 m x y 0 := by
  have hz : ∀ rx ∈ m.zip v, rx.1.length = c := fun rx hrx => h.2 _ (List.of_mem_zip hrx).1
  refine ⟨(m.zip v).map fun rx => rx.1.set k rx.2, ?_, ⟨?_, ?_⟩, ?_⟩
  · unfold setColumn
    rw [if_pos (by rw [hv, h.1])]
    exact mapPy_eq_ok _ _ _ fun rx hrx => pySet_nat _ _ _ _ hi (by rw [hz rx hrx]; exact hk)
  · simp [h.1, hv]
  · intro row hrow
    obtain ⟨rx, hrx, rfl⟩ := List.mem_map.1 hrow
    rw [List.length_set, hz rx hrx]
  · intro x hx y
    have h1 : x < m.length := by rw [h.1]; exact hx
    have h2 : x < v.length := by rw [hv]; exact hx
    unfold at2
    have e : ((m.zip v).map fun rx : List K × K => rx.1.set k rx.2).getD x []
        = (m.getD x []).set k (v.getD x 0) := by
      simp [List.getD_eq_getElem?_getD, h1, h2]
    rw [e, getD_set _ _ _ _ _ (by rw [h.row hx]; exact hk)]

theorem getD_map_row (m : List (List K)) (i k : ℕ) :
    (m.map fun row => row.getD k 0).getD i 0 = at2 m i k 0 := by
  unfold at2
  simp only [List.getD_eq_getElem?_getD, List.getElem?_map]
  cases h : m[i]? <;> simp

/-! ## `linear_fit_fixed` -/

/-- `linear_fit_fixed` solves the system with the columns of the free entries and copies the solution into the free
entries: the residual of the reduced system is that of the full one. -/
theorem linearFitFixed_reduce {ls : ℕ → List (List K) → List K → List K}
    (hlen : ∀ n A b, A.length = b.length → (∀ row ∈ A, row.length = n) → (ls n A b).length = n)
    {R : List (List K)} {Q P : List K} {fixed : List Bool} (hR : Shape R Q.length P.length)
    (hf : fixed.length = P.length) :
    Returns (linearFitFixed ls R Q P fixed) fun x => x.length = P.length ∧
      (∀ i < P.length, fixed.getD i false = true → x.getD i 0 = P.getD i 0) ∧
      ((∀ i < P.length, fixed.getD i false = true) ∨
        ∃ (k : ℕ) (Rfree : List (List K)) (b : List K), k = corank (fun i => fixed.getD i false) P.length ∧
          Rfree.length = b.length ∧ (∀ row ∈ Rfree, row.length = k) ∧
          (∀ i < P.length, fixed.getD i false = false →
            x.getD i 0 = (ls k Rfree b).getD (corank (fun i => fixed.getD i false) i) 0) ∧
          ∀ w v : ℕ → K, (∀ i < P.length, fixed.getD i false = true → w i = P.getD i 0) →
            (∀ i < P.length, fixed.getD i false = false → v (corank (fun i => fixed.getD i false) i) = w i) →
            sqResid R P.length w Q = sqResid Rfree k v b) := by
  obtain ⟨n, hn⟩ : ∃ n, P.length = n := ⟨_, rfl⟩
  obtain ⟨m, hm⟩ : ∃ m, Q.length = m := ⟨_, rfl⟩
  set F : ℕ → Bool := fun i => fixed.getD i false with hF
  have hget : ∀ i : ℕ, i < n → pyGet fixed (i : ℤ) = .ok (F i) := fun i hi =>
    pyGet_nat _ _ _ _ rfl (by omega)
  have hgetP : ∀ i : ℕ, i < n → pyGet P (i : ℤ) = .ok (P.getD i 0) := fun i hi =>
    pyGet_nat _ _ _ _ rfl (by omega)
  unfold linearFitFixed
  rw [hn, hm] at hR ⊢
  refine Returns.bind (Returns.forN (fun i (c : ℕ) => c = rank F i) (by omega) rfl ?_) ?_
  · rintro i c - hi rfl
    rw [hget i hi, ok_bind]
    refine Returns.ok ?_
    conv_rhs => unfold rank
  rintro _ rfl
  have hsum := rank_add_corank F n
  split
  · rename_i hall
    refine Returns.ok ⟨hn, fun i _ _ => rfl, Or.inl fun i hi => ?_⟩
    by_contra hne
    have hlt := corank_lt F hi (Bool.eq_false_iff.2 hne)
    omega
  have hfree : n - rank F n = corank F n := by omega
  dsimp only
  rw [hfree]
  refine Returns.bind (Returns.forN (fun i (st : List (List K) × List (List K) × List K × ℕ × ℕ) =>
      Shape st.1 m (corank F n) ∧ Shape st.2.1 m (rank F n) ∧ st.2.2.1.length = m ∧
      st.2.2.2.1 = rank F i ∧ st.2.2.2.2 = corank F i ∧
      (∀ j < i, F j = false → ∀ r < m, at2 st.1 r (corank F j) 0 = at2 R r j 0) ∧
      ∀ r < m, st.2.2.1.getD r 0 = ∑ j ∈ range i, if F j then at2 R r j 0 * P.getD j 0 else 0)
    (by omega) ?_ ?_) ?_
  · refine ⟨shape_replicate _ _ _, shape_replicate _ _ _, by simp [zeros], rfl, rfl,
      fun j hj => absurd hj (by omega), fun r hr => ?_⟩
    simp [zeros, List.getD_eq_getElem?_getD, hr]
  · rintro i ⟨Rfree, Rfixed, Qfixed, j, k⟩ - hi ⟨h1, h2, h3, h4, h5, h6, h7⟩
    dsimp only at h1 h2 h3 h4 h5 h6 h7 ⊢
    subst h4 h5
    rw [hget i hi, ok_bind, column_nat hR i i rfl hi, ok_bind]
    have hcl : (R.map fun row => row.getD i 0).length = m := by simp [hR.1]
    by_cases hFi : F i = true
    · rw [if_pos hFi]
      obtain ⟨m', e, hs, -⟩ := setColumn_nat h2 (rank F i : ℤ) (rank F i) _ rfl (rank_lt F hi hFi) hcl
      rw [e, ok_bind, hgetP i hi, ok_bind]
      unfold vadd
      rw [if_pos (by rw [h3]; simp [hR.1]), ok_bind]
      refine Returns.ok ⟨h1, hs, ?_, ?_, ?_, ?_, ?_⟩
      · simp [h3, hR.1]
      · conv_rhs => unfold rank
        rw [if_pos hFi]
      · conv_rhs => unfold corank
        rw [if_pos hFi]
      · intro j hj hFj r hr
        rcases Nat.lt_succ_iff_lt_or_eq.1 hj with hj | rfl
        · exact h6 j hj hFj r hr
        · rw [hFi] at hFj; cases hFj
      · intro r hr
        rw [sum_range_succ, ← h7 r hr, if_pos hFi, ← getD_map_row R r i]
        have l1 : r < Qfixed.length := by omega
        have l2 : r < R.length := by rw [hR.1]; exact hr
        simp [List.getD_eq_getElem?_getD, l1, l2]
    · rw [if_neg hFi]
      have hFi' : F i = false := by simpa using hFi
      obtain ⟨m', e, hs, hat⟩ := setColumn_nat h1 (corank F i : ℤ) (corank F i) _ rfl
        (corank_lt F hi hFi') hcl
      rw [e, ok_bind]
      refine Returns.ok ⟨hs, h2, h3, ?_, ?_, ?_, ?_⟩
      · conv_rhs => unfold rank
        rw [if_neg hFi]
      · conv_rhs => unfold corank
        rw [if_neg hFi]
      · intro j hj hFj r hr
        rw [hat r hr]
        rcases Nat.lt_succ_iff_lt_or_eq.1 hj with hj | rfl
        · have := corank_lt F hj hFj
          rw [if_neg (by omega)]
          exact h6 j hj hFj r hr
        · rw [if_pos rfl, getD_map_row]
      · intro r hr
        rw [sum_range_succ, ← h7 r hr, if_neg hFi, add_zero]
  rintro ⟨Rfree, Rfixed, Qfixed, j, k⟩ ⟨h1, -, h3, -, -, h6, h7⟩
  dsimp only at h1 h3 h6 h7 ⊢
  rw [vsub_same _ _ (by rw [hm, h3]), ok_bind]
  set b := List.zipWith (· - ·) Q Qfixed with hb
  have hbl : b.length = m := by simp [hb, hm, h3]
  have hAl : Rfree.length = b.length := by rw [h1.1, hbl]
  set y := ls (corank F n) Rfree b with hy
  have hyl : y.length = corank F n := hlen _ _ _ hAl h1.2
  refine Returns.bind (Returns.forN (fun i (st : List K × ℕ) =>
      st.1.length = n ∧ st.2 = corank F i ∧
      ∀ j < i, st.1.getD j 0 = if F j then P.getD j 0 else y.getD (corank F j) 0) (by omega) ?_ ?_) ?_
  · exact ⟨by simp [zeros], rfl, fun j hj => absurd hj (by omega)⟩
  · rintro i ⟨full, j⟩ - hi ⟨g1, g2, g3⟩
    dsimp only at g1 g2 g3 ⊢
    subst g2
    rw [hget i hi, ok_bind]
    by_cases hFi : F i = true
    · rw [if_pos hFi, hgetP i hi, ok_bind, pySet_nat _ _ i _ rfl (by omega), ok_bind]
      refine Returns.ok ⟨by simp [g1], ?_, fun j hj => ?_⟩
      · conv_rhs => unfold corank
        rw [if_pos hFi]
      · rw [getD_set _ _ _ _ _ (by omega)]
        by_cases h : j = i
        · subst h; rw [if_pos rfl, if_pos hFi]
        · rw [if_neg h]; exact g3 j (by omega)
    · have hFi' : F i = false := by simpa using hFi
      rw [if_neg hFi, pyGet_nat y _ (corank F i) 0 rfl (by rw [hyl]; exact corank_lt F hi hFi'),
        ok_bind, pySet_nat _ _ i _ rfl (by omega), ok_bind]
      refine Returns.ok ⟨by simp [g1], ?_, fun j hj => ?_⟩
      · conv_rhs => unfold corank
        rw [if_neg hFi]
      · rw [getD_set _ _ _ _ _ (by omega)]
        by_cases h : j = i
        · subst h; rw [if_pos rfl, if_neg hFi]
        · rw [if_neg h]; exact g3 j (by omega)
  rintro ⟨full, j⟩ ⟨g1, -, g3⟩
  dsimp only at g1 g3
  refine Returns.ok ⟨g1, fun i hi hFi => ?_, Or.inr ⟨_, Rfree, b, rfl, hAl, h1.2, fun i hi hFi => ?_, ?_⟩⟩
  · rw [g3 i hi, if_pos hFi]
  · rw [g3 i hi, if_neg (by rw [hF]; dsimp only; rw [hFi]; simp)]
  -- the residual of the full system is that of the reduced one
  intro w v hw hv
  unfold sqResid
  rw [hbl, hm]
  refine sum_congr rfl fun r hr => ?_
  have hr' := mem_range.1 hr
  congr 1
  have hbr : b.getD r 0 = Q.getD r 0 - Qfixed.getD r 0 := by
    have l1 : r < Q.length := by omega
    have l2 : r < Qfixed.length := by omega
    simp [hb, List.getD_eq_getElem?_getD, l1, l2]
  rw [hbr, h7 r hr', sum_corank]
  have : ∑ i ∈ range n, (R.getD r []).getD i 0 * w i
      = (∑ j ∈ range n, if F j then 0 else (Rfree.getD r []).getD (corank F j) 0 * v (corank F j))
        + ∑ j ∈ range n, if F j then at2 R r j 0 * P.getD j 0 else 0 := by
    rw [← sum_add_distrib]
    refine sum_congr rfl fun i hi => ?_
    have hi' := mem_range.1 hi
    cases hFi : F i with
    | true => simp only [if_true, zero_add]; rw [hw i hi' hFi]; rfl
    | false =>
      simp only [Bool.false_eq_true, if_false, add_zero]
      rw [hv i hi' hFi]
      have := h6 i hi' hFi r hr'
      unfold at2 at this
      rw [this]
  rw [this]; ring

theorem linearFitFixed_spec {ls : ℕ → List (List K) → List K → List K} (hls : IsLstsq ls)
    {R : List (List K)} {Q P : List K} {fixed : List Bool} (hR : Shape R Q.length P.length)
    (hf : fixed.length = P.length) :
    Returns (linearFitFixed ls R Q P fixed) fun x => x.length = P.length ∧
      (∀ i < P.length, fixed.getD i false = true → x.getD i 0 = P.getD i 0) ∧
      ∀ z : ℕ → K, (∀ i < P.length, fixed.getD i false = true → z i = P.getD i 0) →
        sqResid R P.length (fun i => x.getD i 0) Q ≤ sqResid R P.length z Q := by
  refine (linearFitFixed_reduce hls.length hR hf).mono fun x ⟨h1, h2, h3⟩ => ⟨h1, h2, fun z hz => ?_⟩
  rcases h3 with h3 | ⟨k, Rfree, b, -, hAl, hrow, hx, hred⟩
  · refine le_of_eq ?_
    unfold sqResid
    refine sum_congr rfl fun r _ => ?_
    congr 2
    refine sum_congr rfl fun i hi => ?_
    have hi' := mem_range.1 hi
    dsimp only
    rw [hz i hi' (h3 i hi'), h2 i hi' (h3 i hi')]
  · obtain ⟨v, hv⟩ := exists_corank (fun i => fixed.getD i false) z P.length
    rw [hred z v hz hv, hred (fun i => x.getD i 0) (fun t => (ls k Rfree b).getD t 0) h2
      (fun i hi hFi => (hx i hi hFi).symm)]
    exact hls.least _ _ _ hAl hrow v

/-- With a solver that returns the least-squares solution of least norm, `linear_fit_fixed` returns the solution whose
free entries have least norm. -/
theorem linearFitFixed_minNorm {ls : ℕ → List (List K) → List K → List K} (hls : IsMinNormLstsq ls)
    {R : List (List K)} {Q P : List K} {fixed : List Bool} (hR : Shape R Q.length P.length)
    (hf : fixed.length = P.length) :
    Returns (linearFitFixed ls R Q P fixed) fun x =>
      ∀ z : ℕ → K, (∀ i < P.length, fixed.getD i false = true → z i = P.getD i 0) →
        sqResid R P.length z Q ≤ sqResid R P.length (fun i => x.getD i 0) Q →
        ∑ i ∈ range P.length, (if fixed.getD i false then 0 else x.getD i 0 ^ 2)
          ≤ ∑ i ∈ range P.length, if fixed.getD i false then 0 else z i ^ 2 := by
  refine (linearFitFixed_reduce hls.length hR hf).mono fun x ⟨h1, h2, h3⟩ z hz hle => ?_
  rcases h3 with h3 | ⟨k, Rfree, b, rfl, hAl, hrow, hx, hred⟩
  · refine le_of_eq (sum_congr rfl fun i hi => ?_)
    rw [if_pos (h3 i (mem_range.1 hi)), if_pos (h3 i (mem_range.1 hi))]
  · obtain ⟨v, hv⟩ := exists_corank (fun i => fixed.getD i false) z P.length
    rw [hred z v hz hv, hred (fun i => x.getD i 0) (fun t => (ls _ Rfree b).getD t 0) h2
      (fun i hi hFi => (hx i hi hFi).symm)] at hle
    have := hls.norm _ _ _ hAl hrow v hle
    rw [sum_corank, sum_corank] at this
    refine le_trans (le_of_eq ?_) (this.trans (le_of_eq ?_))
    · refine sum_congr rfl fun i hi => ?_
      split
      · rfl
      · rename_i h
        rw [hx i (mem_range.1 hi) (by simpa using h)]
    · refine sum_congr rfl fun i hi => ?_
      split
      · rfl
      · rename_i h
        rw [hv i (mem_range.1 hi) (by simpa using h)]

end

end PySpline
