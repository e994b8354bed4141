import Verif.Lemmas.FitProject
import Mathlib.LinearAlgebra.Trace

/-!
# Auxiliary lemmas for `Props/Leverage.lean`
-/

set_option linter.unusedSectionVars false

namespace PySpline

open Spec Finset

variable {K : Type} [Field K] [LinearOrder K] [IsStrictOrderedRing K]

/-! ## Sums over lists of data -/

/-- Sums over data of a value times a function of the parameter, collected by parameters. -/
theorem sum_by_parameter {α β : Type} [DecidableEq α] (par : β → α) (d : β → K) (g : α → K) (S : Finset α) :
    ∀ l : List β, (∀ x ∈ l, par x ∈ S) →
      (l.map fun x => d x * g (par x)).sum = ∑ t ∈ S, ((l.filter fun x => par x = t).map d).sum * g t
  | [], _ => by simp
  | x :: l, h => by
    rw [List.map_cons, List.sum_cons, sum_by_parameter par d g S l fun y hy => h y (List.mem_cons_of_mem x hy)]
    have hx : par x ∈ S := h x List.mem_cons_self
    have e : ∀ t ∈ S, (((x :: l).filter fun x => par x = t).map d).sum * g t
        = (if par x = t then d x * g t else 0) + ((l.filter fun x => par x = t).map d).sum * g t := by
      intro t _
      by_cases ht : par x = t
      · rw [if_pos ht, List.filter_cons_of_pos (by simpa using ht), List.map_cons, List.sum_cons]
        ring
      · rw [if_neg ht, List.filter_cons_of_neg (by simpa using ht), zero_add]
    rw [sum_congr rfl e, sum_add_distrib, sum_ite_eq S (par x) fun t => d x * g t, if_pos hx]

/-- If two lists of data agree, up to the factor `w`, in the sums of the values at each parameter, they agree in sums of
values times functions of the parameter. -/
theorem sum_eq_of_parameter_sums {α β : Type} [DecidableEq α] (par : β → α) (d : β → K) {l l' : List β} {w : K}
    (h : ∀ t, ((l'.filter fun x => par x = t).map d).sum = w * ((l.filter fun x => par x = t).map d).sum) (g : α → K) :
    (l'.map fun x => d x * g (par x)).sum = w * (l.map fun x => d x * g (par x)).sum := by
  have hS : ∀ x ∈ l ++ l', par x ∈ ((l ++ l').map par).toFinset := fun x hx => by
    rw [List.mem_toFinset]; exact List.mem_map_of_mem hx
  rw [sum_by_parameter par d g _ l' fun x hx => hS x (List.mem_append_right l hx),
    sum_by_parameter par d g _ l fun x hx => hS x (List.mem_append_left l' hx), mul_sum]
  exact sum_congr rfl fun t _ => by rw [h t, mul_assoc]

/-- Normal equations depend on the data only through the number of data at each parameter and the sum of their values. -/
theorem normal_of_parameter_sums {α β : Type} [DecidableEq α] (par : β → α) (d : β → K) {l l' : List β} {w : K}
    (hc : ∀ t, ((l'.filter fun x => par x = t).length : K) = w * (l.filter fun x => par x = t).length)
    (hs : ∀ t, ((l'.filter fun x => par x = t).map d).sum = w * ((l.filter fun x => par x = t).map d).sum) (f e : α → K)
    (h : (l.map fun x => (f (par x) - d x) * e (par x)).sum = 0) :
    (l'.map fun x => (f (par x) - d x) * e (par x)).sum = 0 := by
  have split : ∀ l : List β, (l.map fun x => (f (par x) - d x) * e (par x)).sum
      = (l.map fun x => (1 : K) * (f (par x) * e (par x))).sum - (l.map fun x => d x * e (par x)).sum := by
    intro l
    induction l with
    | nil => simp
    | cons x l ih => rw [List.map_cons, List.sum_cons, ih, List.map_cons, List.sum_cons, List.map_cons, List.sum_cons]; ring
  have h1 := sum_eq_of_parameter_sums par (fun _ => (1 : K)) (l := l) (l' := l') (w := w)
    (fun t => by
      have := hc t
      simpa using this) fun t => f t * e t
  have h2 := sum_eq_of_parameter_sums par d hs e
  rw [split] at h ⊢
  rw [h1, h2, ← mul_sub, h, mul_zero]

theorem exists_getD_of_mem {l : List (List K)} {row : List K} (h : row ∈ l) : ∃ r < l.length, l.getD r [] = row := by
  obtain ⟨r, hr, rfl⟩ := List.mem_iff_getElem.1 h
  exact ⟨r, hr, by rw [List.getD_eq_getElem?_getD, List.getElem?_eq_getElem hr, Option.getD_some]⟩

theorem getD_mem_of_lt {l : List (List K)} {r : ℕ} (h : r < l.length) : l.getD r [] ∈ l := by
  rw [List.getD_eq_getElem?_getD, List.getElem?_eq_getElem h, Option.getD_some]
  exact List.getElem_mem h

theorem sum_eraseIdx (f : List K → K) : ∀ (l : List (List K)) {q : ℕ}, q < l.length →
    (l.map f).sum = f (l.getD q []) + ((l.eraseIdx q).map f).sum
  | x :: l, 0, _ => by simp
  | x :: l, q + 1, h => by
    have := sum_eraseIdx f l (q := q) (by simpa using h)
    rw [List.map_cons, List.sum_cons, this, List.eraseIdx_cons_succ, List.map_cons, List.sum_cons, List.getD_cons_succ]
    ring

/-- The sum over the remaining data. -/
theorem sum_range_eraseIdx {f : List K → K} {l : List (List K)} {m q : ℕ} (hl : l.length = m) (hq : q < m) :
    ∑ r ∈ range (m - 1), f ((l.eraseIdx q).getD r []) = ∑ r ∈ (range m).erase q, f (l.getD r []) := by
  rw [sum_getD_map (l.eraseIdx q) (by rw [List.length_eraseIdx_of_lt (by rw [hl]; exact hq), hl])]
  have h1 := sum_eraseIdx f l (q := q) (by rw [hl]; exact hq)
  have h2 := add_sum_erase (range m) (fun r => f (l.getD r [])) (mem_range.2 hq)
  rw [sum_getD_map l hl, h1] at h2
  exact (add_left_cancel h2).symm

/-! ## The influence of the data on the fitted values -/

section
variable {m : ℕ} {F : (ℕ → K) → ℕ → K} {free : (ℕ → K) → Prop} {X : ℕ → ℕ → K}

/-- What the fitted values of unit data have to do with each other. -/
theorem hat_symm (hX : ∀ q < m, free (X q))
    (hN : ∀ q < m, ∀ e, free e → ∑ r ∈ range m, (F (X q) r - if r = q then 1 else 0) * F e r = 0) {q s : ℕ} (hq : q < m)
    (hs : s < m) :
    ∑ r ∈ range m, F (X q) r * F (X s) r = F (X s) q ∧ F (X s) q = F (X q) s := by
  have key : ∀ {q s : ℕ}, q < m → s < m → ∑ r ∈ range m, F (X q) r * F (X s) r = F (X s) q := by
    intro q s hq hs
    have h := hN q hq (X s) (hX s hs)
    have e : ∑ r ∈ range m, (F (X q) r - if r = q then 1 else 0) * F (X s) r
        = ∑ r ∈ range m, F (X q) r * F (X s) r - F (X s) q := by
      have : ∑ r ∈ range m, (if r = q then F (X s) r else 0) = F (X s) q := by
        rw [sum_ite_eq' (range m) q fun r => F (X s) r, if_pos (mem_range.2 hq)]
      rw [← this, ← sum_sub_distrib]
      refine sum_congr rfl fun r _ => ?_
      split <;> ring
    rw [e] at h
    exact sub_eq_zero.1 h
  refine ⟨key hq hs, ?_⟩
  rw [← key hq hs, ← key hs hq]
  exact sum_congr rfl fun r _ => mul_comm _ _

/-- Values of free coefficients are reproduced. -/
theorem hat_free (hN : ∀ q < m, ∀ e, free e → ∑ r ∈ range m, (F (X q) r - if r = q then 1 else 0) * F e r = 0) {s : ℕ}
    (hs : s < m) {e : ℕ → K} (he : free e) : F e s = ∑ r ∈ range m, F (X s) r * F e r := by
  have h := hN s hs e he
  have e' : ∑ r ∈ range m, (F (X s) r - if r = s then 1 else 0) * F e r = ∑ r ∈ range m, F (X s) r * F e r - F e s := by
    have : ∑ r ∈ range m, (if r = s then F e r else 0) = F e s := by
      rw [sum_ite_eq' (range m) s fun r => F e r, if_pos (mem_range.2 hs)]
    rw [← this, ← sum_sub_distrib]
    refine sum_congr rfl fun r _ => ?_
    split <;> ring
  rw [e'] at h
  exact (sub_eq_zero.1 h).symm

/-- Fitted values change linearly with the data. -/
theorem hat_change (hF : ∀ x e s r, F (fun i => x i + s * e i) r = F x r + s * F e r) (hX : ∀ q < m, free (X q))
    (hN : ∀ q < m, ∀ e, free e → ∑ r ∈ range m, (F (X q) r - if r = q then 1 else 0) * F e r = 0) {x y d d' : ℕ → K}
    (hx : ∀ e, free e → ∑ r ∈ range m, (F x r - d r) * F e r = 0)
    (hy : ∀ e, free e → ∑ r ∈ range m, (F y r - d' r) * F e r = 0) (hxy : free fun i => y i + (-1) * x i) {s : ℕ}
    (hs : s < m) : F y s - F x s = ∑ r ∈ range m, F (X s) r * (d' r - d r) := by
  have h1 := hx _ (hX s hs)
  have h2 := hy _ (hX s hs)
  have h3 := hat_free hN hs hxy
  have e1 : ∀ r, F (fun i => y i + (-1) * x i) r = F y r - F x r := fun r => by rw [hF]; ring
  rw [e1] at h3
  rw [h3, ← sub_eq_zero, ← sub_eq_zero.2 (h2.trans h1.symm), ← sum_sub_distrib, ← sum_sub_distrib]
  refine sum_congr rfl fun r _ => ?_
  rw [e1]
  ring

/-- The influence of leaving out a datum. -/
theorem hat_deleted (hF : ∀ x e s r, F (fun i => x i + s * e i) r = F x r + s * F e r) (hX : ∀ q < m, free (X q))
    (hN : ∀ q < m, ∀ e, free e → ∑ r ∈ range m, (F (X q) r - if r = q then 1 else 0) * F e r = 0) {x y d : ℕ → K} {q : ℕ}
    (hq : q < m) (hx : ∀ e, free e → ∑ r ∈ range m, (F x r - d r) * F e r = 0)
    (hy : ∀ e, free e → ∑ r ∈ (range m).erase q, (F y r - d r) * F e r = 0) (hxy : free fun i => x i + (-1) * y i) {s : ℕ}
    (hs : s < m) : F x s - F y s = F (X s) q * (d q - F y q) := by
  rw [hat_change hF hX hN (d := fun r => if r = q then F y q else d r) (fun e he => ?_) hx hxy hs]
  · refine Eq.trans (sum_congr rfl fun r _ => ?_)
      (sum_ite_eq' (range m) q fun _ => F (X s) q * (d q - F y q)) |>.trans (if_pos (mem_range.2 hq))
    by_cases hr : r = q
    · rw [if_pos hr, if_pos hr, hr]
    · rw [if_neg hr, if_neg hr, sub_self, mul_zero]
  · rw [← add_sum_erase (range m) _ (mem_range.2 hq), if_pos rfl, sub_self, zero_mul, zero_add, ← hy e he]
    exact sum_congr rfl fun r hr => by rw [if_neg (ne_of_mem_erase hr)]

/-- Bounds for the entries. -/
theorem hat_bounds {H : ℕ → ℕ → K} (hsym : ∀ r < m, ∀ q < m, H r q = H q r)
    (hid : ∀ r < m, ∀ q < m, ∑ s ∈ range m, H r s * H s q = H r q) {q : ℕ} (hq : q < m) :
    0 ≤ H q q ∧ H q q ≤ 1 ∧ ∀ r < m, r ≠ q → |H r q| ≤ 1 / 2 := by
  have hsq : ∑ s ∈ range m, H s q ^ 2 = H q q := by
    rw [← hid q hq q hq]
    exact sum_congr rfl fun s hs => by rw [hsym q hq s (mem_range.1 hs)]; ring
  have h0 : H q q ^ 2 ≤ H q q := by
    conv_rhs => rw [← hsq]
    exact single_le_sum (f := fun s => H s q ^ 2) (fun s _ => sq_nonneg _) (mem_range.2 hq)
  have hp : 0 ≤ H q q := (sq_nonneg _).trans h0
  refine ⟨hp, ?_, fun r hr hrq => ?_⟩
  · by_contra h
    push Not at h
    nlinarith
  · have h2 : H r q ^ 2 + H q q ^ 2 ≤ H q q := by
      conv_rhs => rw [← hsq]
      rw [← sum_pair (f := fun s => H s q ^ 2) hrq]
      refine sum_le_sum_of_subset_of_nonneg (fun s hs => ?_) fun s _ _ => sq_nonneg _
      rw [mem_insert, mem_singleton] at hs
      rcases hs with rfl | rfl
      · exact mem_range.2 hr
      · exact mem_range.2 hq
    refine abs_le_of_sq_le_sq ?_ (by norm_num)
    nlinarith [sq_nonneg (H q q - 1 / 2)]

/-- The sum of the diagonal is the number of free coefficients, if the data determine them. -/
theorem hat_trace {ι : Type} [Fintype ι] (hF : ∀ x e s r, F (fun i => x i + s * e i) r = F x r + s * F e r)
    (hX : ∀ q < m, free (X q))
    (hN : ∀ q < m, ∀ e, free e → ∑ r ∈ range m, (F (X q) r - if r = q then 1 else 0) * F e r = 0)
    (E : (ι → K) → ℕ → K) (hE : ∀ a b s i, E (fun j => a j + s * b j) i = E a i + s * E b i) (hfree : ∀ a, free (E a))
    (hsurj : ∀ e, free e → ∃ a, ∀ r < m, F (E a) r = F e r) (hinj : ∀ a, (∀ r < m, F (E a) r = 0) → a = 0) :
    ∑ q ∈ range m, F (X q) q = Fintype.card ι := by
  classical
  have hF0 : ∀ r, F (fun _ => 0) r = 0 := fun r => by
    have := hF (fun _ => 0) (fun _ => 0) 1 r
    simp only [mul_zero, add_zero] at this
    linarith
  have hFadd : ∀ x y r, F (fun i => x i + y i) r = F x r + F y r := fun x y r => by
    have := hF x y 1 r
    simpa using this
  have hFmul : ∀ s x r, F (fun i => s * x i) r = s * F x r := fun s x r => by
    have := hF (fun _ => 0) x s r
    rw [hF0] at this
    simpa using this
  have hE0 : ∀ i, E 0 i = 0 := fun i => by
    have := hE 0 0 1 i
    have e : (fun j => (0 : ι → K) j + 1 * (0 : ι → K) j) = 0 := by funext j; simp
    rw [e] at this
    linarith
  let G : (ι → K) →ₗ[K] (Fin m → K) :=
    { toFun := fun a r => F (E a) r
      map_add' := fun a b => by
        funext r
        have : E (a + b) = fun i => E a i + E b i := by
          funext i
          have := hE a b 1 i
          have e : (fun j => a j + 1 * b j) = a + b := by funext j; simp
          rw [e] at this
          rw [this, one_mul]
        rw [this, hFadd]
        rfl
      map_smul' := fun s a => by
        funext r
        have : E (s • a) = fun i => s * E a i := by
          funext i
          have := hE 0 a s i
          have e : (fun j => (0 : ι → K) j + s * a j) = s • a := by funext j; simp
          rw [e] at this
          rw [this, hE0, zero_add]
        rw [this, hFmul]
        rfl }
  have hG : Function.Injective G := by
    rw [← LinearMap.ker_eq_bot, LinearMap.ker_eq_bot']
    intro a ha
    exact hinj a fun r hr => congrFun ha ⟨r, hr⟩
  let A : Matrix (Fin m) (Fin m) K := Matrix.of fun r q => F (X q) r
  have happ : ∀ (w : Fin m → K) (s : Fin m), A.toLin' w s = ∑ r : Fin m, F (X s) r * w r := by
    intro w s
    rw [Matrix.toLin'_apply]
    simp only [Matrix.mulVec, dotProduct, A, Matrix.of_apply]
    exact sum_congr rfl fun r _ => by rw [(hat_symm hX hN s.2 r.2).2]
  have hproj : LinearMap.IsProj (LinearMap.range G) A.toLin' := by
    refine ⟨fun w => ?_, ?_⟩
    · have hmem : ∀ q : Fin m, (fun r : Fin m => F (X q) r) ∈ LinearMap.range G := fun q => by
        obtain ⟨a, ha⟩ := hsurj _ (hX q q.2)
        exact ⟨a, funext fun r => ha r r.2⟩
      have : A.toLin' w = ∑ q : Fin m, w q • (fun r : Fin m => F (X q) r) := by
        funext s
        rw [Matrix.toLin'_apply, Finset.sum_apply]
        simp only [Matrix.mulVec, dotProduct, A, Matrix.of_apply, Pi.smul_apply, smul_eq_mul]
        exact sum_congr rfl fun r _ => mul_comm _ _
      rw [this]
      exact Submodule.sum_mem _ fun q _ => Submodule.smul_mem _ _ (hmem q)
    · rintro w ⟨a, rfl⟩
      funext s
      rw [happ]
      show ∑ r : Fin m, F (X s) r * F (E a) r = F (E a) s
      rw [hat_free hN s.2 (hfree a), ← Fin.sum_univ_eq_sum_range fun r => F (X s) r * F (E a) r]
  have ht := hproj.trace
  rw [Matrix.trace_toLin'_eq, LinearMap.finrank_range_of_inj hG, Module.finrank_fintype_fun_eq_card] at ht
  rw [← ht, Matrix.trace, ← Fin.sum_univ_eq_sum_range fun q => F (X q) q]
  rfl

end

end PySpline
