import Verif.Lemmas.IeeeSolveMatrix
import Verif.SpecIeeeKnotFit

/-!
# Single fits in IEEE arithmetic with a solver that returns numbers or raises
-/

set_option linter.unusedSectionVars false
set_option exponentiation.threshold 1100

namespace PySpline

open Spec Ext Finset

section
variable {K : Type} [Field K] [LinearOrder K] [IsStrictOrderedRing K]

/-- The solver with zeros instead of the exceptions of the class `E`. -/
noncomputable def patch (E : Err → Prop) (ls : ℕ → List (List (Ext K)) → List (Ext K) → Py (List (Ext K))) :
    ℕ → List (List (Ext K)) → List (Ext K) → Py (List (Ext K)) := fun n A b =>
  open Classical in if ∃ e, E e ∧ ls n A b = .error e then .ok (List.replicate n 0) else ls n A b

theorem alt_bind {α β : Type} {E : Err → Prop} {f g : α → Py β} (x : Py α)
    (h : ∀ a, f a = g a ∨ ∃ e, E e ∧ f a = .error e) : (x >>= f) = (x >>= g) ∨ ∃ e, E e ∧ (x >>= f) = .error e := by
  cases x with
  | error e => exact Or.inl rfl
  | ok a => exact h a

theorem linearFitFixedR_patch (E : Err → Prop) (rd : K → Ext K)
    (ls : ℕ → List (List (Ext K)) → List (Ext K) → Py (List (Ext K))) (R : List (List (Ext K))) (Q P : List (Ext K))
    (fixed : List Bool) : linearFitFixedR rd ls R Q P fixed = linearFitFixedR rd (patch E ls) R Q P fixed ∨
      ∃ e, E e ∧ linearFitFixedR rd ls R Q P fixed = .error e := by
  unfold linearFitFixedR
  refine alt_bind _ fun nf => ?_
  split
  · exact Or.inl rfl
  dsimp only
  refine alt_bind _ fun st => ?_
  refine alt_bind _ fun b => ?_
  by_cases h : ∃ e, E e ∧ ls (P.length - nf) st.1 (b.map (rnd rd)) = .error e
  · obtain ⟨e, h1, h2⟩ := h
    exact Or.inr ⟨e, h1, by rw [h2]; rfl⟩
  · left
    have : patch E ls (P.length - nf) st.1 (b.map (rnd rd)) = ls (P.length - nf) st.1 (b.map (rnd rd)) := by
      unfold patch
      rw [if_neg h]
    rw [this]

/-- `linear_fit_fixed` with a solver that returns numbers or raises. -/
theorem linearFitFixedR_finite {ρ η M E B ε X : K} {C : Err → Prop} {k m n : ℕ} {rd : K → Ext K}
    (h : SolveSizes ρ η M E B ε k n) (hr : IeeeRounding ρ η M rd)
    {ls : ℕ → List (List (Ext K)) → List (Ext K) → Py (List (Ext K))} (hls : TameSolver rd M X C ls) (h0 : rd 0 = fin 0)
    (hX0 : 0 ≤ X) {N : ℕ → ℕ → K} {R : List (List (Ext K))} {Q P : List K} {fixed : List Bool}
    (hQl : Q.length = m) (hPl : P.length = n) (hn : 0 < n) (hR : Shape R m n) (hf : fixed.length = n)
    (hN1 : ∀ r < m, ∑ i ∈ range n, N r i ≤ 1) (hM : ∀ r < m, ∀ i < n, IsNear rd ρ k E (at2 R r i 0) (N r i))
    (hQ : ∀ r < m, rd (Q.getD r 0) = fin (Q.getD r 0) ∧ |Q.getD r 0| ≤ B)
    (hP : ∀ i < n, fixed.getD i false = true → rd (P.getD i 0) = fin (P.getD i 0) ∧ |P.getD i 0| ≤ B) :
    (∃ e, C e ∧ linearFitFixedR rd ls R (lift1 Q) (lift1 P) fixed = .error e) ∨
    ∃ z : List K, linearFitFixedR rd ls R (lift1 Q) (lift1 P) fixed = .ok (lift1 z) ∧ z.length = n ∧
      (∀ i < n, fixed.getD i false = true → z.getD i 0 = P.getD i 0) ∧
      ∀ i < n, fixed.getD i false = false → rd (z.getD i 0) = fin (z.getD i 0) ∧ |z.getD i 0| ≤ X := by
  rcases linearFitFixedR_patch C rd ls R (lift1 Q) (lift1 P) fixed with heq | herr
  swap
  · exact Or.inl herr
  right
  rw [heq]
  have hN0 : ∀ r < m, ∀ i < n, 0 ≤ N r i := fun r hr i hi => by
    obtain ⟨-, _, -, -, -, h, -⟩ := hM r hr i hi
    exact h
  have hNle : ∀ r < m, ∀ i < n, N r i ≤ 1 := fun r hr i hi =>
    (single_le_sum (f := fun i => N r i) (fun i hi => hN0 r hr i (mem_range.1 hi)) (mem_range.2 hi)).trans (hN1 r hr)
  set F : ℕ → Bool := fun i => fixed.getD i false with hF
  obtain ⟨Y, hY, X1, X2, X3⟩ := linearFitFixedR_returns (rd := rd) (ls := patch C ls) (R := R) (Q := lift1 Q) (P := lift1 P)
    (fixed := fixed) (by rw [List.length_map, List.length_map, hQl, hPl]; exact hR) (by rw [List.length_map, hPl, hf])
    (fun y => ∃ z₀ : List K, y = lift1 z₀ ∧ z₀.length = corank F n ∧ ∀ x ∈ z₀, rd x = fin x ∧ |x| ≤ X) (by
    intro Rfree b g1 g2 g3 g4
    rw [List.length_map, List.length_map, hQl, hPl] at g1
    rw [List.length_map, hQl] at g2
    rw [List.length_map, List.length_map, hQl, hPl] at g3
    rw [List.length_map, List.length_map, hQl, hPl] at g4
    rw [List.length_map, hPl]
    have hRA : ∀ r < m, ∀ t < corank F n, ∃ a, at2 Rfree r t 0 = fin a ∧ rd a = fin a ∧ |a| ≤ M ∧
        ∀ i < n, F i = false → corank F i = t → |a - N r i| ≤ ε := by
      intro r hr' t ht
      obtain ⟨i, hi, hFi, rfl⟩ := corank_surj F ht
      obtain ⟨a, a1, a2, a3, a4⟩ := entry_near h hr hn (hM r hr' i hi) (hNle r hr' i hi)
      refine ⟨a, by rw [g3 i hi hFi r hr', a1], a2, a4, fun j hj hFj hc => ?_⟩
      rcases lt_trichotomy i j with hij | rfl | hij
      · exact absurd hc (ne_of_gt (corank_lt F hij hFi))
      · exact a3
      · exact absurd hc (ne_of_lt (corank_lt F hij hFj))
    have hb : ∀ r < m, ∃ a, b.getD r 0 = fin a ∧ rd a = fin a ∧ |Q.getD r 0 - ∑ j ∈ range n, if F j then N r j * P.getD j 0 else 0| ≤ 2 * B ∧
        |a - (Q.getD r 0 - ∑ j ∈ range n, if F j then N r j * P.getD j 0 else 0)| ≤ ε * (2 * B) ∧ |a| ≤ M := by
      intro r hr'
      rw [g4 r hr']
      have e1 : (fun j => (lift1 P).getD j (0 : Ext K)) = fun j => fin (P.getD j 0) := by
        funext j
        exact getD_lift P j
      have e2 : (lift1 Q).getD r (0 : Ext K) = fin (Q.getD r 0) := getD_lift Q r
      rw [e1, e2]
      exact rhs_apx h hr (hM r hr') (hN1 r hr') hP (hQ r hr').1 (hQ r hr').2
    -- the system of numbers
    set A : List (List K) := Rfree.map (List.map Ext.val) with hAdef
    set β : List K := b.map Ext.val with hβdef
    have hAs : Shape A m (corank F n) := by
      refine ⟨by rw [hAdef, List.length_map]; exact g1.1, ?_⟩
      intro row hrow
      obtain ⟨l, hl, rfl⟩ := List.mem_map.1 hrow
      rw [List.length_map]
      exact g1.2 l hl
    have hβl : β.length = m := by rw [hβdef, List.length_map, g2]
    have hAv : ∀ r < m, ∀ t < corank F n, fin (at2 A r t 0) = at2 Rfree r t 0 := by
      intro r hr' t ht
      have k1 : r < Rfree.length := by rw [g1.1]; exact hr'
      have k2 : t < (Rfree[r]).length := by rw [g1.2 _ (List.getElem_mem k1)]; exact ht
      have : at2 A r t 0 = (at2 Rfree r t 0).val := by simp [hAdef, at2, List.getD_eq_getElem?_getD, k1, k2]
      obtain ⟨a, ha, -⟩ := hRA r hr' t ht
      rw [this, ha]
      rfl
    have hβv : ∀ r < m, fin (β.getD r 0) = b.getD r 0 := by
      intro r hr'
      have k1 : r < b.length := by omega
      have : β.getD r 0 = (b.getD r 0).val := by simp [hβdef, List.getD_eq_getElem?_getD, k1]
      obtain ⟨a, ha, -⟩ := hb r hr'
      rw [this, ha]
      rfl
    have hRfree : Rfree = lift2 A := by
      refine shape_ext g1 (shape_lift2 hAs) 0 fun r hr' t ht => ?_
      rw [at2_lift2]
      exact (hAv r hr' t ht).symm
    have hbβ : b = lift1 β := by
      refine List.ext_getElem (by rw [List.length_map, hβl, g2]) fun r k1 k2 => ?_
      have := hβv r (by omega)
      rw [List.getD_eq_getElem?_getD, List.getD_eq_getElem?_getD, List.getElem?_eq_getElem k1,
        List.getElem?_eq_getElem (by rw [List.length_map] at k2; exact k2)] at this
      rw [List.getElem_map]
      exact this.symm
    have hAmem : ∀ row ∈ A, ∀ y ∈ row, rd y = fin y ∧ |y| ≤ M := by
      intro row hrow y hy
      obtain ⟨r, hr1, rfl⟩ := List.getElem_of_mem hrow
      obtain ⟨t, ht1, rfl⟩ := List.getElem_of_mem hy
      have hr' : r < m := by rw [hAs.1] at hr1; exact hr1
      have ht : t < corank F n := by rw [hAs.2 _ hrow] at ht1; exact ht1
      have e : A[r][t] = at2 A r t 0 := by simp [at2, List.getD_eq_getElem?_getD, hr1, ht1]
      obtain ⟨a, a1, a2, a3, -⟩ := hRA r hr' t ht
      have := hAv r hr' t ht
      rw [a1] at this
      rw [e, Ext.fin.inj this]
      exact ⟨a2, a3⟩
    have hβmem : ∀ y ∈ β, rd y = fin y ∧ |y| ≤ M := by
      intro y hy
      obtain ⟨r, hr1, rfl⟩ := List.getElem_of_mem hy
      have hr' : r < m := by omega
      have e : β[r] = β.getD r 0 := by simp [List.getD_eq_getElem?_getD, hr1]
      obtain ⟨a, a1, a2, -, -, a5⟩ := hb r hr'
      have := hβv r hr'
      rw [a1] at this
      rw [e, Ext.fin.inj this]
      exact ⟨a2, a5⟩
    rw [hRfree, hbβ]
    change Returns (patch C ls (corank F n) (A.map (List.map fin)) (β.map fin)) _
    rcases hls (corank F n) A β (by rw [hAs.1, hβl]) hAs.2 hAmem hβmem with he | ⟨x, hx, hxl, hxs⟩
    · unfold patch
      rw [if_pos he]
      refine Returns.ok ⟨by rw [List.length_replicate], List.replicate (corank F n) 0, ?_, by rw [List.length_replicate], ?_⟩
      · show _ = List.map fin _
        rw [List.map_replicate]
        rfl
      · intro x hx
        rw [List.eq_of_mem_replicate hx, abs_zero]
        exact ⟨h0, hX0⟩
    · unfold patch
      rw [if_neg (by rintro ⟨e, -, he⟩; rw [hx] at he; cases he), hx]
      exact Returns.ok ⟨by rw [List.length_map, hxl], x, rfl, hxl, hxs⟩)
  rw [List.length_map, hPl] at X1 X2 X3
  have eP : ∀ i, (lift1 P).getD i (0 : Ext K) = fin (P.getD i 0) := fun i => getD_lift P i
  simp only [eP] at X2
  obtain ⟨z₀, hz0, hy⟩ : ∃ z₀ : List K, (∀ i < n, F i = false → rd (z₀.getD (corank F i) 0) = fin (z₀.getD (corank F i) 0) ∧
      |z₀.getD (corank F i) 0| ≤ X) ∧ ∀ i < n, F i = false → Y.getD i 0 = fin (z₀.getD (corank F i) 0) := by
    rcases X3 with hall | ⟨y, ⟨z₀, rfl, hz0, hz⟩, hy⟩
    · exact ⟨[], fun i hi hFi => absurd (hall i hi) (by rw [show fixed.getD i false = false from hFi]; simp),
        fun i hi hFi => absurd (hall i hi) (by rw [show fixed.getD i false = false from hFi]; simp)⟩
    · refine ⟨z₀, fun i hi hFi => hz _ ?_, fun i hi hFi => (hy i hi hFi).trans (getD_lift z₀ _)⟩
      have hlt : corank F i < z₀.length := by rw [hz0]; exact corank_lt F hi hFi
      rw [List.getD_eq_getElem?_getD, List.getElem?_eq_getElem hlt]
      exact List.getElem_mem hlt
  set z : List K := (List.range n).map fun i => if F i then P.getD i 0 else z₀.getD (corank F i) 0 with hzdef
  have hzg : ∀ i < n, z.getD i 0 = if F i then P.getD i 0 else z₀.getD (corank F i) 0 := by
    intro i hi
    rw [List.getD_eq_getElem?_getD, hzdef, List.getElem?_map, List.getElem?_range hi]
    rfl
  have hzl : z.length = n := by rw [hzdef, List.length_map, List.length_range]
  have hYz : Y = lift1 z := by
    refine List.ext_getElem (by rw [List.length_map, X1, hzl]) fun i k1 k2 => ?_
    have hi : i < n := by omega
    have hiz : i < z.length := by omega
    have e1 : Y.getD i 0 = fin (z.getD i 0) := by
      rw [hzg i hi]
      by_cases hFi : F i = true
      · rw [if_pos hFi]; exact X2 i hi hFi
      · rw [if_neg hFi, hy i hi (Bool.eq_false_of_not_eq_true hFi)]
    rw [List.getD_eq_getElem?_getD, List.getD_eq_getElem?_getD, List.getElem?_eq_getElem k1, List.getElem?_eq_getElem hiz] at e1
    rw [List.getElem_map]
    exact e1
  refine ⟨z, by rw [hY, hYz], hzl, fun i hi hFi => by rw [hzg i hi, if_pos hFi], fun i hi hFi => ?_⟩
  rw [hzg i hi, if_neg (by rw [show F i = false from hFi]; simp)]
  exact hz0 i hi hFi

/-- The three calls of `linear_fit_fixed`. -/
theorem fitColumnsR_finite {ρ η M E B ε X : K} {C : Err → Prop} {k m n w : ℕ} {rd : K → Ext K}
    (h : SolveSizes ρ η M E B ε k n) (hr : IeeeRounding ρ η M rd)
    {ls : ℕ → List (List (Ext K)) → List (Ext K) → Py (List (Ext K))} (hls : TameSolver rd M X C ls) (h0 : rd 0 = fin 0)
    (hX0 : 0 ≤ X) {N : ℕ → ℕ → K} {R : List (List (Ext K))} {data P : List (List K)} {fixed : List Bool}
    (hd : Shape data m w) (hw : 3 ≤ w) (hPs : Shape P n 3) (hn : 0 < n) (hR : Shape R m n) (hf : fixed.length = n)
    (hN1 : ∀ r < m, ∑ i ∈ range n, N r i ≤ 1) (hM : ∀ r < m, ∀ i < n, IsNear rd ρ k E (at2 R r i 0) (N r i))
    (hQ : ∀ y < 3, ∀ r < m, rd (at2 data r y 0) = fin (at2 data r y 0) ∧ |at2 data r y 0| ≤ B)
    (hP : ∀ y < 3, ∀ i < n, fixed.getD i false = true → rd (coord P y i) = fin (coord P y i) ∧ |coord P y i| ≤ B) :
    (∃ e, C e ∧ fitColumnsR rd ls R (lift2 data) (lift2 P) fixed = .error e) ∨
    ∃ new : List (List K), fitColumnsR rd ls R (lift2 data) (lift2 P) fixed = .ok (lift2 new) ∧ Shape new n 3 ∧ ∀ y < 3,
      (∀ i < n, fixed.getD i false = true → coord new y i = coord P y i) ∧
      ∀ i < n, fixed.getD i false = false → rd (coord new y i) = fin (coord new y i) ∧ |coord new y i| ≤ X := by
  have ecol : ∀ (A : List (List K)) (y : ℕ), ((lift2 A).map fun row => row.getD y (0 : Ext K))
      = lift1 (A.map fun row => row.getD y 0) := by
    intro A y
    simp only [List.map_map]
    exact List.map_congr_left fun row _ => getD_lift row y
  have key : ∀ y : ℕ, y < 3 → (∃ e, C e ∧ linearFitFixedR rd ls R ((lift2 data).map fun row => row.getD y 0)
      ((lift2 P).map fun row => row.getD y 0) fixed = .error e) ∨
      ∃ z : List K, linearFitFixedR rd ls R ((lift2 data).map fun row => row.getD y 0)
      ((lift2 P).map fun row => row.getD y 0) fixed = .ok (lift1 z) ∧ z.length = n ∧
      (∀ i < n, fixed.getD i false = true → z.getD i 0 = coord P y i) ∧
      ∀ i < n, fixed.getD i false = false → rd (z.getD i 0) = fin (z.getD i 0) ∧ |z.getD i 0| ≤ X := by
    intro y hy
    have eP : ∀ i, (P.map fun row => row.getD y 0).getD i 0 = coord P y i := fun i => getD_map_row P i y
    have eQ : ∀ i, (data.map fun row => row.getD y 0).getD i 0 = at2 data i y 0 := fun i => getD_map_row data i y
    have := linearFitFixedR_finite h hr hls h0 hX0 (R := R) (Q := data.map fun row => row.getD y 0)
      (P := P.map fun row => row.getD y 0) (fixed := fixed) (by simp [hd.1]) (by simp [hPs.1]) hn hR hf hN1 hM
      (fun r hr => by rw [eQ]; exact hQ y hy r hr) (fun i hi h => by rw [eP]; exact hP y hy i hi h)
    rw [ecol, ecol]
    simp only [eP] at this
    exact this
  have sd := shape_lift2 hd
  have sP := shape_lift2 hPs
  unfold fitColumnsR
  rw [columnE_nat sd 0 0 rfl (by omega), ok_bind, columnE_nat sP 0 0 rfl (by omega), ok_bind,
    columnE_nat sd 1 1 rfl (by omega), columnE_nat sP 1 1 rfl (by omega),
    columnE_nat sd 2 2 rfl (by omega), columnE_nat sP 2 2 rfl (by omega)]
  simp only [ok_bind]
  rcases key 0 (by omega) with ⟨e, he, h1⟩ | ⟨x, x1, x2, x3⟩
  · exact Or.inl ⟨e, he, by rw [h1]; rfl⟩
  rw [x1, ok_bind]
  rcases key 1 (by omega) with ⟨e, he, h1⟩ | ⟨y, y1, y2, y3⟩
  · exact Or.inl ⟨e, he, by rw [h1]; rfl⟩
  rw [y1, ok_bind]
  rcases key 2 (by omega) with ⟨e, he, h1⟩ | ⟨z, z1, z2, z3⟩
  · exact Or.inl ⟨e, he, by rw [h1]; rfl⟩
  rw [z1, ok_bind]
  right
  refine ⟨(List.range x.length).map fun i => [x.getD i 0, y.getD i 0, z.getD i 0], ?_, ⟨by simp [x2], ?_⟩, ?_⟩
  · unfold columnStack3E
    rw [if_pos (by rw [List.length_map, List.length_map, List.length_map]; omega), List.length_map]
    congr 1
    rw [lift2, List.map_map]
    refine List.map_congr_left fun i _ => ?_
    simp only [Function.comp, List.map_cons, List.map_nil]
    exact congrArg₂ _ (getD_lift x i) (congrArg₂ _ (getD_lift y i) (congrArg₂ _ (getD_lift z i) rfl))
  · intro row hr
    obtain ⟨i, -, rfl⟩ := List.mem_map.1 hr
    rfl
  · intro k hk
    have hrow : ∀ i < n, ((List.range x.length).map fun i => [x.getD i 0, y.getD i 0, z.getD i 0]).getD i []
        = [x.getD i 0, y.getD i 0, z.getD i 0] := fun i hi => columnStack3_getD (by omega)
    have e : ∀ k i, i < n → coord ((List.range x.length).map fun i => [x.getD i 0, y.getD i 0, z.getD i 0]) k i
          = [x.getD i 0, y.getD i 0, z.getD i 0].getD k 0 := fun k i hi => by unfold coord; rw [hrow i hi]
    match k, hk with
    | 0, _ => exact ⟨fun i hi h => by rw [e 0 i hi]; exact x3.1 i hi h, fun i hi h => by rw [e 0 i hi]; exact x3.2 i hi h⟩
    | 1, _ => exact ⟨fun i hi h => by rw [e 1 i hi]; exact y3.1 i hi h, fun i hi h => by rw [e 1 i hi]; exact y3.2 i hi h⟩
    | 2, _ => exact ⟨fun i hi h => by rw [e 2 i hi]; exact z3.1 i hi h, fun i hi h => by rw [e 2 i hi]; exact z3.2 i hi h⟩

end

/-- `single_fit_curve` in double precision with a solver that returns numbers or raises. -/
theorem singleFitCurveR_finite {B : ℚ} {C : Err → Prop} {ls : ℕ → List (List (Ext ℚ)) → List (Ext ℚ) → Py (List (Ext ℚ))}
    {c : Curve ℚ} {data : List (List ℚ)} {m n : ℕ} (hls : TameSolver bin64 (2 ^ 1023) B C ls) (hU : Clamped c.degree n c.kv)
    (hp10 : c.degree ≤ 10) (hfirst : knotFn c.kv c.degree < knotFn c.kv (c.degree + 1)) (hP : Shape c.ctrlpts n 3)
    (hd : Shape data m 4) (hrep : ∀ x ∈ c.kv, bin64 x = fin x)
    (hδ : ∀ x ∈ c.kv, ∀ y ∈ c.kv, x < y → 1 / 2 ^ 1000 ≤ y - x)
    (hH : knotFn c.kv (n + c.degree) - knotFn c.kv 0 ≤ 2 ^ 1000)
    (hdom : ∀ r < m, knotFn c.kv c.degree ≤ at2 data r 3 0 ∧ at2 data r 3 0 ≤ knotFn c.kv n)
    (hdata : ∀ k < 4, ∀ r < m, bin64 (at2 data r k 0) = fin (at2 data r k 0))
    (hends : ∀ k < 3, bin64 (coord c.ctrlpts k 0) = fin (coord c.ctrlpts k 0) ∧
      bin64 (coord c.ctrlpts k (n - 1)) = fin (coord c.ctrlpts k (n - 1)))
    (hB : ∀ k < 3, (∀ r < m, |at2 data r k 0| ≤ B) ∧ |coord c.ctrlpts k 0| ≤ B ∧ |coord c.ctrlpts k (n - 1)| ≤ B)
    (hB0 : 1 / 2 ^ 1000 ≤ B) (hMB : 8 * B ≤ 2 ^ 1023) (hsize : 5 * c.degree + n + m ≤ 10 ^ 8) :
    (∃ res, SingleFitCurveR bin64 ls c.lift (lift2 data) res) ∧
      ∀ res, SingleFitCurveR bin64 ls c.lift (lift2 data) res → (∃ e, C e ∧ res = .error e) ∨
        ∃ c' : Curve ℚ, res = .ok c'.lift ∧ c'.degree = c.degree ∧ c'.kv = c.kv ∧ Shape c'.ctrlpts n 3 ∧ ∀ k < 3,
          coord c'.ctrlpts k 0 = coord c.ctrlpts k 0 ∧ coord c'.ctrlpts k (n - 1) = coord c.ctrlpts k (n - 1) ∧
          ∀ i < n, bin64 (coord c'.ctrlpts k i) = fin (coord c'.ctrlpts k i) ∧ |coord c'.ctrlpts k i| ≤ B := by
  have hsz := hU.size
  obtain ⟨L, hL, hLs, hLn⟩ := curve_matrix_binary64 hU hp10 hfirst hP.1 hd hrep (hdata 3 (by omega)) hδ hH
  obtain ⟨f, hf, hfl, hfv⟩ := curveMask_eq (n := n) (by omega)
  have hfix : ∀ i < n, f.getD i false = true ↔ i = 0 ∨ i = n - 1 := fun i hi => by
    rw [hfv i hi, decide_eq_true_iff]; omega
  have f0 : f.getD 0 false = true := (hfix 0 (by omega)).2 (Or.inl rfl)
  have f1 : f.getD (n - 1) false = true := (hfix (n - 1) (by omega)).2 (Or.inr rfl)
  have hsum : ∀ r < m, ∑ i ∈ range n, Nclosed (knotFn c.kv) c.degree n i (at2 data r 3 0) = 1 := fun r hr =>
    sum_Nclosed hU (hdom r hr).1 (hdom r hr).2
  have hsizes : SolveSizes (1 - 1 / 2 ^ 53 : ℚ) (1 / 2 ^ 1075) (2 ^ 1023) (4 * (2 : ℕ) / 2 ^ 55) B 1 (5 * c.degree) n :=
    solveSizes_binary64 (by norm_num; omega) hB0 hMB (by norm_num) (by
      rw [div_le_one (by positivity)]
      have : 5 * c.degree + n + 2 + 2 * n ≤ 2 ^ 52 := by omega
      exact_mod_cast this) le_rfl
  have hcol := fitColumnsR_finite hsizes ieeeRounding_bin64 hls (by rw [bin64_abs_le (by rw [abs_zero]; positivity), fl64s_zero])
    (le_trans (by positivity) hB0) (w := 4) (fixed := f) hd (by omega) hP
    (by omega) hLs hfl (fun r hr => (hsum r hr).le)
    (fun r hr i hi => (hLn r hr i hi).mono ieeeRounding_bin64 le_rfl (by norm_num))
    (fun k hk r hr => ⟨hdata k (by omega) r hr, (hB k hk).1 r hr⟩)
    (fun k hk i hi h => by
      rcases (hfix i hi).1 h with rfl | rfl
      · exact ⟨(hends k hk).1, (hB k hk).2.1⟩
      · exact ⟨(hends k hk).2, (hB k hk).2.2⟩)
  refine ⟨?_, ?_⟩
  · obtain ⟨check, hcheck⟩ := CheckUnityR.exists bin64 L (lift2 data).length
    exact ⟨_, Or.inr ⟨L, check, hL, hcheck, rfl⟩⟩
  · rintro res (⟨e, he, -⟩ | ⟨M', check, hM', hcheck, rfl⟩)
    · rw [hL] at he; cases he
    rw [hL] at hM'
    cases hM'
    rw [List.length_map, hd.1] at hcheck
    obtain rfl := unity_binary64 hLs
      (fun r hr i hi => (hLn r hr i hi).mono ieeeRounding_bin64 le_rfl (by norm_num)) hsum hsize check hcheck
    have hlen : c.lift.ctrlpts.length = n := by
      show (lift2 c.ctrlpts).length = n
      rw [List.length_map]; exact hP.1
    rw [ok_bind, hlen, hf, ok_bind]
    change (∃ e, C e ∧ (fitColumnsR bin64 ls L (lift2 data) (lift2 c.ctrlpts) f >>= _) = .error e) ∨
      ∃ c' : Curve ℚ, (fitColumnsR bin64 ls L (lift2 data) (lift2 c.ctrlpts) f >>= _) = .ok c'.lift ∧ _
    rcases hcol with ⟨e, he, hcol⟩ | ⟨new, hnew, hs, hk⟩
    · exact Or.inl ⟨e, he, by rw [hcol]; rfl⟩
    right
    rw [hnew, ok_bind]
    refine ⟨{ c with ctrlpts := new }, rfl, rfl, rfl, hs, fun k hk3 =>
        ⟨(hk k hk3).1 0 (by omega) f0, (hk k hk3).1 (n - 1) (by omega) f1, fun i hi => ?_⟩⟩
    dsimp only
    by_cases hfi : f.getD i false = true
    · rw [(hk k hk3).1 i hi hfi]
      rcases (hfix i hi).1 hfi with rfl | rfl
      · exact ⟨(hends k hk3).1, (hB k hk3).2.1⟩
      · exact ⟨(hends k hk3).2, (hB k hk3).2.2⟩
    · exact (hk k hk3).2 i hi (Bool.eq_false_of_not_eq_true hfi)

end PySpline
