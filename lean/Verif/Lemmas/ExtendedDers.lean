import Verif.Lemmas.ExtendedPoints

/-!
# `basis_function_ders` and the derivatives of surfaces on an empty span
-/

set_option linter.unusedSectionVars false

namespace PySpline

open Ext Spec

section
variable {K : Type} [Field K] [LinearOrder K] [IsStrictOrderedRing K]

theorem shape_ones2E (n m : ℕ) : Shape (ones2E n m : List (List (Ext K))) n m := by
  unfold ones2E
  exact ⟨by simp, fun row h => by rw [List.eq_of_mem_replicate h]; simp⟩

theorem shape_zeros2E (n m : ℕ) : Shape (zeros2E n m : List (List (Ext K))) n m := by
  unfold zeros2E
  exact ⟨by simp, fun row h => by rw [List.eq_of_mem_replicate h]; simp⟩

/-- What is known of the triangle: the entries above the diagonal from column one on have the
property `Q`, and the difference of the knots of the span is in place. -/
structure NduBad (Q : Ext K → Prop) (p : ℕ) (w : Ext K) (ndu : List (List (Ext K))) : Prop where
  shape : Shape ndu (p + 1) (p + 1)
  knots : at2 ndu 1 0 0 = w
  bad : ∀ j, 1 ≤ j → j ≤ p → ∀ r ≤ j, Q (at2 ndu r j 0)

theorem nduTableE_absorb {Q : Ext K → Prop} (hQ : Absorbing Q) (U : List (Ext K)) (k p : ℕ) (u : Ext K)
    (hp1 : 1 ≤ p) (hp : p ≤ k) (hk : k + p < U.length)
    (h0 : Q (0 + (U.getD (k + 1) 0 - u) * (1 / (U.getD (k + 1) 0 - u + (u - U.getD k 0)))))
    (h1 : Q ((u - U.getD k 0) * (1 / (U.getD (k + 1) 0 - u + (u - U.getD k 0))))) :
    Returns (nduTableE (k : ℤ) u p U) (NduBad Q p (U.getD (k + 1) 0 - u + (u - U.getD k 0))) := by
  unfold nduTableE
  dsimp only
  obtain ⟨ndu0, e0, s0, a0⟩ := set2_nat (shape_ones2E (K := K) (p + 1) (p + 1)) 0 0 0 0 (1 : Ext K) 0 rfl rfl
    (by omega) (by omega)
  rw [e0, ok_bind]
  refine Returns.bind (P := fun st => NduBad Q p (U.getD (k + 1) 0 - u + (u - U.getD k 0)) st.1) ?_
    fun st hst => Returns.ok hst
  refine (Returns.forN (fun j (st : List (List (Ext K)) × List (Ext K) × List (Ext K)) =>
      Shape st.1 (p + 1) (p + 1) ∧ st.2.1.length = p + 1 ∧ st.2.2.length = p + 1 ∧
      (∀ i, 1 ≤ i → i < j → st.2.1.getD i 0 = u - U.getD (k + 1 - i) 0) ∧
      (∀ i, 1 ≤ i → i < j → st.2.2.getD i 0 = U.getD (k + i) 0 - u) ∧
      (2 ≤ j → at2 st.1 1 0 0 = U.getD (k + 1) 0 - u + (u - U.getD k 0)) ∧
      (j = 1 → at2 st.1 0 0 0 = 1) ∧
      (∀ c, 1 ≤ c → c < j → ∀ r ≤ c, Q (at2 st.1 r c 0))) (by omega) ?_ ?_).mono
      fun st hst => ⟨hst.1, hst.2.2.2.2.2.1 (by omega), fun j hj1 hj2 => hst.2.2.2.2.2.2.2 j hj1 (by omega)⟩
  · refine ⟨s0, by simp, by simp, by omega, by omega, by omega, fun _ => ?_, by omega⟩
    rw [a0, if_pos ⟨rfl, rfl⟩]
  · rintro j ⟨ndu, left, right⟩ hj1 hjp ⟨hN, hl, hr, hleft, hright, hw, hbase, hall⟩
    dsimp only at *
    rw [pyGet_nat U _ (k + 1 - j) 0 (by omega) (by omega), ok_bind,
      pySet_nat left _ j _ rfl (by omega), ok_bind,
      pyGet_nat U _ (k + j) 0 (by omega) (by omega), ok_bind,
      pySet_nat right _ j _ rfl (by omega), ok_bind]
    set left' := left.set j (u - U.getD (k + 1 - j) 0) with hleft'
    set right' := right.set j (U.getD (k + j) 0 - u) with hright'
    have hL : ∀ i, 1 ≤ i → i < j + 1 → left'.getD i 0 = u - U.getD (k + 1 - i) 0 := by
      intro i hi1 hi2
      rw [hleft', getD_set _ _ _ _ _ (by omega)]
      by_cases e : i = j
      · rw [if_pos e, e]
      · rw [if_neg e, hleft i hi1 (by omega)]
    have hR : ∀ i, 1 ≤ i → i < j + 1 → right'.getD i 0 = U.getD (k + i) 0 - u := by
      intro i hi1 hi2
      rw [hright', getD_set _ _ _ _ _ (by omega)]
      by_cases e : i = j
      · rw [if_pos e, e]
      · rw [if_neg e, hright i hi1 (by omega)]
    have hl' : left'.length = p + 1 := by rw [hleft', List.length_set, hl]
    have hr' : right'.length = p + 1 := by rw [hright', List.length_set, hr]
    refine Returns.bind (P := fun st : List (List (Ext K)) × Ext K => Shape st.1 (p + 1) (p + 1) ∧
      at2 st.1 1 0 0 = U.getD (k + 1) 0 - u + (u - U.getD k 0) ∧
      (∀ c, 1 ≤ c → c < j → ∀ r ≤ c, Q (at2 st.1 r c 0)) ∧ (∀ r < j, Q (at2 st.1 r j 0)) ∧ Q st.2) ?_ ?_
    · refine (Returns.forN (fun r (st : List (List (Ext K)) × Ext K) => Shape st.1 (p + 1) (p + 1) ∧
          ((1 < j ∨ 0 < r) → at2 st.1 1 0 0 = U.getD (k + 1) 0 - u + (u - U.getD k 0)) ∧
          (∀ c, 1 ≤ c → c < j → ∀ r ≤ c, Q (at2 st.1 r c 0)) ∧ (∀ i < r, Q (at2 st.1 i j 0)) ∧
          (0 < r → Q st.2) ∧ (r = 0 → st.2 = 0) ∧ (j = 1 → r = 0 → at2 st.1 0 0 0 = 1)) (by omega) ?_ ?_).mono
          fun st hst => ⟨hst.1, hst.2.1 (by omega), hst.2.2.1, hst.2.2.2.1, hst.2.2.2.2.1 (by omega)⟩
      · exact ⟨hN, fun h => hw (by omega), hall, by omega, by omega, fun _ => rfl, fun e _ => hbase e⟩
      · rintro r ⟨M, saved⟩ - hrj ⟨hM, hMw, hMall, hq, hs, hs0, hMbase⟩
        dsimp only at *
        rw [pyGet_nat right' _ (r + 1) 0 (by omega) (by omega), ok_bind,
          pyGet_nat left' _ (j - r) 0 (by omega) (by omega), ok_bind]
        obtain ⟨M1, e1, s1, a1⟩ := set2_nat hM (j : ℤ) (r : ℤ) j r
          (right'.getD (r + 1) 0 + left'.getD (j - r) 0) 0 rfl rfl (by omega) (by omega)
        rw [e1, ok_bind, get2_nat s1 _ _ r (j - 1) 0 rfl (by omega) (by omega) (by omega), ok_bind,
          get2_nat s1 _ _ j r 0 rfl rfl (by omega) (by omega), ok_bind]
        unfold divE
        rw [ok_bind]
        have key : Q (saved + right'.getD (r + 1) 0 * (at2 M1 r (j - 1) 0 / at2 M1 j r 0)) ∧
            Q (left'.getD (j - r) 0 * (at2 M1 r (j - 1) 0 / at2 M1 j r 0)) := by
          rw [a1, a1, if_neg (by omega), if_pos ⟨rfl, rfl⟩]
          by_cases hj : j = 1
          · subst hj
            have hr0 : r = 0 := by omega
            subst hr0
            rw [hs0 rfl, hMbase rfl rfl, hR 1 le_rfl (by omega), hL 1 le_rfl (by omega)]
            exact ⟨h0, h1⟩
          · have hqr : Q (at2 M r (j - 1) 0) := hMall (j - 1) (by omega) (by omega) r (by omega)
            exact ⟨hQ.add_right _ _ (hQ.mul_right _ _ (hQ.div _ _ hqr)),
              hQ.mul_right _ _ (hQ.div _ _ hqr)⟩
        obtain ⟨M2, e2, s2, a2⟩ := set2_nat s1 (r : ℤ) (j : ℤ) r j
          (saved + right'.getD (r + 1) 0 * (at2 M1 r (j - 1) 0 / at2 M1 j r 0)) 0 rfl rfl (by omega) (by omega)
        rw [e2, ok_bind]
        refine Returns.ok ⟨s2, fun _ => ?_, fun c hc1 hc2 i hi => ?_, fun i hi => ?_, fun _ => key.2, by omega,
          by omega⟩
        · show at2 M2 1 0 0 = _
          rw [a2, if_neg (by omega), a1]
          by_cases hj : j = 1
          · subst hj
            have hr0 : r = 0 := by omega
            subst hr0
            rw [if_pos ⟨rfl, rfl⟩, hR 1 le_rfl (by omega), hL 1 le_rfl (by omega)]
            rfl
          · rw [if_neg (by omega), hMw (Or.inl (by omega))]
        · show Q (at2 M2 i c 0)
          rw [a2, if_neg (by omega), a1, if_neg (by omega)]
          exact hMall c hc1 hc2 i hi
        · show Q (at2 M2 i j 0)
          rw [a2]
          by_cases e : i = r
          · rw [if_pos ⟨e, rfl⟩]
            exact key.1
          · rw [if_neg (by omega), a1, if_neg (by omega)]
            exact hq i (by omega)
    · rintro ⟨M, saved⟩ ⟨hM, hMw, hMall, hq, hs⟩
      dsimp only at *
      obtain ⟨M2, e2, s2, a2⟩ := set2_nat hM (j : ℤ) (j : ℤ) j j saved 0 rfl rfl (by omega) (by omega)
      rw [e2, ok_bind]
      refine Returns.ok ⟨s2, hl', hr', hL, hR, fun _ => ?_, by omega, fun c hc1 hc2 i hi => ?_⟩
      · show at2 M2 1 0 0 = _
        rw [a2, if_neg (by omega), hMw]
      · show Q (at2 M2 i c 0)
        rw [a2]
        by_cases e : i = j ∧ c = j
        · rw [if_pos e]
          exact hs
        · rw [if_neg e]
          by_cases hc : c = j
          · subst hc
            exact hq i (by omega)
          · exact hMall c hc1 (by omega) i hi

/-- Every term that is added to a derivative has the property `Q`. -/
theorem NduBad.term {Q : Ext K → Prop} (hQ : Absorbing Q) {p : ℕ} {w : Ext K} {ndu : List (List (Ext K))}
    (h : NduBad Q p w ndu) (hw : ∀ x, Q (x / w)) {pk c : ℕ} (hpk : pk + 1 ≤ p) (hc : c ≤ pk) (x : Ext K) :
    Q (x / at2 ndu (pk + 1) c 0 * at2 ndu c pk 0) := by
  rcases Nat.eq_zero_or_pos pk with rfl | h1
  · obtain rfl : c = 0 := by omega
    rw [h.knots]
    exact hQ.mul_left _ _ (hw x)
  · exact hQ.mul_right _ _ (h.bad pk h1 (by omega) c hc)

theorem dersStepE_absorb {Q : Ext K → Prop} (hQ : Absorbing Q) {p order : ℕ} {w : Ext K}
    {ndu : List (List (Ext K))} (h : NduBad Q p w ndu) (hw : ∀ x, Q (x / w)) {r k : ℕ} (hr : r ≤ p)
    (hk1 : 1 ≤ k) (hk2 : k ≤ order) (ho : order ≤ p) {a ders : List (List (Ext K))} {s1 s2 : ℤ}
    (ha : Shape a 2 (p + 1)) (hd : Shape ders (p + 1) (order + 1)) (hs1 : s1 = 0 ∨ s1 = 1)
    (hs2 : s2 = 1 - s1) :
    Returns (dersStepE p ndu r k (a, s1, s2, ders)) fun st => Shape st.1 2 (p + 1) ∧ st.2.1 = s2 ∧
      st.2.2.1 = s1 ∧ Shape st.2.2.2 (p + 1) (order + 1) ∧ Q (at2 st.2.2.2 r k 0) ∧
      ∀ i j, ¬ (i = r ∧ j = k) → at2 st.2.2.2 i j 0 = at2 ders i j 0 := by
  obtain ⟨pk, hpk⟩ : ∃ pk, p = pk + k := ⟨p - k, by omega⟩
  obtain ⟨t1, ht1, ht1'⟩ : ∃ t1 : ℕ, s1 = t1 ∧ t1 < 2 := by
    rcases hs1 with e | e
    · exact ⟨0, by omega, by omega⟩
    · exact ⟨1, by omega, by omega⟩
  obtain ⟨t2, ht2, ht2'⟩ : ∃ t2 : ℕ, s2 = t2 ∧ t2 < 2 := by
    rcases hs1 with e | e
    · exact ⟨1, by omega, by omega⟩
    · exact ⟨0, by omega, by omega⟩
  have hne : t1 ≠ t2 := by omega
  have term := fun c (hc : c ≤ pk) x => h.term hQ hw (pk := pk) (c := c) (by omega) hc x
  unfold dersStepE
  dsimp only
  refine Returns.bind (P := fun st : List (List (Ext K)) × Ext K => Shape st.1 2 (p + 1) ∧ (k ≤ r → Q st.2)) ?_ ?_
  · split_ifs with hrk
    · rw [get2_nat ha s1 0 t1 0 0 ht1 rfl ht1' (by omega), ok_bind,
        get2_nat h.shape _ _ (pk + 1) (r - k) 0 (by omega) (by omega) (by omega) (by omega), ok_bind]
      unfold divE
      rw [ok_bind]
      obtain ⟨a', e', sh', at'⟩ := set2_nat ha s2 0 t2 0 (at2 a t1 0 0 / at2 ndu (pk + 1) (r - k) 0) 0 ht2 rfl ht2'
        (by omega)
      rw [e', ok_bind, get2_nat sh' s2 0 t2 0 0 ht2 rfl ht2' (by omega), ok_bind,
        get2_nat h.shape _ _ (r - k) pk 0 (by omega) (by omega) (by omega) (by omega), ok_bind]
      refine Returns.ok ⟨sh', fun _ => ?_⟩
      show Q (at2 a' t2 0 0 * _)
      rw [at', if_pos ⟨rfl, rfl⟩]
      exact term _ (by omega) _
    · exact Returns.ok ⟨ha, fun h' => absurd h' hrk⟩
  rintro ⟨a1, d1⟩ ⟨ha1, hd1⟩
  dsimp only at *
  set j1 : ℤ := if (r : ℤ) - k ≥ -1 then 1 else -((r : ℤ) - k) with hj1
  set j2 : ℤ := if (r : ℤ) - 1 ≤ (p : ℤ) - k then (k : ℤ) - 1 else (p : ℤ) - r with hj2
  have b1 : 1 ≤ j1 ∧ (k : ℤ) - r ≤ j1 := by
    rw [hj1]
    split_ifs <;> omega
  have b2 : j2 ≤ (k : ℤ) - 1 ∧ j2 ≤ (p : ℤ) - r := by
    rw [hj2]
    split_ifs <;> omega
  refine Returns.bind (P := fun st : List (List (Ext K)) × Ext K => Shape st.1 2 (p + 1) ∧
      (k ≤ r ∨ j1 ≤ j2 → Q st.2)) ?_ ?_
  · by_cases hj : j1 ≤ j2 + 1
    · refine (Returns.forZ (fun i (st : List (List (Ext K)) × Ext K) => Shape st.1 2 (p + 1) ∧
        (k ≤ r ∨ j1 < i → Q st.2)) hj ⟨ha1, fun h' => hd1 (by omega)⟩ ?_).mono
        fun st hst => ⟨hst.1, fun h' => hst.2 (by omega)⟩
      rintro j ⟨a2, d2⟩ hja hjb ⟨ha2, -⟩
      dsimp only at *
      obtain ⟨jn, rfl⟩ : ∃ jn : ℕ, j = jn := ⟨j.toNat, by omega⟩
      obtain ⟨c, hc⟩ : ∃ c : ℕ, (r : ℤ) - k + jn = c := ⟨((r : ℤ) - k + jn).toNat, by omega⟩
      rw [get2_nat ha2 s1 _ t1 jn 0 ht1 rfl ht1' (by omega), ok_bind,
        get2_nat ha2 s1 _ t1 (jn - 1) 0 ht1 (by omega) ht1' (by omega), ok_bind,
        get2_nat h.shape _ _ (pk + 1) c 0 (by omega) (by omega) (by omega) (by omega), ok_bind]
      unfold divE
      rw [ok_bind]
      obtain ⟨a', e', sh', at'⟩ := set2_nat ha2 s2 jn t2 jn
        ((at2 a2 t1 jn 0 - at2 a2 t1 (jn - 1) 0) / at2 ndu (pk + 1) c 0) 0 ht2 rfl ht2' (by omega)
      rw [e', ok_bind, get2_nat sh' s2 jn t2 jn 0 ht2 rfl ht2' (by omega), ok_bind,
        get2_nat h.shape _ _ c pk 0 (by omega) (by omega) (by omega) (by omega), ok_bind]
      refine Returns.ok ⟨sh', fun _ => ?_⟩
      show Q (d2 + at2 a' t2 jn 0 * _)
      rw [at', if_pos ⟨rfl, rfl⟩]
      exact hQ.add_right _ _ (term _ (by omega) _)
    · rw [forZ_empty (by omega)]
      exact Returns.ok ⟨ha1, fun h' => hd1 (by omega)⟩
  rintro ⟨a3, d3⟩ ⟨ha3, hd3⟩
  dsimp only at *
  refine Returns.bind (P := fun st : List (List (Ext K)) × Ext K => Shape st.1 2 (p + 1) ∧ Q st.2) ?_ ?_
  · split_ifs with hrp
    · rw [get2_nat ha3 s1 _ t1 (k - 1) 0 ht1 (by omega) ht1' (by omega), ok_bind,
        get2_nat h.shape _ _ (pk + 1) r 0 (by omega) (by omega) (by omega) (by omega), ok_bind]
      unfold divE
      rw [ok_bind]
      obtain ⟨a', e', sh', at'⟩ := set2_nat ha3 s2 k t2 k (-at2 a3 t1 (k - 1) 0 / at2 ndu (pk + 1) r 0) 0 ht2 rfl
        ht2' (by omega)
      rw [e', ok_bind, get2_nat sh' s2 k t2 k 0 ht2 rfl ht2' (by omega), ok_bind,
        get2_nat h.shape _ _ r pk 0 (by omega) (by omega) (by omega) (by omega), ok_bind]
      refine Returns.ok ⟨sh', ?_⟩
      show Q (d3 + at2 a' t2 k 0 * _)
      rw [at', if_pos ⟨rfl, rfl⟩]
      exact hQ.add_right _ _ (term _ (by omega) _)
    · refine Returns.ok ⟨ha3, hd3 ?_⟩
      by_cases hkr : k ≤ r
      · exact Or.inl hkr
      · refine Or.inr ?_
        rw [hj1, hj2]
        split_ifs <;> omega
  rintro ⟨a4, d4⟩ ⟨ha4, hd4⟩
  dsimp only at *
  obtain ⟨D, e', sh', at'⟩ := set2_nat hd r k r k d4 0 rfl rfl (by omega) (by omega)
  rw [e', ok_bind]
  refine Returns.ok ⟨ha4, rfl, rfl, sh', ?_, fun i j hij => ?_⟩
  · show Q (at2 D r k 0)
    rw [at', if_pos ⟨rfl, rfl⟩]
    exact hd4
  · show at2 D i j 0 = _
    rw [at', if_neg hij]

theorem basisFunctionDersE_absorb {Q : Ext K → Prop} (hQ : Absorbing Q) (U : List (Ext K)) (k p order : ℕ)
    (u : Ext K) (hp1 : 1 ≤ p) (hp : p ≤ k) (hk : k + p < U.length) (ho : order ≤ p)
    (h0 : Q (0 + (U.getD (k + 1) 0 - u) * (1 / (U.getD (k + 1) 0 - u + (u - U.getD k 0)))))
    (h1 : Q ((u - U.getD k 0) * (1 / (U.getD (k + 1) 0 - u + (u - U.getD k 0)))))
    (hw : ∀ x, Q (x / (U.getD (k + 1) 0 - u + (u - U.getD k 0)))) :
    ∃ D, basisFunctionDersE (k : ℤ) u p U order = .ok D ∧ Shape D (p + 1) (order + 1) ∧
      ∀ r ≤ p, ∀ m ≤ order, Q (at2 D r m 0) := by
  suffices H : Returns (basisFunctionDersE (k : ℤ) u p U order) (fun D => Shape D (p + 1) (order + 1) ∧
      ∀ r ≤ p, ∀ m ≤ order, Q (at2 D r m 0)) from H
  unfold basisFunctionDersE
  dsimp only
  refine Returns.bind (nduTableE_absorb hQ U k p u hp1 hp hk h0 h1) fun ndu hn => ?_
  refine Returns.bind (P := fun D : List (List (Ext K)) => Shape D (p + 1) (order + 1) ∧
    ∀ r ≤ p, Q (at2 D r 0 0)) ?_ ?_
  · refine (Returns.forN (fun j (D : List (List (Ext K))) => Shape D (p + 1) (order + 1) ∧
      ∀ r < j, Q (at2 D r 0 0)) (by omega) ⟨shape_zeros2E _ _, by omega⟩ ?_).mono
      fun D hD => ⟨hD.1, fun r hr => hD.2 r (by omega)⟩
    rintro j D - hj ⟨hD, hq⟩
    rw [get2_nat hn.shape _ _ j p 0 rfl rfl (by omega) (by omega), ok_bind]
    obtain ⟨D', e', sh', at'⟩ := set2_nat hD j 0 j 0 (at2 ndu j p 0) 0 rfl rfl (by omega) (by omega)
    rw [e']
    refine Returns.ok ⟨sh', fun r hr => ?_⟩
    rw [at']
    by_cases e : r = j
    · rw [if_pos ⟨e, rfl⟩]
      exact hn.bad p hp1 le_rfl j (by omega)
    · rw [if_neg (by omega)]
      exact hq r (by omega)
  rintro D ⟨hD, hD0⟩
  refine Returns.bind (P := fun st : List (List (Ext K)) × List (List (Ext K)) =>
    Shape st.2 (p + 1) (order + 1) ∧ ∀ r ≤ p, ∀ m ≤ order, Q (at2 st.2 r m 0)) ?_ ?_
  · refine (Returns.forN (fun r (st : List (List (Ext K)) × List (List (Ext K))) => Shape st.1 2 (p + 1) ∧
      Shape st.2 (p + 1) (order + 1) ∧ (∀ i ≤ p, Q (at2 st.2 i 0 0)) ∧
      ∀ i < r, ∀ m ≤ order, Q (at2 st.2 i m 0)) (by omega) ⟨shape_ones2E _ _, hD, hD0, by omega⟩ ?_).mono
      fun st hst => ⟨hst.2.1, fun r hr => hst.2.2.2 r (by omega)⟩
    rintro r ⟨a, E⟩ - hr ⟨ha, hE, hE0, hq⟩
    dsimp only at *
    obtain ⟨a', e', sh', -⟩ := set2_nat ha 0 0 0 0 (1 : Ext K) 0 rfl rfl (by omega) (by omega)
    rw [e', ok_bind]
    refine Returns.bind (P := fun st : List (List (Ext K)) × ℤ × ℤ × List (List (Ext K)) => Shape st.1 2 (p + 1) ∧
      Shape st.2.2.2 (p + 1) (order + 1) ∧ (∀ i ≤ p, Q (at2 st.2.2.2 i 0 0)) ∧
      ∀ i < r + 1, ∀ m ≤ order, Q (at2 st.2.2.2 i m 0)) ?_ ?_
    · refine (Returns.forN (fun m (st : List (List (Ext K)) × ℤ × ℤ × List (List (Ext K))) =>
        Shape st.1 2 (p + 1) ∧ (st.2.1 = 0 ∨ st.2.1 = 1) ∧ st.2.2.1 = 1 - st.2.1 ∧
        Shape st.2.2.2 (p + 1) (order + 1) ∧ (∀ i ≤ p, Q (at2 st.2.2.2 i 0 0)) ∧
        (∀ i < r, ∀ m ≤ order, Q (at2 st.2.2.2 i m 0)) ∧ ∀ j < m, Q (at2 st.2.2.2 r j 0)) (by omega) ?_ ?_).mono ?_
      · refine ⟨sh', Or.inl rfl, rfl, hE, hE0, hq, fun j hj => ?_⟩
        obtain rfl : j = 0 := by omega
        exact hE0 r (by omega)
      · rintro m ⟨b, s1, s2, F⟩ hm1 hm2 ⟨hb, hs1, hs2, hF, hF0, hF1, hF2⟩
        dsimp only at *
        refine (dersStepE_absorb hQ hn hw (by omega) hm1 (by omega) ho hb hF hs1 hs2).mono ?_
        rintro ⟨b', t1, t2, G⟩ ⟨hb', ht1, ht2, hG, hGq, hGr⟩
        dsimp only at *
        refine ⟨hb', by omega, by omega, hG, fun i hi => ?_, fun i hi m' hm' => ?_, fun j hj => ?_⟩
        · rw [hGr i 0 (by omega)]
          exact hF0 i hi
        · rw [hGr i m' (by omega)]
          exact hF1 i hi m' hm'
        · by_cases e : j = m
          · rw [e]
            exact hGq
          · rw [hGr r j (by omega)]
            exact hF2 j (by omega)
      · rintro ⟨b, s1, s2, F⟩ ⟨hb, -, -, hF, hF0, hF1, hF2⟩
        refine ⟨hb, hF, hF0, fun i hi m hm => ?_⟩
        by_cases e : i = r
        · rw [e]
          exact hF2 m (by omega)
        · exact hF1 i (by omega) m hm
    · rintro ⟨b, s1, s2, F⟩ ⟨hb, hF, hF0, hF1⟩
      exact Returns.ok ⟨hb, hF, hF0, hF1⟩
  rintro ⟨a, E⟩ ⟨hE, hEq⟩
  dsimp only at *
  refine Returns.bind (P := fun st : List (List (Ext K)) × Ext K => Shape st.1 (p + 1) (order + 1) ∧
    ∀ r ≤ p, ∀ m ≤ order, Q (at2 st.1 r m 0)) ?_ fun st hst => Returns.ok hst
  refine Returns.forN (fun _ (st : List (List (Ext K)) × Ext K) => Shape st.1 (p + 1) (order + 1) ∧
    ∀ r ≤ p, ∀ m ≤ order, Q (at2 st.1 r m 0)) (by omega) ⟨hE, hEq⟩ ?_
  rintro m ⟨F, t⟩ hm1 hm2 ⟨hF, hFq⟩
  dsimp only at *
  refine Returns.bind (P := fun F : List (List (Ext K)) => Shape F (p + 1) (order + 1) ∧
    ∀ r ≤ p, ∀ m ≤ order, Q (at2 F r m 0)) ?_ fun F hF => Returns.ok hF
  refine Returns.forN (fun _ (F : List (List (Ext K))) => Shape F (p + 1) (order + 1) ∧
    ∀ r ≤ p, ∀ m ≤ order, Q (at2 F r m 0)) (by omega) ⟨hF, hFq⟩ ?_
  rintro j G - hj ⟨hG, hGq⟩
  rw [get2_nat hG _ _ j m 0 rfl rfl (by omega) (by omega), ok_bind]
  obtain ⟨G', e', sh', at'⟩ := set2_nat hG j m j m (at2 G j m 0 * t) 0 rfl rfl (by omega) (by omega)
  rw [e']
  refine Returns.ok ⟨sh', fun r hr m' hm' => ?_⟩
  rw [at']
  by_cases e : r = j ∧ m' = m
  · rw [if_pos e]
    exact hQ.mul_left _ _ (hGq j (by omega) m (by omega))
  · rw [if_neg e]
    exact hGq r hr m' hm'

theorem columnE_shape {Q : Ext K → Prop} {n c : ℕ} :
    ∀ {D : List (List (Ext K))} (_ : Shape D n c) {m : ℕ} (_ : m < c) (mi : ℤ) (_ : mi = m)
      (_ : ∀ r < n, Q (at2 D r m 0)),
      ∃ col, columnE D mi = .ok col ∧ col.length = n ∧ ∀ x ∈ col, Q x := by
  unfold columnE
  induction n with
  | zero =>
    intro D hD m _ mi _ _
    rw [List.eq_nil_of_length_eq_zero hD.1]
    exact ⟨[], rfl, rfl, by simp⟩
  | succ n ih =>
    intro D hD m hm mi hmi hq
    obtain ⟨row, D', rfl⟩ := List.exists_cons_of_ne_nil (l := D) (by rintro rfl; have := hD.1; simp at this)
    obtain ⟨col, e, hl, hx⟩ := ih (D := D') ⟨by have := hD.1; simpa using this,
      fun r hr => hD.2 r (List.mem_cons_of_mem _ hr)⟩ hm mi hmi fun r hr => hq (r + 1) (by omega)
    refine ⟨row.getD m 0 :: col, ?_, by simp [hl], ?_⟩
    · unfold mapPy
      rw [pyGet_nat row mi m 0 hmi (by rw [hD.2 row (by simp)]; exact hm), ok_bind, e]
      rfl
    · intro x hx'
      rcases List.mem_cons.1 hx' with rfl | h'
      · exact hq 0 (by omega)
      · exact hx x h'

theorem normalizeRowE_absorb {Q : Ext K → Prop} (hQ : Absorbing Q) (norm : List K → K) (b first : Bool)
    {x y z : Ext K} (hx : Q x) (hy : Q y) (hz : Q z) :
    ∃ x' y' z', normalizeRowE norm b first [x, y, z] = .ok [x', y', z'] ∧ Q x' ∧ Q y' ∧ Q z' := by
  unfold normalizeRowE
  split_ifs
  · exact ⟨_, _, _, rfl, hQ.div _ _ hx, hQ.div _ _ hy, hQ.div _ _ hz⟩
  · exact ⟨_, _, _, rfl, hx, hy, hz⟩

theorem assignRowE_eq {m : List (List (Ext K))} {r c : ℕ} (h : Shape m r c) (i : ℤ) (a : ℕ) (v : List (Ext K))
    (hi : i = a) (ha : a < r) (hv : v.length = c) :
    assignRowE m i v = .ok (m.set a v) ∧ Shape (m.set a v) r c := by
  have ha' : a < m.length := by rw [h.1]; exact ha
  refine ⟨?_, by rw [List.length_set]; exact h.1, fun row hrow => ?_⟩
  · unfold assignRowE
    rw [pyGet_nat m i a [] hi ha', ok_bind, h.row ha, if_pos hv, pySet_nat m i a v hi ha']
  · rcases List.mem_or_eq_of_mem_set hrow with h1 | h1
    · exact h.2 _ h1
    · rw [h1]; exact hv

/-- Derivatives of a surface when all basis functions of one direction and their derivatives have an
absorbing property. -/
theorem surfaceDerivativesE_absorb {Q : Ext K → Prop} (hQ : Absorbing Q) (norm : List K → K) {s : Surface K}
    (hs : SurfaceOk s) {u v : K} {m k : ℕ} (hu : 0 ≤ u ∧ u ≤ 1) (hv : 0 ≤ v ∧ v ≤ 1)
    (hm : findSpanE s.numU s.degreeU (fin u) (s.kvU.map fin) = .ok (m : ℤ)) (hm1 : s.degreeU ≤ m)
    (hm2 : m < s.numU)
    (hk : findSpanE s.numV s.degreeV (fin v) (s.kvV.map fin) = .ok (k : ℤ)) (hk1 : s.degreeV ≤ k)
    (hk2 : k < s.numV) (orderU orderV : ℕ) (normalize : Bool) {M N : List (List (Ext K))}
    (hM : basisFunctionDersE (m : ℤ) (fin u) s.degreeU (s.kvU.map fin) (min orderU s.degreeU) = .ok M)
    (hMs : Shape M (s.degreeU + 1) (min orderU s.degreeU + 1))
    (hN : basisFunctionDersE (k : ℤ) (fin v) s.degreeV (s.kvV.map fin) (min orderV s.degreeV) = .ok N)
    (hNs : Shape N (s.degreeV + 1) (min orderV s.degreeV + 1))
    (hq : (∀ r ≤ s.degreeU, ∀ c ≤ min orderU s.degreeU, Q (at2 M r c 0)) ∨
      ∀ r ≤ s.degreeV, ∀ c ≤ min orderV s.degreeV, Q (at2 N r c 0)) :
    ∃ D, s.lift.derivativesE norm (fin u) (fin v) orderU orderV normalize = .ok D ∧
      Shape D ((min orderU s.degreeU + 1) * (min orderV s.degreeV + 1)) 3 ∧ ∀ row ∈ D, ∀ x ∈ row, Q x := by
  unfold Surface.derivativesE
  rw [if_neg (validateKnotE_fin hu), if_neg (validateKnotE_fin hv)]
  dsimp only [Surface.lift]
  rw [hm, ok_bind, hk, ok_bind, hM, ok_bind, hN, ok_bind]
  have col : ∀ (c : ℕ) (ci : ℤ), ci = c → c < 3 →
      columnE (lift2 s.ctrlpts) ci = .ok (lift1 ((List.range (s.numU * s.numV)).map (coord s.ctrlpts c))) :=
    fun c ci h1 h2 => (columnE_follows _ ci).value (column_all hs.shape ci c h1 h2)
  have rs : ∀ c, reshape2E (lift1 ((List.range (s.numU * s.numV)).map (coord s.ctrlpts c))) s.numU s.numV
      = .ok (lift2 ((List.range s.numU).map fun i => (List.range s.numV).map fun j =>
        coord s.ctrlpts c (i * s.numV + j))) := fun c =>
    (reshape2E_follows _ _ _).value (reshape2_map_range _ _ _)
  have hsl : ∀ c, slice2E (lift2 ((List.range s.numU).map fun i => (List.range s.numV).map fun j =>
        coord s.ctrlpts c (i * s.numV + j))) ((m : ℤ) - s.degreeU) ((m : ℤ) + 1)
        ((k : ℤ) - s.degreeV) ((k : ℤ) + 1)
      = lift2 ((List.range (s.degreeU + 1)).map fun i => (List.range (s.degreeV + 1)).map fun j =>
        coord s.ctrlpts c ((m - s.degreeU + i) * s.numV + (k - s.degreeV + j))) := fun c => by
    rw [slice2E_lift]
    exact congrArg lift2 (slice2_map_range (fun i j => coord s.ctrlpts c (i * s.numV + j)) (by omega)
      (by omega) (by omega) (by omega) (by omega) (by omega))
  rw [col 0 0 rfl (by omega), ok_bind, col 1 1 rfl (by omega), ok_bind, col 2 2 rfl (by omega), ok_bind,
    rs, ok_bind, rs, ok_bind, rs, ok_bind, hsl, hsl, hsl]
  set A := min orderU s.degreeU + 1 with hA
  set B := min orderV s.degreeV + 1 with hB
  have bl : ∀ c (bu bv : List (Ext K)), bu.length = s.degreeU + 1 → bv.length = s.degreeV + 1 →
      ((∀ x ∈ bu, Q x) ∨ ∀ x ∈ bv, Q x) → ∃ x, bilinearE bu (lift2 ((List.range (s.degreeU + 1)).map fun i =>
      (List.range (s.degreeV + 1)).map fun j =>
        coord s.ctrlpts c ((m - s.degreeU + i) * s.numV + (k - s.degreeV + j)))) bv = .ok x ∧ Q x :=
    fun c bu bv h1 h2 h3 =>
    bilinearE_all hQ (by simp [h1]) (by omega)
      (by rw [List.range_succ_eq_map (n := s.degreeU)]; simp [h2]) (by omega) h3
  have colQ : ∀ a b, a < A → b < B → ∃ bu bv, columnE M (a : ℤ) = .ok bu ∧ columnE N (b : ℤ) = .ok bv ∧
      bu.length = s.degreeU + 1 ∧ bv.length = s.degreeV + 1 ∧ ((∀ x ∈ bu, Q x) ∨ ∀ x ∈ bv, Q x) := by
    intro a b ha hb
    rcases hq with h | h
    · obtain ⟨bu, e1, l1, q1⟩ := columnE_shape (Q := Q) hMs ha (a : ℤ) rfl
        fun r hr => h r (by omega) a (by omega)
      obtain ⟨bv, e2, l2, -⟩ := columnE_shape (Q := fun _ => True) hNs hb (b : ℤ) rfl fun _ _ => trivial
      exact ⟨bu, bv, e1, e2, l1, l2, Or.inl q1⟩
    · obtain ⟨bu, e1, l1, -⟩ := columnE_shape (Q := fun _ => True) hMs ha (a : ℤ) rfl fun _ _ => trivial
      obtain ⟨bv, e2, l2, q2⟩ := columnE_shape (Q := Q) hNs hb (b : ℤ) rfl
        fun r hr => h r (by omega) b (by omega)
      exact ⟨bu, bv, e1, e2, l1, l2, Or.inr q2⟩
  refine Returns.bind (P := fun st : List (List (Ext K)) × ℕ => Shape st.1 (A * B) 3 ∧
      ∀ t < A * B, ∀ x ∈ st.1.getD t [], Q x) ?_ ?_
  swap
  · rintro st ⟨h1, h2⟩
    refine ⟨st.1, rfl, h1, fun row hrow x hx => ?_⟩
    obtain ⟨t, ht, rfl⟩ := List.getElem_of_mem hrow
    refine h2 t (by rw [← h1.1]; exact ht) x ?_
    rwa [List.getD_eq_getElem?_getD, List.getElem?_eq_getElem ht]
  refine (Returns.forN (fun a (st : List (List (Ext K)) × ℕ) => st.2 = a * B ∧ Shape st.1 (A * B) 3 ∧
    ∀ t < st.2, ∀ x ∈ st.1.getD t [], Q x) (by omega) ⟨by simp, shape_zeros2E _ _, by simp⟩ ?_).mono
    fun st h => ⟨h.2.1, by rw [← h.1]; exact h.2.2⟩
  rintro a ⟨d, idx⟩ - ha ⟨hidx, h⟩
  refine (Returns.forN (fun b (st : List (List (Ext K)) × ℕ) => st.2 = a * B + b ∧ Shape st.1 (A * B) 3 ∧
    ∀ t < st.2, ∀ x ∈ st.1.getD t [], Q x) (by omega) ⟨by simpa using hidx, h⟩ ?_).mono
    fun st h => ⟨by rw [h.1]; ring, h.2⟩
  rintro b ⟨d, idx⟩ - hb ⟨hidx, hd, hdq⟩
  dsimp only at *
  obtain ⟨bu, bv, e1, e2, l1, l2, q⟩ := colQ a b ha hb
  obtain ⟨x, hx, qx⟩ := bl 0 bu bv l1 l2 q
  obtain ⟨y, hy, qy⟩ := bl 1 bu bv l1 l2 q
  obtain ⟨z, hz, qz⟩ := bl 2 bu bv l1 l2 q
  obtain ⟨x', y', z', en, qx', qy', qz'⟩ := normalizeRowE_absorb hQ norm normalize (idx == 0) qx qy qz
  have hlt : idx < A * B := by
    have := Nat.mul_le_mul_right B (Nat.succ_le_of_lt ha)
    rw [Nat.succ_mul] at this
    omega
  obtain ⟨ea, hsh⟩ := assignRowE_eq hd (idx : ℤ) idx [x', y', z'] rfl hlt rfl
  rw [e1, ok_bind, e2, ok_bind, hx, ok_bind, hy, ok_bind, hz, ok_bind, en, ok_bind, ea, ok_bind]
  refine Returns.ok ⟨by dsimp only; omega, hsh, fun t ht w hw => ?_⟩
  dsimp only at ht hw
  rw [getD_set _ _ _ _ _ (by rw [hd.1]; exact hlt)] at hw
  by_cases e : t = idx
  · rw [if_pos e] at hw
    simp only [List.mem_cons, List.not_mem_nil, or_false] at hw
    rcases hw with rfl | rfl | rfl <;> assumption
  · rw [if_neg e] at hw
    exact hdq t (by omega) w hw

theorem div_zeroE (x : Ext K) : (x / fin 0).isFin = false := by
  cases x with
  | fin a =>
    show (if (0 : K) = 0 then (if a = 0 then nan else inf (decide (a < 0))) else _ : Ext K).isFin = false
    rw [if_pos rfl]
    split_ifs <;> rfl
  | inf s => rfl
  | nan => rfl

/-- On an empty span all derivatives of the basis functions are infinite or NaN. -/
theorem basisFunctionDersE_empty {U : List K} {k p order : ℕ} {u : K} (hp1 : 1 ≤ p) (hp : p ≤ k)
    (hk : k + p < U.length) (ho : order ≤ p) (he : knotFn U k = knotFn U (k + 1)) :
    ∃ D, basisFunctionDersE (k : ℤ) (fin u) p (U.map fin) order = .ok D ∧ Shape D (p + 1) (order + 1) ∧
      ∀ r ≤ p, ∀ m ≤ order, (at2 D r m 0).isFin = false := by
  have e1 : ((U.map fin).getD (k + 1) 0 - fin u + (fin u - (U.map fin).getD k 0) : Ext K) = fin 0 := by
    rw [getD_fin (by omega), getD_fin (by omega), ← he]
    show fin _ = fin _
    congr 1
    ring
  refine basisFunctionDersE_absorb absorbing_nonfin (U.map fin) k p order (fin u) hp1 hp
    (by rw [List.length_map]; exact hk) ho ?_ ?_ ?_
  · rw [e1, one_div_zeroE, getD_fin (by omega)]
    exact nonfin_add_right (fin_mul_infE _ _).1 _
  · rw [e1, one_div_zeroE, getD_fin (by omega)]
    exact (fin_mul_infE _ _).1
  · intro x
    rw [e1]
    exact div_zeroE x

theorem basisFunctionDersE_total (U : List (Ext K)) (k p order : ℕ) (u : Ext K) (hp1 : 1 ≤ p) (hp : p ≤ k)
    (hk : k + p < U.length) (ho : order ≤ p) :
    ∃ D, basisFunctionDersE (k : ℤ) u p U order = .ok D ∧ Shape D (p + 1) (order + 1) := by
  obtain ⟨D, h1, h2, -⟩ := basisFunctionDersE_absorb (Q := fun _ => True)
    ⟨fun _ _ _ => trivial, fun _ _ _ => trivial, fun _ _ _ => trivial, fun _ _ _ => trivial,
      fun _ _ _ => trivial⟩ U k p order u hp1 hp hk ho trivial trivial fun _ => trivial
  exact ⟨D, h1, h2⟩

end

end PySpline
