import Verif.Lemmas.IeeeInitial
import Verif.Props.IeeeSolve

/-!
# The curve fits in IEEE arithmetic, whatever the arithmetic and the solver do
-/

set_option linter.unusedSectionVars false

namespace PySpline

open Spec Ext Finset

variable {K : Type} [Field K] [LinearOrder K]

theorem assignRowE_length {m m' : List (List (Ext K))} {i : ℤ} {v : List (Ext K)} (h : assignRowE m i v = .ok m') :
    m'.length = m.length := by
  unfold assignRowE at h
  obtain ⟨row, -, h⟩ := bind_eq_ok h
  split at h
  · exact pySet_length h
  split at h
  · exact pySet_length h
  · cases h

theorem curveKnotInsertionR_length {rd : K → Ext K} {p r : ℕ} {U U' : List (Ext K)} {P P' : List (List (Ext K))} {u : Ext K}
    (h : curveKnotInsertionR rd p U P u r = .ok (U', P')) :
    U'.length = U.length + r ∧ P'.length = P.length + r := by
  unfold curveKnotInsertionR at h
  obtain ⟨k, -, h⟩ := bind_eq_ok h
  dsimp only at h
  obtain ⟨kv1, h1, h⟩ := bind_eq_ok h
  obtain ⟨kv2, h2, h⟩ := bind_eq_ok h
  obtain ⟨kv3, h3, h⟩ := bind_eq_ok h
  obtain ⟨P1, g1, h⟩ := bind_eq_ok h
  obtain ⟨P2, g2, h⟩ := bind_eq_ok h
  obtain ⟨R, -, h⟩ := bind_eq_ok h
  obtain ⟨⟨P3, R'⟩, g3, h⟩ := bind_eq_ok h
  dsimp only at h
  obtain ⟨P4, g4, h⟩ := bind_eq_ok h
  cases h
  have l1 : kv1.length = U.length + r := forZ_ok (fun kv => kv.length = U.length + r) h1
    (by simp) fun i s s' hs h => by
      obtain ⟨x, -, h⟩ := bind_eq_ok h
      rw [pySet_length h, hs]
  have l2 : kv2.length = U.length + r := forZ_ok (fun kv => kv.length = U.length + r) h2
    l1 fun i s s' hs h => by rw [pySet_length h, hs]
  have l3 : U'.length = U.length + r := forZ_ok (fun kv => kv.length = U.length + r) h3
    l2 fun i s s' hs h => by
      obtain ⟨x, -, h⟩ := bind_eq_ok h
      rw [pySet_length h, hs]
  have m1 : P1.length = P.length + r := forZ_ok (fun m => m.length = P.length + r) g1
    (by simp [zeros2E]) fun i s s' hs h => by
      obtain ⟨x, -, h⟩ := bind_eq_ok h
      rw [assignRowE_length h, hs]
  have m2 : P2.length = P.length + r := forZ_ok (fun m => m.length = P.length + r) g2
    m1 fun i s s' hs h => by
      obtain ⟨x, -, h⟩ := bind_eq_ok h
      rw [assignRowE_length h, hs]
  have m3 : P3.length = P.length + r :=
    forZ_ok (fun st : List (List (Ext K)) × List (List (Ext K)) => st.1.length = P.length + r) g3
    m2 fun i s s' hs h => by
      obtain ⟨R1, -, h⟩ := bind_eq_ok h
      obtain ⟨r0, -, h⟩ := bind_eq_ok h
      obtain ⟨A, hA, h⟩ := bind_eq_ok h
      obtain ⟨r1, -, h⟩ := bind_eq_ok h
      obtain ⟨B, hB, h⟩ := bind_eq_ok h
      cases h
      show B.length = _
      rw [assignRowE_length hB, assignRowE_length hA, hs]
  have m4 : P'.length = P.length + r := forZ_ok (fun m => m.length = P.length + r) g4
    m3 fun i s s' hs h => by
      obtain ⟨x, -, h⟩ := bind_eq_ok h
      rw [assignRowE_length h, hs]
  exact ⟨l3, m4⟩

theorem insertKnotR_length {rd : K → Ext K} {c c' : Curve (Ext K)} {u : Ext K} (h : c.insertKnotR rd u = .ok c') :
    c'.degree = c.degree ∧ c'.kv.length = c.kv.length + 1 ∧
      c'.ctrlpts.length = c.ctrlpts.length + 1 := by
  unfold Curve.insertKnotR at h
  split at h
  · cases h
  obtain ⟨⟨kv, pts⟩, hi, h⟩ := bind_eq_ok h
  cases h
  exact ⟨rfl, curveKnotInsertionR_length hi⟩

theorem insertKnotsR_length {rd : K → Ext K} (l : List (Ext K)) : ∀ {c c' : Curve (Ext K)},
    forL l c (fun u c => c.insertKnotR rd u) = .ok c' →
    c'.degree = c.degree ∧ c'.kv.length = c.kv.length + l.length ∧
      c'.ctrlpts.length = c.ctrlpts.length + l.length := by
  induction l with
  | nil => intro c c' h; cases h; exact ⟨rfl, rfl, rfl⟩
  | cons u us ih =>
    intro c c' h
    unfold forL at h
    rw [List.foldlM_cons] at h
    obtain ⟨c1, h1, h⟩ := bind_eq_ok h
    obtain ⟨a, b, d⟩ := ih h
    obtain ⟨a', b', d'⟩ := insertKnotR_length h1
    refine ⟨by rw [a, a'], ?_, ?_⟩ <;> simp only [List.length_cons] <;> omega

theorem midKnotsR_length {rd : K → Ext K} {c : Curve (Ext K)} {ks : List (Ext K)} (h : midKnotsR rd c = .ok ks) :
    (ks.length : ℤ) = (c.kv.length : ℤ) - c.degree - 1 - c.degree := by
  unfold midKnotsR at h
  dsimp only at h
  split at h
  · cases h
  obtain ⟨⟨ks', _⟩, hl, h⟩ := bind_eq_ok h
  cases h
  have := forZ_ok (fun st : List (Ext K) × ℕ =>
    st.1.length = ((c.kv.length : ℤ) - c.degree - 1 - c.degree).toNat) hl (by simp)
    fun i s s' hs h => by
      obtain ⟨a, -, h⟩ := bind_eq_ok h
      obtain ⟨b, -, h⟩ := bind_eq_ok h
      obtain ⟨d, hd, h⟩ := bind_eq_ok h
      cases h
      show d.length = _
      rw [pySet_length hd, hs]
  have h2 : ks'.length = ((c.kv.length : ℤ) - c.degree - 1 - c.degree).toNat := this
  show (ks'.length : ℤ) = _
  omega

/-- Whenever `single_fit_curve` returns, there are control points. -/
theorem singleFitCurveR_pos {rd : K → Ext K} {ls : ℕ → List (List (Ext K)) → List (Ext K) → Py (List (Ext K))}
    {c c' : Curve (Ext K)} {data : List (List (Ext K))} (h : SingleFitCurveR rd ls c data (.ok c')) :
    0 < c.ctrlpts.length := by
  rcases h with ⟨e, -, h⟩ | ⟨M, check, -, -, h⟩
  · cases h
  obtain ⟨_, -, h⟩ := bind_eq_ok h.symm
  obtain ⟨f, hf, h⟩ := bind_eq_ok h
  exact curveMask_ok hf

theorem getD_eq_of_at2E {A B : List (List (Ext K))} {n : ℕ} (hA : Shape A n 3) (hB : Shape B n 3) {i : ℕ}
    (hi : i < n) (h : ∀ k < 3, at2 A i k 0 = at2 B i k 0) : A.getD i [] = B.getD i [] := by
  have hl : ∀ {A : List (List (Ext K))}, Shape A n 3 → (A.getD i []).length = 3 := fun {A} hA => by
    rw [List.getD_eq_getElem?_getD, List.getElem?_eq_getElem (by rw [hA.1]; exact hi), Option.getD_some]
    exact hA.2 _ (List.getElem_mem _)
  refine List.ext_getElem (by rw [hl hA, hl hB]) fun k h1 h2 => ?_
  have := h k (by rw [← hl hA]; exact h1)
  unfold at2 at this
  rw [List.getD_eq_getElem?_getD (l := A.getD i []), List.getD_eq_getElem?_getD (l := B.getD i []),
    List.getElem?_eq_getElem h1, List.getElem?_eq_getElem h2] at this
  exact this

/-! ## The guarded solver -/

theorem guarded_tame (rd : K → Ext K) (M X : K) (e : Err) (ls : ℕ → List (List (Ext K)) → List (Ext K) → Py (List (Ext K))) :
    TameSolver rd M X (· = e) (guarded rd X e ls) := by
  intro n A b _ _ _ _
  unfold guarded
  split
  · rename_i h
    exact Or.inr h
  · exact Or.inl ⟨e, rfl, rfl⟩

theorem linearFitFixedR_guarded (rd : K → Ext K) (X : K) (e : Err)
    (ls : ℕ → List (List (Ext K)) → List (Ext K) → Py (List (Ext K))) (R : List (List (Ext K))) (Q P : List (Ext K))
    (fixed : List Bool) : linearFitFixedR rd (guarded rd X e ls) R Q P fixed = linearFitFixedR rd ls R Q P fixed ∨
      ∃ e', e' = e ∧ linearFitFixedR rd (guarded rd X e ls) R Q P fixed = .error e' := by
  unfold linearFitFixedR
  refine alt_bind (E := (· = e)) _ fun nf => ?_
  split
  · exact Or.inl rfl
  dsimp only
  refine alt_bind (E := (· = e)) _ fun st => ?_
  refine alt_bind (E := (· = e)) _ fun b => ?_
  unfold guarded
  split
  · exact Or.inl rfl
  · exact Or.inr ⟨e, rfl, rfl⟩

theorem alt_bind_left {α β : Type} {e : Err} {x y : Py α} (f : α → Py β) (h : x = y ∨ ∃ e', e' = e ∧ x = .error e') {g : α → Py β}
    (hg : ∀ a, f a = g a ∨ ∃ e', e' = e ∧ f a = .error e') :
    (x >>= f) = (y >>= g) ∨ ∃ e', e' = e ∧ (x >>= f) = .error e' := by
  rcases h with rfl | ⟨e', rfl, rfl⟩
  · exact alt_bind (E := (· = e)) _ hg
  · exact Or.inr ⟨_, rfl, rfl⟩

theorem fitColumnsR_guarded (rd : K → Ext K) (X : K) (e : Err)
    (ls : ℕ → List (List (Ext K)) → List (Ext K) → Py (List (Ext K))) (N data P : List (List (Ext K))) (fixed : List Bool) :
    fitColumnsR rd (guarded rd X e ls) N data P fixed = fitColumnsR rd ls N data P fixed ∨
      ∃ e', e' = e ∧ fitColumnsR rd (guarded rd X e ls) N data P fixed = .error e' := by
  unfold fitColumnsR
  refine alt_bind (E := (· = e)) _ fun qx => alt_bind (E := (· = e)) _ fun px => ?_
  refine alt_bind_left _ (linearFitFixedR_guarded rd X e ls _ _ _ _) fun x => ?_
  refine alt_bind (E := (· = e)) _ fun qy => alt_bind (E := (· = e)) _ fun py => ?_
  refine alt_bind_left _ (linearFitFixedR_guarded rd X e ls _ _ _ _) fun y => ?_
  refine alt_bind (E := (· = e)) _ fun qz => alt_bind (E := (· = e)) _ fun pz => ?_
  refine alt_bind_left _ (linearFitFixedR_guarded rd X e ls _ _ _ _) fun z => Or.inl rfl

/-- A single fit is one with the guarded solver, unless the guard raises. -/
theorem singleFitCurveR_guarded {rd : K → Ext K} {X : K} (e : Err)
    {ls : ℕ → List (List (Ext K)) → List (Ext K) → Py (List (Ext K))} {c : Curve (Ext K)} {data : List (List (Ext K))}
    {r : Py (Curve (Ext K))} (h : SingleFitCurveR rd ls c data r) :
    SingleFitCurveR rd (guarded rd X e ls) c data r ∨ SingleFitCurveR rd (guarded rd X e ls) c data (.error e) := by
  rcases h with h | ⟨N, check, h1, h2, rfl⟩
  · exact Or.inl (Or.inl h)
  have key : (do
      let _ ← check
      let fixed ← curveMask c.ctrlpts.length
      let new ← fitColumnsR rd (guarded rd X e ls) N data c.ctrlpts fixed
      .ok { c with ctrlpts := new }) = (do
      let _ ← check
      let fixed ← curveMask c.ctrlpts.length
      let new ← fitColumnsR rd ls N data c.ctrlpts fixed
      .ok { c with ctrlpts := new }) ∨ ∃ e', e' = e ∧ (do
      let _ ← check
      let fixed ← curveMask c.ctrlpts.length
      let new ← fitColumnsR rd (guarded rd X e ls) N data c.ctrlpts fixed
      (.ok { c with ctrlpts := new } : Py (Curve (Ext K)))) = .error e' := by
    refine alt_bind (E := (· = e)) _ fun _ => alt_bind (E := (· = e)) _ fun fixed => ?_
    exact alt_bind_left _ (fitColumnsR_guarded rd X e ls N data c.ctrlpts fixed) fun _ => Or.inl rfl
  rcases key with k | ⟨e', rfl, k⟩
  · exact Or.inl (Or.inr ⟨N, check, h1, h2, k.symm⟩)
  · exact Or.inr (Or.inr ⟨N, check, h1, h2, k.symm⟩)

theorem knotFitR_guarded {rd : K → Ext K} {X : K} (e : Err)
    {ls : ℕ → List (List (Ext K)) → List (Ext K) → Py (List (Ext K))} {inv : Curve (Ext K) → List (Ext K) → Py (Ext K)}
    {data : List (List (Ext K))} {N : ℤ} (fuel : ℕ) : ∀ {c : Curve (Ext K)} {r : Py (Curve (Ext K))},
    KnotFitR rd ls inv data N fuel c r →
    KnotFitR rd (guarded rd X e ls) inv data N fuel c r ∨ KnotFitR rd (guarded rd X e ls) inv data N fuel c (.error e) := by
  induction fuel with
  | zero => intro c r h; exact Or.inl h
  | succ fuel ih =>
    intro c r h
    unfold KnotFitR at h
    rcases h with h | ⟨rows, res, h1, h2, h3⟩
    · exact Or.inl (Or.inl h)
    rcases singleFitCurveR_guarded (X := X) e h2 with h2' | h2'
    · cases res with
      | error e' => exact Or.inl (Or.inr ⟨rows, .error e', h1, h2', h3⟩)
      | ok fit =>
        dsimp only at h3
        by_cases hN : (fit.ctrlpts.length : ℤ) ≥ N
        · rw [if_pos hN] at h3
          refine Or.inl (Or.inr ⟨rows, .ok fit, h1, h2', ?_⟩)
          dsimp only
          rw [if_pos hN]
          exact h3
        · rw [if_neg hN] at h3
          cases hm : (do
              let knots ← midKnotsR rd fit
              forL knots fit fun u temp => temp.insertKnotR rd u) with
          | error e' =>
            rw [hm] at h3
            refine Or.inl (Or.inr ⟨rows, .ok fit, h1, h2', ?_⟩)
            dsimp only
            rw [if_neg hN, hm]
            exact h3
          | ok next =>
            rw [hm] at h3
            rcases ih h3 with q | q
            · refine Or.inl (Or.inr ⟨rows, .ok fit, h1, h2', ?_⟩)
              dsimp only
              rw [if_neg hN, hm]
              exact q
            · refine Or.inr (Or.inr ⟨rows, .ok fit, h1, h2', ?_⟩)
              dsimp only
              rw [if_neg hN, hm]
              exact q
    · exact Or.inr (Or.inr ⟨rows, .error e, h1, h2', rfl⟩)

theorem refitR_guarded {rd : K → Ext K} {X : K} (e : Err)
    {ls : ℕ → List (List (Ext K)) → List (Ext K) → Py (List (Ext K))} {inv : Curve (Ext K) → List (Ext K) → Py (Ext K)}
    {data : List (List (Ext K))} {q c : Curve (Ext K)} {r : Py (Curve (Ext K))} (h : RefitR rd ls inv data q c r) :
    RefitR rd (guarded rd X e ls) inv data q c r ∨ RefitR rd (guarded rd X e ls) inv data q c (.error e) := by
  rcases h with h | ⟨rows, h1, h2⟩
  · exact Or.inl (Or.inl h)
  rcases singleFitCurveR_guarded (X := X) e h2 with h2' | h2'
  · exact Or.inl (Or.inr ⟨rows, h1, h2'⟩)
  · exact Or.inr (Or.inr ⟨rows, h1, h2'⟩)

theorem fitCurveFixedR_guarded {rd : K → Ext K} {X : K} (e : Err) {fuel : ℕ}
    {ls : ℕ → List (List (Ext K)) → List (Ext K) → Py (List (Ext K))} {inv : Curve (Ext K) → List (Ext K) → Py (Ext K)}
    {data : List (List (Ext K))} {c : Curve (Ext K)} {r : Py (Curve (Ext K))} (h : FitCurveFixedR rd fuel ls inv c data r) :
    FitCurveFixedR rd fuel (guarded rd X e ls) inv c data r ∨
      FitCurveFixedR rd fuel (guarded rd X e ls) inv c data (.error e) := by
  unfold FitCurveFixedR at h ⊢
  cases hi : (do
      let first ← pyGet c.ctrlpts 0
      let last ← pyGet c.ctrlpts (-1)
      initializeCurveR rd first last c.degree (c.degree + 1)) with
  | error e' =>
    rw [hi] at h
    exact Or.inl h
  | ok init =>
    rw [hi] at h
    dsimp only at h ⊢
    obtain ⟨res, h1, h⟩ := h
    rcases knotFitR_guarded (X := X) e fuel h1 with q1 | q1
    · cases res with
      | error e' => exact Or.inl ⟨_, q1, h⟩
      | ok fit =>
        obtain ⟨res', h2, h⟩ := h
        rcases refitR_guarded (X := X) e h2 with q2 | q2
        · cases res' with
          | error e' => exact Or.inl ⟨_, q1, _, q2, h⟩
          | ok fixed =>
            rcases refitR_guarded (X := X) e h with q3 | q3
            · exact Or.inl ⟨_, q1, _, q2, q3⟩
            · exact Or.inr ⟨_, q1, _, q2, q3⟩
        · exact Or.inr ⟨_, q1, _, q2, rfl⟩
    · exact Or.inr ⟨_, q1, rfl⟩

end PySpline
