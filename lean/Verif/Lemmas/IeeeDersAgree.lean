import Verif.Lemmas.IeeeAux
import Verif.Model.IeeeDers
import Verif.Model.RoundedDers

/-!
# `basis_function_ders` in IEEE arithmetic: agreement with the other models
-/

set_option linter.unusedSectionVars false

namespace PySpline

open Ext

variable {K : Type} [Field K] [LinearOrder K]

theorem forN_map {σ τ : Type} (φ : σ → τ) {f : ℕ → σ → Py σ} {g : ℕ → τ → Py τ}
    (h : ∀ i s, g i (φ s) = (f i s).map φ) {a b : ℕ} (s : σ) : forN a b (φ s) g = (forN a b s f).map φ := by
  by_cases hab : b ≤ a
  · rw [forN_empty hab, forN_empty hab]; rfl
  · induction hn : b - a generalizing a s with
    | zero => omega
    | succ n ih =>
      rw [forN_succ_left (by omega), forN_succ_left (by omega), h]
      rcases f a s with e | t
      · rfl
      · show forN (a + 1) b (φ t) g = (forN (a + 1) b t f).map φ
        by_cases h2 : b ≤ a + 1
        · rw [forN_empty h2, forN_empty h2]; rfl
        · exact ih t h2 (by omega)

theorem basisFunctionDersR_fin (span : ℤ) (u : Ext K) (p : ℕ) (U : List (Ext K)) (order : ℕ) :
    basisFunctionDersR fin span u p U order = basisFunctionDersE span u p U order := by
  have h1 : nduTableR fin span u p U = nduTableE span u p U := by
    unfold nduTableR nduTableE
    simp only [rnd_fin, divE, ok_bind]
  have h2 : dersStepR (fin : K → Ext K) = dersStepE := by
    funext a b c d e
    unfold dersStepR dersStepE
    simp only [rnd_fin, divE, ok_bind]
  unfold basisFunctionDersR basisFunctionDersE
  simp only [h1, h2, rnd_fin]
  refine congrArg _ (funext fun ndu => congrArg _ (funext fun ders => congrArg _ (funext fun st => ?_)))
  obtain ⟨a, ders⟩ := st
  dsimp only
  have := forN_map (a := 1) (b := order + 1) (Prod.map id fin : List (List (Ext K)) × K → List (List (Ext K)) × Ext K)
    (f := fun k (x : List (List (Ext K)) × K) => do
      let ders ← forN 0 (p + 1) x.1 fun j ders => do
        let y ← get2 ders j k
        set2 ders j k (y * fin x.2)
      .ok (ders, x.2 * ((p : K) - (k : K))))
    (g := fun k (x : List (List (Ext K)) × Ext K) => do
      let ders ← forN 0 (p + 1) x.1 fun j ders => do
        let y ← get2 ders j k
        set2 ders j k (y * x.2)
      .ok (ders, x.2 * (fin (p : K) - fin (k : K)))) (fun k x => by
        obtain ⟨d, r⟩ := x
        dsimp only [Prod.map, id]
        rcases forN 0 (p + 1) d fun j ders => (do
          let y ← get2 ders j k
          set2 ders j k (y * fin r)) with e | t <;> rfl) (ders, (p : K))
  refine Eq.trans ?_ (congrArg (· >>= fun (x : List (List (Ext K)) × Ext K) => (Except.ok x.1 : Py _)) this).symm
  rcases forN 1 (order + 1) (ders, (p : K)) _ with e | t <;> rfl

theorem divFl_cases (fl : K → K) (a b : K) : pyDivFl fl a b = .error .nonfinite ∨
    ∃ t, pyDivFl fl a b = .ok t ∧ rnd (fun x => fin (fl x)) (fin a / fin b) = fin t := by
  unfold pyDivFl pyDiv
  by_cases h : b = 0
  · rw [if_pos h]; exact Or.inl rfl
  · rw [if_neg h, ok_bind]
    exact Or.inr ⟨_, rfl, by rw [fin_div _ h]; rfl⟩

theorem follows_nonfinite {α β γ : Type} {f : β → γ} {k : α → Py β} (y : Py γ) :
    Follows f ((Except.error .nonfinite : Py α) >>= k) y := fun h => absurd rfl h

theorem nduTableR_follows (fl : K → K) (span : ℤ) (u : K) (p : ℕ) (U : List K) :
    Follows lift2 (nduTableFl fl span u p U) (nduTableR (fun x => fin (fl x)) span (fin u) p (lift1 U)) := by
  unfold nduTableFl nduTableR
  rw [replicate_one, ones2E_lift]
  dsimp only
  refine Follows.bind (Follows.set2 _ _ _ rfl) fun ndu => ?_
  refine Follows.bind (f := Prod.map lift2 (Prod.map lift1 lift1)) (Follows.forN rfl ?_) ?_
  · rintro j ⟨N, left, right⟩
    dsimp only [Prod.map]
    refine Follows.bind (Follows.get _ _) fun a => ?_
    refine Follows.bind (Follows.set _ _ rfl) fun left => ?_
    refine Follows.bind (Follows.get _ _) fun b => ?_
    refine Follows.bind (Follows.set _ _ rfl) fun right => ?_
    refine Follows.bind (f := Prod.map lift2 fin) (Follows.forN rfl ?_) ?_
    · rintro r ⟨N, saved⟩
      dsimp only [Prod.map]
      refine Follows.bind (Follows.get _ _) fun rr => ?_
      refine Follows.bind (Follows.get _ _) fun lf => ?_
      refine Follows.bind (Follows.set2 _ _ _ rfl) fun N => ?_
      refine Follows.bind (Follows.get2 _ _ _) fun x => ?_
      refine Follows.bind (Follows.get2 _ _ _) fun y => ?_
      rcases divFl_cases fl x y with h | ⟨t, h, h'⟩
      · rw [h]; exact follows_nonfinite _
      rw [h, ok_bind, show rnd (fun x => fin (fl x)) (fin x / fin y) = fin t from h']
      refine Follows.bind (Follows.set2 _ _ _ rfl) fun N => ?_
      exact Follows.ok rfl
    · rintro ⟨N, saved⟩
      dsimp only [Prod.map]
      refine Follows.bind (Follows.set2 _ _ _ rfl) fun N => ?_
      exact Follows.ok rfl
  · rintro ⟨N, left, right⟩
    exact Follows.ok rfl

theorem dersStepR_follows (fl : K → K) (p : ℕ) (ndu : List (List K)) (r k : ℕ)
    (st : List (List K) × ℤ × ℤ × List (List K)) :
    Follows (Prod.map lift2 (Prod.map id (Prod.map id lift2))) (dersStepFl fl p ndu r k st)
      (dersStepR (fun x => fin (fl x)) p (lift2 ndu) r k (Prod.map lift2 (Prod.map id (Prod.map id lift2)) st)) := by
  obtain ⟨a, s1, s2, ders⟩ := st
  unfold dersStepFl dersStepR
  dsimp only [Prod.map, id]
  refine Follows.bind (f := Prod.map lift2 fin) (Follows.ite Iff.rfl ?_ (Follows.ok rfl)) ?_
  · refine Follows.bind (Follows.get2 _ _ _) fun x => ?_
    refine Follows.bind (Follows.get2 _ _ _) fun y => ?_
    rcases divFl_cases fl x y with h | ⟨q, h, h'⟩
    · rw [h]; exact follows_nonfinite _
    rw [h, ok_bind, show rnd (fun x => fin (fl x)) (fin x / fin y) = fin q from h']
    refine Follows.bind (Follows.set2 _ _ _ rfl) fun a => ?_
    refine Follows.bind (Follows.get2 _ _ _) fun x => ?_
    refine Follows.bind (Follows.get2 _ _ _) fun y => ?_
    exact Follows.ok rfl
  rintro ⟨a, d⟩
  dsimp only [Prod.map]
  refine Follows.bind (f := Prod.map lift2 fin) (Follows.forZ rfl ?_) ?_
  · rintro j ⟨a, d⟩
    dsimp only [Prod.map]
    refine Follows.bind (Follows.get2 _ _ _) fun x => ?_
    refine Follows.bind (Follows.get2 _ _ _) fun y => ?_
    refine Follows.bind (Follows.get2 _ _ _) fun z => ?_
    rcases divFl_cases fl (fl (x - y)) z with h | ⟨q, h, h'⟩
    · rw [h]; exact follows_nonfinite _
    rw [h, ok_bind, show rnd (fun x => fin (fl x)) (rnd (fun x => fin (fl x)) (fin x - fin y) / fin z) = fin q from h']
    refine Follows.bind (Follows.set2 _ _ _ rfl) fun a => ?_
    refine Follows.bind (Follows.get2 _ _ _) fun x => ?_
    refine Follows.bind (Follows.get2 _ _ _) fun y => ?_
    exact Follows.ok rfl
  rintro ⟨a, d⟩
  dsimp only [Prod.map]
  refine Follows.bind (f := Prod.map lift2 fin) (Follows.ite Iff.rfl ?_ (Follows.ok rfl)) ?_
  · refine Follows.bind (Follows.get2 _ _ _) fun x => ?_
    refine Follows.bind (Follows.get2 _ _ _) fun y => ?_
    rcases divFl_cases fl (-x) y with h | ⟨q, h, h'⟩
    · rw [h]; exact follows_nonfinite _
    rw [h, ok_bind, show rnd (fun x => fin (fl x)) (-fin x / fin y) = fin q from h']
    refine Follows.bind (Follows.set2 _ _ _ rfl) fun a => ?_
    refine Follows.bind (Follows.get2 _ _ _) fun x => ?_
    refine Follows.bind (Follows.get2 _ _ _) fun y => ?_
    exact Follows.ok rfl
  rintro ⟨a, d⟩
  dsimp only [Prod.map]
  refine Follows.bind (Follows.set2 _ _ _ rfl) fun ders => ?_
  exact Follows.ok rfl

theorem basisFunctionDersR_follows (fl : K → K) (span : ℤ) (u : K) (p : ℕ) (U : List K) (order : ℕ) :
    Follows lift2 (basisFunctionDersFl fl span u p U order)
      (basisFunctionDersR (fun x => fin (fl x)) span (fin u) p (lift1 U) order) := by
  unfold basisFunctionDersFl basisFunctionDersR
  rw [zeros2E_lift, ones2E_lift]
  dsimp only
  refine Follows.bind (nduTableR_follows _ _ _ _ _) fun ndu => ?_
  refine Follows.bind (Follows.forN rfl fun j ders => Follows.bind (Follows.get2 _ _ _) fun x =>
    Follows.set2 _ _ _ rfl) fun ders => ?_
  refine Follows.bind (f := Prod.map lift2 lift2) (Follows.forN rfl ?_) ?_
  · rintro r ⟨a, ders⟩
    dsimp only [Prod.map]
    refine Follows.bind (Follows.set2 _ _ _ rfl) fun a => ?_
    refine Follows.bind (Follows.forN rfl fun k st => dersStepR_follows fl p ndu r k st) ?_
    rintro ⟨a, s1, s2, ders⟩
    exact Follows.ok rfl
  rintro ⟨a, ders⟩
  dsimp only [Prod.map]
  refine Follows.bind (f := Prod.map lift2 id) (Follows.forN rfl ?_) ?_
  · rintro k ⟨ders, r⟩
    dsimp only [Prod.map]
    refine Follows.bind (Follows.forN rfl fun j ders => Follows.bind (Follows.get2 _ _ _) fun x =>
      Follows.set2 _ _ _ rfl) fun ders => ?_
    exact Follows.ok rfl
  rintro ⟨ders, r⟩
  exact Follows.ok rfl

end PySpline
