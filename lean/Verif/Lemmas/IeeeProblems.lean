import Verif.Lemmas.IeeeKnotRuns
import Verif.Lemmas.IeeeSurfaceFit
import Verif.Model.IeeeProblems
import Verif.SpecIeeeProblems

/-!
# The problem objects in IEEE arithmetic: auxiliary facts
-/

set_option linter.unusedSectionVars false
set_option exponentiation.threshold 1100

namespace PySpline

open Spec Ext Finset

section
variable {K : Type} [Field K] [LinearOrder K] [IsStrictOrderedRing K]

theorem forall_row_of_at2 {P : List (List K)} {m : ℕ} {Φ : List K → Prop} (hP : P.length = m)
    (h : ∀ r < m, Φ (P.getD r [])) : ∀ row ∈ P, Φ row := by
  intro row hrow
  obtain ⟨r, hr, rfl⟩ := List.getElem_of_mem hrow
  have := h r (by omega)
  rwa [List.getD_eq_getElem?_getD, List.getElem?_eq_getElem hr, Option.getD_some] at this

theorem forall_mem_of_getD {l : List K} {w : ℕ} {Φ : K → Prop} (hl : l.length = w) (h : ∀ k < w, Φ (l.getD k 0)) :
    ∀ x ∈ l, Φ x := by
  intro x hx
  obtain ⟨k, hk, rfl⟩ := List.getElem_of_mem hx
  have := h k (by omega)
  rwa [List.getD_eq_getElem?_getD, List.getElem?_eq_getElem hk, Option.getD_some] at this

theorem length_getD_of_shape {P : List (List K)} {m w r : ℕ} (hP : Shape P m w) (hr : r < m) : (P.getD r []).length = w := by
  refine hP.2 _ ?_
  rw [List.getD_eq_getElem?_getD, List.getElem?_eq_getElem (by rw [hP.1]; exact hr), Option.getD_some]
  exact List.getElem_mem _

theorem row_eq_of_getD {a b : List K} {w : ℕ} (ha : a.length = w) (hb : b.length = w)
    (h : ∀ k < w, a.getD k 0 = b.getD k 0) : a = b := by
  refine List.ext_getElem (by omega) fun k h1 h2 => ?_
  have := h k (by omega)
  rwa [List.getD_eq_getElem?_getD, List.getElem?_eq_getElem h1, Option.getD_some, List.getD_eq_getElem?_getD,
    List.getElem?_eq_getElem h2, Option.getD_some] at this

theorem Surface.lift_inj {s t : Surface K} (h : s.lift = t.lift) : s = t := by
  have inj1 : Function.Injective (lift1 (K := K)) := List.map_injective_iff.2 fun a b h => by cases h; rfl
  have inj2 : Function.Injective (lift2 (K := K)) := List.map_injective_iff.2 inj1
  cases s
  cases t
  simp only [Surface.lift, Surface.mk.injEq] at h ⊢
  exact ⟨h.1, h.2.1, h.2.2.1, h.2.2.2.1, inj2 h.2.2.2.2.1, inj1 h.2.2.2.2.2.1, inj1 h.2.2.2.2.2.2⟩

theorem Spec.TameSolver.grow {rd : K → Ext K} {M X Y : K} {C : Err → Prop}
    {ls : ℕ → List (List (Ext K)) → List (Ext K) → Py (List (Ext K))} (h : TameSolver rd M X C ls) (hXY : X ≤ Y) :
    TameSolver rd M Y C ls := fun n A b h1 h2 h3 h4 =>
  (h n A b h1 h2 h3 h4).imp id fun ⟨x, a1, a2, a3⟩ => ⟨x, a1, a2, fun y hy => ⟨(a3 y hy).1, (a3 y hy).2.trans hXY⟩⟩

/-- The lengths of the initial curve in any arithmetic. -/
theorem initializeCurveR_length {rd : K → Ext K} {s e : List (Ext K)} {p n : ℕ} {c : Curve (Ext K)}
    (h : initializeCurveR rd s e p n = .ok c) :
    p ≤ n ∧ c.degree = p ∧ Shape c.ctrlpts n 3 ∧ c.kv.length = n + p + 1 := by
  unfold initializeCurveR at h
  split at h
  · cases h
  rename_i hpn
  rw [not_not] at hpn
  have lin : ∀ {a b : Ext K} {L : List (Ext K)}, linspaceR rd a b (n : ℤ) = .ok L → L.length = n := by
    intro a b L hL
    unfold linspaceR at hL
    split at hL
    · cases hL
    split at hL
    · rename_i h1; cases hL; simp; omega
    · cases hL; simp
  obtain ⟨s0, -, h⟩ := bind_eq_ok h
  obtain ⟨e0, -, h⟩ := bind_eq_ok h
  obtain ⟨xs, hx, h⟩ := bind_eq_ok h
  obtain ⟨s1, -, h⟩ := bind_eq_ok h
  obtain ⟨e1, -, h⟩ := bind_eq_ok h
  obtain ⟨ys, hy, h⟩ := bind_eq_ok h
  obtain ⟨s2, -, h⟩ := bind_eq_ok h
  obtain ⟨e2, -, h⟩ := bind_eq_ok h
  obtain ⟨zs, hz, h⟩ := bind_eq_ok h
  obtain ⟨pts, hp, h⟩ := bind_eq_ok h
  obtain ⟨kv, hk, h⟩ := bind_eq_ok h
  cases h
  have hpts : Shape pts n 3 := by
    unfold columnStack3E at hp
    split at hp
    · cases hp
      refine ⟨by simp [lin hx], fun row hrow => ?_⟩
      obtain ⟨i, -, rfl⟩ := List.mem_map.1 hrow
      rfl
    · cases hp
  refine ⟨hpn, rfl, hpts, ?_⟩
  dsimp only
  rw [hpts.1] at hk
  unfold generateUniformR at hk
  dsimp only at hk
  obtain ⟨mid, hm, hk⟩ := bind_eq_ok hk
  cases hk
  have : mid.length = ((n : ℤ) + p + 1 - 2 * p).toNat := by
    unfold linspace01R at hm
    split at hm
    · cases hm
    split at hm
    · rename_i h1; cases hm; rw [h1]; rfl
    · cases hm; simp
  simp only [List.length_append, List.length_replicate, this]
  omega

end

/-- The end of `BoundaryProblem.fit` in double precision. -/
theorem boundaryFinishE_stored {E : Err → Prop} {B δ : ℚ} {inv : Curve (Ext ℚ) → List (Ext ℚ) → Py (Ext ℚ)}
    (hinv : TameCurveInversion bin64 E inv) {data : List (List ℚ)} (h3 : ∀ pt ∈ data, pt.length = 3)
    (hdata : ∀ pt ∈ data, ∀ x ∈ pt, bin64 x = fin x ∧ |x| ≤ B) {p n : ℕ} (hn : 3 < n) {c : Curve ℚ} (hc : Spaced p n δ c)
    (hst : StoredCurve bin64 B c) {s e : List ℚ} (hs : c.ctrlpts.getD 0 [] = s) (he : c.ctrlpts.getD (n - 1) [] = e) :
    (∃ err, E err ∧ boundaryFinishE inv p (lift2 data) c.lift = .error err) ∨
    ∃ f, boundaryFinishE inv p (lift2 data) c.lift = .ok f ∧
      StoredBoundary bin64 B δ p n data.length s e c.ctrlpts c.kv f := by
  have hnum : (c.lift.kv.length : ℤ) - p - 1 = n := by
    rw [show c.lift.kv.length = c.kv.length from List.length_map _, hc.clamped.len]
    push_cast
    ring
  unfold boundaryFinishE
  rw [hnum]
  dsimp only
  rw [if_neg (by omega)]
  rcases parameterizeCurveWithE_finite (E := E) h3 hdata (fun pt _ => hinv c.lift (lift1 pt)) with
    ⟨err, herr, hp⟩ | ⟨rows, hp, hsh, hran, hrs, -⟩
  · exact Or.inl ⟨err, herr, by rw [hp]; rfl⟩
  refine Or.inr ⟨_, by rw [hp]; rfl, rfl, rfl, ?_, ?_, hc.pts, hs, he, hc.clamped, hc.zero, hc.one, hc.gap, rows, rfl, hsh, ?_, ?_⟩
  · rw [← hc.deg]; rfl
  · exact ⟨hst.knots, hst.pts⟩
  · exact forall_row_of_at2 hsh.1 fun r hr => forall_mem_of_getD (length_getD_of_shape hsh hr) fun k hk => hrs k hk r hr
  · exact forall_row_of_at2 hsh.1 fun r hr => hran r hr

/-- The initial curve of a boundary problem in double precision. -/
theorem initialCurve_spaced {s e : List ℚ} (hs : s.length = 3) (he : e.length = 3) {p n : ℕ} (h : p < n) (hn : 2 ≤ n)
    (hn' : n ≤ 2 ^ 20) {B : ℚ} (hB0 : 1 / 2 ^ 1000 ≤ B) (hB1 : B ≤ 2 ^ 1019) (hsB : ∀ x ∈ s, bin64 x = fin x ∧ |x| ≤ B)
    (heB : ∀ x ∈ e, bin64 x = fin x ∧ |x| ≤ B) :
    ∃ c, initializeCurveR bin64 (lift1 s) (lift1 e) p n = .ok (Curve.lift c) ∧ Spaced p n (1 / 2 ^ 1000) c ∧
      (n = p + 1 → Spaced p n 1 c) ∧ generateUniformFl fl64 p n = .ok c.kv ∧ StoredCurve bin64 (2 * B) c ∧
      c.ctrlpts.getD 0 [] = s ∧ c.ctrlpts.getD (n - 1) [] = e ∧
      ∀ k < 3, |coord c.ctrlpts k 0| ≤ B ∧ |coord c.ctrlpts k (n - 1)| ≤ B := by
  obtain ⟨c, h1, h2, h3, h4, h5, h6, -⟩ := initializeCurveR_bin64 hs he h hn hn' hB0 hB1 hsB heB
  obtain ⟨U, hU, -, hc, -, z0, z1, -⟩ := generate_uniform_double h (hn'.trans (by norm_num))
  rw [h4] at hU
  cases hU
  have getmem : ∀ l : List ℚ, l.length = 3 → ∀ k < 3, l.getD k 0 ∈ l := fun l hl k hk => by
    rw [List.getD_eq_getElem?_getD, List.getElem?_eq_getElem (by omega), Option.getD_some]
    exact List.getElem_mem _
  refine ⟨c, h1, ⟨h2, h3, hc, z0, z1, uniform_double_gap h (hn'.trans (by norm_num)) h4⟩, fun hp1 => ?_, h4, h5, ?_, ?_, ?_⟩
  · subst hp1
    refine ⟨h2, h3, hc, z0, z1, fun i h2 h3 => ?_⟩
    obtain rfl : i = p := by omega
    rw [hc.right (i + 1) (by omega) (by omega), hc.left i le_rfl, z1, z0, sub_zero]
  · exact row_eq_of_getD (length_getD_of_shape h3 (by omega)) hs fun k hk => (h6 k hk).1
  · exact row_eq_of_getD (length_getD_of_shape h3 (by omega)) he fun k hk => (h6 k hk).2
  · intro k hk
    rw [(h6 k hk).1, (h6 k hk).2]
    exact ⟨(hsB _ (getmem s hs k hk)).2, (heB _ (getmem e he k hk)).2⟩

end PySpline
