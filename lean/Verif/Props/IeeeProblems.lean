import Verif.Lemmas.IeeeProblems
import Verif.Props.IeeeInversionFit

/-!
# C193: the problem objects in IEEE arithmetic, from the end points and the data to the fitted surface
-/

set_option linter.unusedSectionVars false
set_option exponentiation.threshold 1100

namespace PySpline

open Spec Ext Finset

section
variable {K : Type} [Field K] [LinearOrder K] [IsStrictOrderedRing K]

/-- **C193.** Whatever the arithmetic, the solver and the inversion do: whenever `BoundaryProblem.fit` returns, the problem has
more than three control points, and the fitted curve has that number of control points and the knots that go with it.  With
fixed control points the number is the one asked for; with the adaptive method it is the first `degree + 2^t` that reaches
the one asked for. -/
theorem boundary_fit_ieee_count {rd : K → Ext K} {fuel : ℕ}
    {ls : ℕ → List (List (Ext K)) → List (Ext K) → Py (List (Ext K))} {inv : Curve (Ext K) → List (Ext K) → Py (Ext K)}
    {adaptive : Bool} {start stop : List (Ext K)} {p N : ℕ} {data : List (List (Ext K))} {f : Fitted (Ext K)}
    (h : BoundaryFitR rd fuel ls inv adaptive start stop p N data (.ok f)) :
    ∃ n : ℕ, 3 < n ∧ p ≤ n ∧ f.degree = some (p : ℤ) ∧ f.numCtrl = some (n : ℤ) ∧ f.fitCurve.degree = p ∧
      f.fitCurve.ctrlpts.length = n ∧ f.fitCurve.kv.length = n + p + 1 ∧
      (adaptive = false → n = N) ∧
      (adaptive = true → ∃ t < fuel, n = p + 2 ^ t ∧ N ≤ n ∧ ∀ s < t, p + 2 ^ s < N) := by
  have fin_ok : ∀ {final : Curve (Ext K)} {n : ℕ}, final.kv.length = n + p + 1 →
      .ok f = boundaryFinishE inv p data final → 3 < n ∧ f.degree = some (p : ℤ) ∧ f.numCtrl = some (n : ℤ) ∧
        f.fitCurve = final := by
    intro final n hk hf
    unfold boundaryFinishE at hf
    dsimp only at hf
    rw [show (final.kv.length : ℤ) - p - 1 = n by rw [hk]; push_cast; ring] at hf
    split at hf
    · cases hf
    rename_i h3
    obtain ⟨pd, -, hf⟩ := bind_eq_ok hf.symm
    cases hf
    exact ⟨by omega, rfl, rfl, rfl⟩
  unfold BoundaryFitR at h
  split at h
  · cases h
  rename_i init hinit
  obtain ⟨hpn, d0, s0, k0⟩ := initializeCurveR_length hinit
  obtain ⟨res, hfit, h⟩ := h
  split at h
  · cases h
  rename_i final
  cases adaptive with
  | false =>
    simp only [Bool.false_eq_true, if_false] at hfit hpn s0 k0
    obtain ⟨d1, k1, s1, -⟩ := fit_curve_fixed_ieee_keeps hfit s0.2
    rw [s0.1] at s1
    obtain ⟨a1, a2, a3, a4⟩ := fin_ok (n := N) (by rw [k1, k0]) h
    exact ⟨N, a1, hpn, a2, a3, by rw [a4, d1, d0], by rw [a4]; exact s1.1, by rw [a4, k1, k0], fun _ => rfl,
      fun h => by cases h⟩
  | true =>
    simp only [if_true] at hfit hpn s0 k0
    obtain ⟨d1, k1, t, ht, l1, hN, hlt⟩ := fit_curve_knot_insertion_ieee_count rd ls inv data N fuel hfit
      (by rw [k0, s0.1, d0]) (by rw [d0, s0.1]; omega)
    have e1 : ∀ s : ℕ, init.degree + 2 ^ s * (init.ctrlpts.length - init.degree) = p + 2 ^ s := fun s => by
      rw [d0, s0.1, Nat.add_sub_cancel_left, mul_one]
    rw [e1] at l1
    rw [d1, d0, l1] at k1
    obtain ⟨a1, a2, a3, a4⟩ := fin_ok k1 h
    refine ⟨p + 2 ^ t, a1, Nat.le_add_right _ _, a2, a3, by rw [a4, d1, d0], by rw [a4, l1], by rw [a4, k1], (fun h => by cases h),
      fun _ => ⟨t, ht, rfl, by rw [l1] at hN; exact_mod_cast hN, fun s hs => ?_⟩⟩
    have := hlt s hs
    rw [e1] at this
    exact_mod_cast this

end

/-! ## Double precision -/

section
variable {E : Err → Prop} {B : ℚ} {ls : ℕ → List (List (Ext ℚ)) → List (Ext ℚ) → Py (List (Ext ℚ))}
  {inv : Curve (Ext ℚ) → List (Ext ℚ) → Py (Ext ℚ)}

/-- **C193.** `BoundaryProblem.fit` with fixed control points in double precision with overflow and underflow: for end points
and data of doubles of size at most `B`, `2^-1000 ≤ B ≤ 2^1019`, degrees at most ten and more than three control points, every
run ends with an exception of the class `E` that the solver or the inversion raised, or with a fitted boundary of doubles
from `s` to `e` on the knots of `generate_uniform`. -/
theorem boundary_fit_fixed_binary64 (hB0 : 1 / 2 ^ 1000 ≤ B) (hB1 : B ≤ 2 ^ 1019) (hls : TameSolver bin64 (2 ^ 1023) B E ls)
    (hinv : TameCurveInversion bin64 E inv) {data : List (List ℚ)} (h3 : ∀ pt ∈ data, pt.length = 3)
    (hdata : ∀ pt ∈ data, ∀ x ∈ pt, bin64 x = fin x ∧ |x| ≤ B) {s e : List ℚ} (hs : s.length = 3) (he : e.length = 3)
    (hsB : ∀ x ∈ s, bin64 x = fin x ∧ |x| ≤ B) (heB : ∀ x ∈ e, bin64 x = fin x ∧ |x| ≤ B) {p n fuel : ℕ} (hp : 1 ≤ p)
    (hp10 : p ≤ 10) (hpn : p < n) (hn : 3 < n) (hn' : n ≤ 2 ^ 20) (hf : 0 < fuel)
    (hsize : 6 * p + n + data.length ≤ 10 ^ 8) :
    (∃ res, BoundaryFitR bin64 fuel ls inv false (lift1 s) (lift1 e) p n (lift2 data) res) ∧
    ∀ res, BoundaryFitR bin64 fuel ls inv false (lift1 s) (lift1 e) p n (lift2 data) res →
      (∃ err, E err ∧ res = .error err) ∨
      ∃ P U f, res = .ok f ∧ StoredBoundary bin64 B (1 / 2 ^ 1000) p n data.length s e P U f ∧
        generateUniformFl fl64 p n = .ok U := by
  obtain ⟨c, h1, hc, -, hU, hst, es, ee, hends⟩ := initialCurve_spaced hs he hpn (by omega) hn' hB0 hB1 hsB heB
  obtain ⟨⟨r, hr⟩, hall⟩ := fit_curve_fixed_binary64 hB0 hB1 hls h3 hdata hp hp10
    (fun _ _ c _ _ _ pt _ => hinv c.lift (lift1 pt)) (fuel := fuel) hc hst hends le_rfl hf hsize
  have hiff : ∀ res, BoundaryFitR bin64 fuel ls inv false (lift1 s) (lift1 e) p n (lift2 data) res ↔
      ∃ r, FitCurveFixedR bin64 fuel ls inv c.lift (lift2 data) r ∧
        match r with
        | .error e => res = .error e
        | .ok final => res = boundaryFinishE inv p (lift2 data) final := fun res => by
    unfold BoundaryFitR
    simp only [Bool.false_eq_true, if_false]
    rw [h1]
    exact exists_congr fun r => and_congr Iff.rfl (by cases r <;> exact Iff.rfl)
  refine ⟨?_, fun res hres => ?_⟩
  · cases r with
    | error e => exact ⟨_, (hiff _).2 ⟨_, hr, rfl⟩⟩
    | ok final => exact ⟨_, (hiff _).2 ⟨_, hr, rfl⟩⟩
  · obtain ⟨r, hr, hres⟩ := (hiff res).1 hres
    rcases hall r hr with ⟨err, he, rfl⟩ | ⟨c', rfl, hd, hk, hsh, hst', e0, e1⟩
    · exact Or.inl ⟨err, he, hres⟩
    dsimp only at hres
    have hc' : Spaced p n (1 / 2 ^ 1000) c' := ⟨hd, hsh, by rw [hk]; exact hc.clamped, by rw [hk]; exact hc.zero,
      by rw [hk]; exact hc.one, by rw [hk]; exact hc.gap⟩
    rcases boundaryFinishE_stored hinv h3 hdata hn hc' hst' (e0.trans es) (e1.trans ee) with ⟨err, he, hfin⟩ | ⟨f, hfin, hsb⟩
    · exact Or.inl ⟨err, he, hres.trans hfin⟩
    · exact Or.inr ⟨_, _, f, hres.trans hfin, hsb, by rw [hk]; exact hU⟩

/-- **C193.** The same for the adaptive method: `t` rounds of halving, at most fifteen, lead to `degree + 2^t` control points,
the first number of that form that reaches the one asked for; the knots are equally spaced up to `t 2^-52`. -/
theorem boundary_fit_adaptive_binary64 (hB0 : 1 / 2 ^ 1000 ≤ B) (hB1 : B ≤ 2 ^ 1019)
    (hls : TameSolver bin64 (2 ^ 1023) B E ls) (hinv : TameCurveInversion bin64 E inv) {data : List (List ℚ)}
    (h3 : ∀ pt ∈ data, pt.length = 3) (hdata : ∀ pt ∈ data, ∀ x ∈ pt, bin64 x = fin x ∧ |x| ≤ B) {s e : List ℚ}
    (hs : s.length = 3) (he : e.length = 3) (hsB : ∀ x ∈ s, bin64 x = fin x ∧ |x| ≤ B)
    (heB : ∀ x ∈ e, bin64 x = fin x ∧ |x| ≤ B) {p N t fuel : ℕ} (hp : 1 ≤ p) (hp10 : p ≤ 10) (ht : t ≤ 15)
    (hN : N ≤ p + 2 ^ t) (hlt : ∀ i < t, p + 2 ^ i < N) (hn : 3 < p + 2 ^ t) (hf : t < fuel)
    (hsize : data.length ≤ 10 ^ 7) :
    (∃ res, BoundaryFitR bin64 fuel ls inv true (lift1 s) (lift1 e) p N (lift2 data) res) ∧
    ∀ res, BoundaryFitR bin64 fuel ls inv true (lift1 s) (lift1 e) p N (lift2 data) res →
      (∃ err, E err ∧ res = .error err) ∨
      ∃ P U f, res = .ok f ∧ StoredBoundary bin64 B (1 / 2 ^ 1000) p (p + 2 ^ t) data.length s e P U f ∧
        ∀ j ≤ 2 ^ t, |knotFn U (p + j) - (j : ℚ) / 2 ^ t| ≤ t / 2 ^ 52 := by
  obtain ⟨c, h1, -, hc1, hU, hst, es, ee, hends⟩ := initialCurve_spaced hs he (Nat.lt_succ_self p) (by omega) (by omega) hB0 hB1
    hsB heB
  have hc := hc1 rfl
  have e1 : ∀ s : ℕ, p + 2 ^ s * (p + 1 - p) = p + 2 ^ s := fun s => by rw [Nat.add_sub_cancel_left, mul_one]
  have h2t : (2 : ℚ) ^ t ≤ 2 ^ 15 := pow_le_pow_right₀ (by norm_num) ht
  have h2n : 2 ^ t ≤ 2 ^ 15 := Nat.pow_le_pow_right (by norm_num) ht
  obtain ⟨⟨r, hr⟩, hall⟩ := knotFitR_runs hB0 hB1 hls h3 hdata hp hp10 (fun _ _ c _ _ _ pt _ => hinv c.lift (lift1 pt)) (N : ℤ) t
    (fuel := fuel) hc hst hends (by norm_num at h2t ⊢; linarith) hf (by rw [e1]; norm_num at h2n ⊢; omega)
    (by rw [e1]; exact_mod_cast hN) (fun i hi => by rw [e1]; exact_mod_cast hlt i hi)
  rw [e1] at hall
  have hiff : ∀ res, BoundaryFitR bin64 fuel ls inv true (lift1 s) (lift1 e) p N (lift2 data) res ↔
      ∃ r, KnotFitR bin64 ls inv (lift2 data) N fuel c.lift r ∧
        match r with
        | .error e => res = .error e
        | .ok final => res = boundaryFinishE inv p (lift2 data) final := fun res => by
    unfold BoundaryFitR
    simp only [if_true]
    rw [h1]
    exact exists_congr fun r => and_congr Iff.rfl (by cases r <;> exact Iff.rfl)
  refine ⟨?_, fun res hres => ?_⟩
  · cases r with
    | error e => exact ⟨_, (hiff _).2 ⟨_, hr, rfl⟩⟩
    | ok final => exact ⟨_, (hiff _).2 ⟨_, hr, rfl⟩⟩
  · obtain ⟨r, hr, hres⟩ := (hiff res).1 hres
    rcases hall r hr with ⟨err, he, rfl⟩ | ⟨c', δ', rfl, hδ', hs', hst', hv, e0, e1', -⟩
    · exact Or.inl ⟨err, he, hres⟩
    dsimp only at hres
    have hkn : ∀ j ≤ 2 ^ t, |knotFn c'.kv (p + j) - (j : ℚ) / 2 ^ t| ≤ t / 2 ^ 52 := fun j hj => by
      have := hv 0 (by omega) j hj
      rw [mul_zero, add_zero, hc.clamped.left p le_rfl, hc.zero, hc.clamped.right (p + 1) le_rfl (by omega),
        show p + 1 + p = p.succ + p from rfl, hc.one, sub_zero, mul_one, zero_add] at this
      exact this.trans (le_of_eq (by ring))
    have hgap : Spaced p (p + 2 ^ t) (1 / 2 ^ 1000) c' := ⟨hs'.deg, hs'.pts, hs'.clamped, hs'.zero, hs'.one, fun i i1 i2 => by
      obtain ⟨j, rfl⟩ := Nat.exists_eq_add_of_le i1
      have a := abs_le.1 (hkn j (by omega))
      have b := abs_le.1 (hkn (j + 1) (by omega))
      rw [← add_assoc] at b
      have ht' : (t : ℚ) ≤ 15 := by exact_mod_cast ht
      have c1 : (1 : ℚ) / 2 ^ 15 ≤ 1 / 2 ^ t := one_div_le_one_div_of_le (by positivity) h2t
      have c2 : (1 : ℚ) / 2 ^ 1000 ≤ 1 / 2 ^ 16 :=
        one_div_le_one_div_of_le (by positivity) (pow_le_pow_right₀ (by norm_num) (by norm_num))
      have c3 : (((j + 1 : ℕ) : ℚ)) / 2 ^ t = (j : ℚ) / 2 ^ t + 1 / 2 ^ t := by push_cast; ring
      rw [c3] at b
      have c4 : (t : ℚ) / 2 ^ 52 ≤ 15 / 2 ^ 52 := by gcongr
      have c5 : (1 : ℚ) / 2 ^ 16 + 30 / 2 ^ 52 ≤ 1 / 2 ^ 15 := by norm_num
      have a2 := a.2
      have b1 := b.1
      linarith⟩
    rcases boundaryFinishE_stored hinv h3 hdata hn hgap hst' (e0.trans es) (e1'.trans ee) with ⟨err, he, hfin⟩ | ⟨f, hfin, hsb⟩
    · exact Or.inl ⟨err, he, hres.trans hfin⟩
    · exact Or.inr ⟨_, _, f, hres.trans hfin, hsb, hkn⟩

end

/-- **C193.** `InteriorProblem.fit` in double precision with overflow and underflow, between two fitted boundaries of the same
degree and size with doubles of size at most `M`: every run ends with an exception of the class `E` that the solver or the
inversion raised, or with a surface of doubles on the knots of the bottom boundary and of `generate_uniform`, and with
parameters in `[0, 1]²` for the data.  Its bottom edge has exactly the control points of the bottom boundary, its top edge has
those of the top boundary up to `M 2^-47`. -/
theorem interior_problem_binary64 {E : Err → Prop} {M B : ℚ} (hM0 : 1 / 2 ^ 1000 ≤ M) (hMB : 2 * M ≤ B) (hB1 : B ≤ 2 ^ 1019)
    {ls : ℕ → List (List (Ext ℚ)) → List (Ext ℚ) → Py (List (Ext ℚ))} (hls : TameSolver bin64 (2 ^ 1023) B E ls)
    {inv : Surface (Ext ℚ) → List (Ext ℚ) → Py (Ext ℚ × Ext ℚ)} (hinv : TameSurfaceInversion bin64 E inv)
    {p n q m mt mb : ℕ} {st et sb eb : List ℚ} {Pt Pb : List (List ℚ)} {Ut Ub : List ℚ} {t b : Fitted (Ext ℚ)}
    (ht : StoredBoundary bin64 M (1 / 2 ^ 1000) p n mt st et Pt Ut t)
    (hb : StoredBoundary bin64 M (1 / 2 ^ 1000) p n mb sb eb Pb Ub b) (hp1 : 1 ≤ p) (hp7 : p ≤ 7) (hq : q < m) (hq1 : 1 ≤ q)
    (hq7 : q ≤ 7) {data : List (List ℚ)} (h3 : ∀ pt ∈ data, pt.length = 3)
    (hdata : ∀ pt ∈ data, ∀ x ∈ pt, bin64 x = fin x ∧ |x| ≤ B) (hsize : 5 * p + 5 * q + 1 + n * m + data.length ≤ 10 ^ 8) :
    (∃ res, InteriorFitR bin64 ls inv t b q m (lift2 data) res) ∧
    ∀ res, InteriorFitR bin64 ls inv t b q m (lift2 data) res → (∃ err, E err ∧ res = .error err) ∨
      ∃ P V rows, res = .ok (Surface.lift ⟨p, q, n, m, P, Ub, V⟩, lift2 rows) ∧
        (Shape P (n * m) 3 ∧ StoredSurface bin64 B ⟨p, q, n, m, P, Ub, V⟩ ∧ generateUniformFl fl64 q m = .ok V) ∧
        (Shape rows data.length 5 ∧ (∀ row ∈ rows, ∀ x ∈ row, bin64 x = fin x) ∧
          ∀ row ∈ rows, (0 ≤ row.getD 3 0 ∧ row.getD 3 0 ≤ 1) ∧ 0 ≤ row.getD 4 0 ∧ row.getD 4 0 ≤ 1) ∧
        ∀ k < 3, ∀ i < n, coord P k (i * m) = coord Pb k i ∧
          |coord P k (i * m + (m - 1)) - coord Pt k i| ≤ M / 2 ^ 47 := by
  obtain ⟨rt, hrt, srt, -⟩ := ht.data
  obtain ⟨rb, hrb, srb, -⟩ := hb.data
  have hbn := hb.clamped.size
  have hgap : Spaced p n (1 / 2 ^ 1000) (⟨p, Pb, Ub⟩ : Curve ℚ) :=
    ⟨rfl, hb.shape, hb.clamped, hb.zero, hb.one, hb.gap⟩
  have len4 : ∀ {rows : List (List ℚ)} {r : ℕ}, Shape rows r 4 → ∀ row ∈ lift2 rows, row.length = 4 := by
    intro rows r h row hrow
    obtain ⟨x, hx, rfl⟩ := List.mem_map.1 hrow
    rw [List.length_map]
    exact h.2 x hx
  have hsm : m ≤ 2 ^ 49 := by
    have : 1 * m ≤ n * m := Nat.mul_le_mul_right m (by omega)
    omega
  have hM1 : M ≤ 2 ^ 1019 := by
    have : 0 < M := lt_of_lt_of_le (by positivity) hM0
    linarith
  obtain ⟨P, V, g1, -, g3, -⟩ := ruled_surface_binary64 (t := ⟨some p, some n, ⟨p, Pt, Ut⟩, none⟩)
    (b := ⟨some p, some n, ⟨p, Pb, Ub⟩, none⟩) rfl rfl rfl rfl ht.shape hb.shape hM0 hM1 hb.stored ht.stored hq hq1 hsm
  obtain ⟨S, k1, -, -, k2, k3⟩ := interior_fit_binary64 (t := ⟨some p, some n, ⟨p, Pt, Ut⟩, none⟩)
    (b := ⟨some p, some n, ⟨p, Pb, Ub⟩, none⟩) (top := lift2 rt) (bottom := lift2 rb) hM0 hMB hB1 hls rfl rfl rfl rfl ht.shape
    hb.shape hb.stored ht.stored hp1 hp7 hb.clamped hb.zero hb.one
    (by
      have := hb.gap p le_rfl (by omega)
      have h0 : (0 : ℚ) < 1 / 2 ^ 1000 := by positivity
      dsimp only
      linarith)
    hgap.sep hq hq1 hq7 h3 hdata (len4 srt) (len4 srb) (fun S _ _ pt _ => hinv S.lift (lift1 pt)) hsize
  have hS : S = ⟨p, q, n, m, P, Ub, V⟩ := Surface.lift_inj (Except.ok.inj (k1.symm.trans g1))
  have hruled : ruledSurfaceR bin64 (some t) (some b) (some (q : ℤ)) (some (m : ℤ)) = .ok (Surface.lift S) := by
    rw [← k1]
    unfold ruledSurfaceR
    simp only [attrOf, ok_bind, Fitted.lift, ht.degree, hb.degree, ht.num, hb.num, ht.curve, hb.curve]
    rfl
  have hiff : ∀ res, InteriorFitR bin64 ls inv t b q m (lift2 data) res ↔
      ∃ r, FitSurfaceR bin64 ls (inv S.lift) S.lift (lift2 data) (lift2 rt) (lift2 rb) r ∧
        match r with
        | .error e => res = .error e
        | .ok final => res = (do
          let pd ← parameterizeSurfaceWithE (inv final) (lift2 data)
          .ok (final, pd)) := fun res => by
    unfold InteriorFitR
    rw [hruled]
    unfold FitSurfaceOfR
    rw [hrt, hrb]
    exact exists_congr fun r => and_congr Iff.rfl (by cases r <;> exact Iff.rfl)
  refine ⟨?_, fun res hres => ?_⟩
  · obtain ⟨r, hr⟩ := k2
    cases r with
    | error e => exact ⟨_, (hiff _).2 ⟨_, hr, rfl⟩⟩
    | ok final => exact ⟨_, (hiff _).2 ⟨_, hr, rfl⟩⟩
  · obtain ⟨r, hr, hres⟩ := (hiff res).1 hres
    rcases k3 r hr with ⟨err, he, rfl⟩ | ⟨Q, rfl, hQ, hQst, hedge⟩
    · exact Or.inl ⟨err, he, hres⟩
    dsimp only at hres
    rw [hS] at hres hQst
    rcases parameterizeSurfaceWithE_finite (E := E) h3 hdata (fun pt _ => hinv _ (lift1 pt)) with
      ⟨err, herr, hp⟩ | ⟨rows, hp, hsh, hran, hrs, -⟩
    · exact Or.inl ⟨err, herr, by rw [hres, hp]; rfl⟩
    · refine Or.inr ⟨Q, V, rows, by rw [hres, hp]; rfl, ⟨hQ, hQst, g3⟩, ⟨hsh, ?_, ?_⟩, hedge⟩
      · exact forall_row_of_at2 hsh.1 fun r hr => forall_mem_of_getD (length_getD_of_shape hsh hr) fun k hk => hrs k hk r hr
      · exact forall_row_of_at2 hsh.1 fun r hr => hran r hr

/-! ## A session -/

section
variable {E : Err → Prop} {cinv : Curve (Ext ℚ) → List (Ext ℚ) → Py (Ext ℚ)}
  {sinv : Surface (Ext ℚ) → List (Ext ℚ) → Py (Ext ℚ × Ext ℚ)}

/-- **C193.** A session in double precision as in `session_binary64`, with any solver and any inversions that return doubles of the
size in question or raise exceptions of a class `E`. -/
theorem session_with_binary64 {B : ℚ} (hB0 : 1 / 2 ^ 1000 ≤ B) (hB1 : 2 * B ≤ 2 ^ 1019)
    {ls : ℕ → List (List (Ext ℚ)) → List (Ext ℚ) → Py (List (Ext ℚ))}
    (hls : TameSolver bin64 (2 ^ 1023) B E ls)
    (hcI : TameCurveInversion bin64 E cinv) (hsI : TameSurfaceInversion bin64 E sinv)
    {st et sb eb : List ℚ} (hst : st.length = 3) (het : et.length = 3) (hsb : sb.length = 3) (heb : eb.length = 3)
    (hends : ∀ x ∈ st ++ et ++ sb ++ eb, bin64 x = fin x ∧ |x| ≤ B) {dt db data : List (List ℚ)}
    (h3 : ∀ pt ∈ dt ++ db ++ data, pt.length = 3)
    (hdata : ∀ pt ∈ dt ++ db ++ data, ∀ x ∈ pt, bin64 x = fin x ∧ |x| ≤ B) {p n q m fuel : ℕ} (hp : 1 ≤ p) (hp7 : p ≤ 7)
    (hpn : p < n) (hn : 3 < n) (hn' : n ≤ 2 ^ 20) (hq : 1 ≤ q) (hq7 : q ≤ 7) (hqm : q < m) (hf : 0 < fuel)
    (hsize : 200 + n * m + dt.length + db.length + data.length ≤ 10 ^ 8) :
    ((∃ rt, BoundaryFitR bin64 fuel ls cinv false (lift1 st)
        (lift1 et) p n (lift2 dt) rt) ∧
      ∃ rb, BoundaryFitR bin64 fuel ls cinv false (lift1 sb)
        (lift1 eb) p n (lift2 db) rb) ∧
    ∀ rt rb, BoundaryFitR bin64 fuel ls cinv false (lift1 st)
        (lift1 et) p n (lift2 dt) rt →
      BoundaryFitR bin64 fuel ls cinv false (lift1 sb)
        (lift1 eb) p n (lift2 db) rb →
      (∃ err, E err ∧ (rt = .error err ∨ rb = .error err)) ∨
      ∃ t b, rt = .ok t ∧ rb = .ok b ∧
        (∃ res, InteriorFitR bin64 ls sinv t b q m
          (lift2 data) res) ∧
        ∀ res, InteriorFitR bin64 ls sinv t b q m
          (lift2 data) res → (∃ err, E err ∧ res = .error err) ∨
          ∃ P U V rows, res = .ok (Surface.lift ⟨p, q, n, m, P, U, V⟩, lift2 rows) ∧ Shape P (n * m) 3 ∧
            StoredSurface bin64 (2 * B) ⟨p, q, n, m, P, U, V⟩ ∧ generateUniformFl fl64 p n = .ok U ∧
            generateUniformFl fl64 q m = .ok V ∧ Shape rows data.length 5 ∧
            ∀ k < 3, coord P k 0 = sb.getD k 0 ∧ coord P k ((n - 1) * m) = eb.getD k 0 ∧
              |coord P k (m - 1) - st.getD k 0| ≤ B / 2 ^ 47 ∧
              |coord P k ((n - 1) * m + (m - 1)) - et.getD k 0| ≤ B / 2 ^ 47 := by
  have hB : 0 < B := lt_of_lt_of_le (by positivity) hB0
  have hnm : n * 1 ≤ n * m := Nat.mul_le_mul_left n (by omega)
  obtain ⟨ext, allt⟩ := boundary_fit_fixed_binary64 hB0 (by linarith) hls hcI (data := dt) (s := st) (e := et) (p := p) (n := n)
    (fuel := fuel) (fun pt h => h3 pt (by simp [h])) (fun pt h => hdata pt (by simp [h])) hst het
    (fun x h => hends x (by simp [h])) (fun x h => hends x (by simp [h])) hp (by omega) hpn hn hn' hf (by omega)
  obtain ⟨exb, allb⟩ := boundary_fit_fixed_binary64 hB0 (by linarith) hls hcI (data := db) (s := sb) (e := eb) (p := p) (n := n)
    (fuel := fuel) (fun pt h => h3 pt (by simp [h])) (fun pt h => hdata pt (by simp [h])) hsb heb
    (fun x h => hends x (by simp [h])) (fun x h => hends x (by simp [h])) hp (by omega) hpn hn hn' hf (by omega)
  refine ⟨⟨ext, exb⟩, fun rt rb hrt hrb => ?_⟩
  rcases allt rt hrt with ⟨err, he, rfl⟩ | ⟨Pt, Ut, t, rfl, ht, -⟩
  · exact Or.inl ⟨err, he, Or.inl rfl⟩
  rcases allb rb hrb with ⟨err, he, rfl⟩ | ⟨Pb, Ub, b, rfl, hb, hU⟩
  · exact Or.inl ⟨err, he, Or.inr rfl⟩
  obtain ⟨hex, hall⟩ := interior_problem_binary64 hB0 le_rfl hB1 (hls.grow (by linarith)) hsI ht hb hp hp7 hqm hq hq7 (data := data)
    (fun pt h => h3 pt (by simp [h]))
    (fun pt h x hx => ⟨(hdata pt (by simp [h]) x hx).1, (hdata pt (by simp [h]) x hx).2.trans (by linarith)⟩) (by omega)
  refine Or.inr ⟨t, b, rfl, rfl, hex, fun res hres => (hall res hres).imp id ?_⟩
  rintro ⟨P, V, rows, h1, ⟨h2, h4, h5⟩, ⟨h6, -⟩, h7⟩
  refine ⟨P, Ub, V, rows, h1, h2, h4, hU, h5, h6, fun k hk => ?_⟩
  have a := h7 k hk 0 (by omega)
  have c := h7 k hk (n - 1) (by omega)
  rw [zero_mul, zero_add] at a
  refine ⟨?_, ?_, ?_, ?_⟩
  · rw [a.1, coord, hb.start]
  · rw [c.1, coord, hb.stop]
  · have := a.2; rwa [coord, coord, ht.start] at this
  · have := c.2; rwa [coord, coord, ht.stop] at this

end

/-! ## A session with the inversion functions of the library -/

section
variable {A : Arith ℚ} {eps1 eps2 : Ext ℚ} {maxIter : ℤ} {fuelI : ℕ}

/-- **C193.** The inversion functions of the library are of the kind that the problem objects need, however norms, products and
evaluations are computed. -/
theorem own_curve_inversion_tame (hA : A.Stored bin64) (hAt : A.Total) {cv : Curve (Ext ℚ) → CurveLike (Ext ℚ)}
    (hcv : ∀ c, (cv c).Checks ∧ (cv c).TotalE) (hfI : maxIter + 2 ≤ fuelI) (hfI1 : 1 ≤ fuelI) :
    TameCurveInversion bin64 (· ≠ .diverged) fun c pt => curveInversionA fuelI A (cv c) pt eps1 eps2 maxIter := fun c pt =>
  curve_inversion_stored hA (hcv c).1 hAt (hcv c).2 pt eps1 eps2 hfI hfI1

theorem own_surface_inversion_tame (hA : A.Stored bin64) (hAt : A.Total) (hAp : A.Propagates)
    {sv : Surface (Ext ℚ) → SurfLike (Ext ℚ)} (hsv : ∀ s, (sv s).Checks ∧ (sv s).TotalE)
    (hrow : ∀ s u v m, (sv s).ders u v = .ok m → ∀ row ∈ m, row ≠ []) (hfI : maxIter + 1 ≤ fuelI) (hfI1 : 1 ≤ fuelI) :
    TameSurfaceInversion bin64 (· ≠ .diverged) fun s pt => surfaceInversionA fuelI A (sv s) pt eps1 eps2 maxIter := fun s pt =>
  surface_inversion_stored hA hAp (hsv s).1 (hrow s) hAt (hsv s).2 pt eps1 eps2 hfI hfI1

/-- **C193.** A session of the library in double precision with overflow and underflow: two boundary problems with fixed control
points are fitted, then the interior problem between them.  End points and data are doubles of size at most `B`,
`2^-1000 ≤ B ≤ 2^1018`, the degrees at most seven, the numbers of control points larger than the degrees, along the boundaries
larger than three.  If every call of the solver returns as many doubles of size at most `B` as there are unknowns, or raises:
each of the three fits has an outcome and none hangs; unless one of them raises, the session ends with a surface of doubles on
the knots of `generate_uniform` that starts and ends, on its bottom edge, exactly in the points given for the bottom boundary
and, on its top edge, in those given for the top boundary up to `B 2^-47`. -/
theorem session_binary64 {B : ℚ} (hB0 : 1 / 2 ^ 1000 ≤ B) (hB1 : 2 * B ≤ 2 ^ 1019)
    {ls : ℕ → List (List (Ext ℚ)) → List (Ext ℚ) → Py (List (Ext ℚ))}
    (hls : TameSolver bin64 (2 ^ 1023) B (· ≠ .diverged) ls) (hA : A.Stored bin64) (hAt : A.Total) (hAp : A.Propagates)
    {cv : Curve (Ext ℚ) → CurveLike (Ext ℚ)} (hcv : ∀ c, (cv c).Checks ∧ (cv c).TotalE)
    {sv : Surface (Ext ℚ) → SurfLike (Ext ℚ)} (hsv : ∀ s, (sv s).Checks ∧ (sv s).TotalE)
    (hrow : ∀ s u v m, (sv s).ders u v = .ok m → ∀ row ∈ m, row ≠ []) (hfI : maxIter + 2 ≤ fuelI) (hfI1 : 1 ≤ fuelI)
    {st et sb eb : List ℚ} (hst : st.length = 3) (het : et.length = 3) (hsb : sb.length = 3) (heb : eb.length = 3)
    (hends : ∀ x ∈ st ++ et ++ sb ++ eb, bin64 x = fin x ∧ |x| ≤ B) {dt db data : List (List ℚ)}
    (h3 : ∀ pt ∈ dt ++ db ++ data, pt.length = 3)
    (hdata : ∀ pt ∈ dt ++ db ++ data, ∀ x ∈ pt, bin64 x = fin x ∧ |x| ≤ B) {p n q m fuel : ℕ} (hp : 1 ≤ p) (hp7 : p ≤ 7)
    (hpn : p < n) (hn : 3 < n) (hn' : n ≤ 2 ^ 20) (hq : 1 ≤ q) (hq7 : q ≤ 7) (hqm : q < m) (hf : 0 < fuel)
    (hsize : 200 + n * m + dt.length + db.length + data.length ≤ 10 ^ 8) :
    ((∃ rt, BoundaryFitR bin64 fuel ls (fun c pt => curveInversionA fuelI A (cv c) pt eps1 eps2 maxIter) false (lift1 st)
        (lift1 et) p n (lift2 dt) rt) ∧
      ∃ rb, BoundaryFitR bin64 fuel ls (fun c pt => curveInversionA fuelI A (cv c) pt eps1 eps2 maxIter) false (lift1 sb)
        (lift1 eb) p n (lift2 db) rb) ∧
    ∀ rt rb, BoundaryFitR bin64 fuel ls (fun c pt => curveInversionA fuelI A (cv c) pt eps1 eps2 maxIter) false (lift1 st)
        (lift1 et) p n (lift2 dt) rt →
      BoundaryFitR bin64 fuel ls (fun c pt => curveInversionA fuelI A (cv c) pt eps1 eps2 maxIter) false (lift1 sb)
        (lift1 eb) p n (lift2 db) rb →
      (∃ err, err ≠ .diverged ∧ (rt = .error err ∨ rb = .error err)) ∨
      ∃ t b, rt = .ok t ∧ rb = .ok b ∧
        (∃ res, InteriorFitR bin64 ls (fun s pt => surfaceInversionA fuelI A (sv s) pt eps1 eps2 maxIter) t b q m
          (lift2 data) res) ∧
        ∀ res, InteriorFitR bin64 ls (fun s pt => surfaceInversionA fuelI A (sv s) pt eps1 eps2 maxIter) t b q m
          (lift2 data) res → (∃ err, err ≠ .diverged ∧ res = .error err) ∨
          ∃ P U V rows, res = .ok (Surface.lift ⟨p, q, n, m, P, U, V⟩, lift2 rows) ∧ Shape P (n * m) 3 ∧
            StoredSurface bin64 (2 * B) ⟨p, q, n, m, P, U, V⟩ ∧ generateUniformFl fl64 p n = .ok U ∧
            generateUniformFl fl64 q m = .ok V ∧ Shape rows data.length 5 ∧
            ∀ k < 3, coord P k 0 = sb.getD k 0 ∧ coord P k ((n - 1) * m) = eb.getD k 0 ∧
              |coord P k (m - 1) - st.getD k 0| ≤ B / 2 ^ 47 ∧
              |coord P k ((n - 1) * m + (m - 1)) - et.getD k 0| ≤ B / 2 ^ 47 :=
  session_with_binary64 hB0 hB1 hls (own_curve_inversion_tame (eps1 := eps1) (eps2 := eps2) hA hAt hcv hfI hfI1)
    (own_surface_inversion_tame (eps1 := eps1) (eps2 := eps2) (maxIter := maxIter) (fuelI := fuelI) hA hAt hAp hsv hrow
      (by omega) hfI1) hst het hsb heb hends h3 hdata hp hp7 hpn hn hn' hq hq7 hqm hf hsize

end

/-! ## Concrete cases -/

/-- C193: with three fixed control points `fit` never returns, whatever the arithmetic; the setter refuses what the fit did. -/
example {rd : ℚ → Ext ℚ} {fuel : ℕ} {ls : ℕ → List (List (Ext ℚ)) → List (Ext ℚ) → Py (List (Ext ℚ))}
    {inv : Curve (Ext ℚ) → List (Ext ℚ) → Py (Ext ℚ)} {s e : List (Ext ℚ)} {data : List (List (Ext ℚ))} {f : Fitted (Ext ℚ)} :
    ¬ BoundaryFitR rd fuel ls inv false s e 2 3 data (.ok f) := fun h => by
  obtain ⟨n, h1, -, -, -, -, -, -, h2, -⟩ := boundary_fit_ieee_count h
  have := h2 rfl
  omega

/-- C193: the adaptive method, asked for five control points of degree two, returns six. -/
example {rd : ℚ → Ext ℚ} {fuel : ℕ} {ls : ℕ → List (List (Ext ℚ)) → List (Ext ℚ) → Py (List (Ext ℚ))}
    {inv : Curve (Ext ℚ) → List (Ext ℚ) → Py (Ext ℚ)} {s e : List (Ext ℚ)} {data : List (List (Ext ℚ))} {f : Fitted (Ext ℚ)}
    (h : BoundaryFitR rd fuel ls inv true s e 2 5 data (.ok f)) :
    f.numCtrl = some 6 ∧ f.fitCurve.ctrlpts.length = 6 := by
  obtain ⟨n, -, -, -, h1, -, h2, -, -, h3⟩ := boundary_fit_ieee_count h
  obtain ⟨t, -, rfl, h4, h5⟩ := h3 rfl
  match t with
  | 0 => norm_num at h4
  | 1 => norm_num at h4
  | 2 => exact ⟨h1, h2⟩
  | t + 3 => have := h5 2 (by omega); norm_num at this

/-- C193: the end of `fit` sets the number of control points and parameterizes the data on the fitted curve, sorted by their
parameters. -/
example : boundaryFinishE exInvFirstE 1 [[1, 0, 0], [fin (1 / 2), 0, 0]]
      ⟨1, [[0, 0, 0], [1, 0, 0], [1, 1, 0], [1, 1, 1]], [0, 0, fin (1 / 4), fin (1 / 2), 1, 1]⟩
    = .ok ⟨some 1, some 4, ⟨1, [[0, 0, 0], [1, 0, 0], [1, 1, 0], [1, 1, 1]], [0, 0, fin (1 / 4), fin (1 / 2), 1, 1]⟩,
        some [[fin (1 / 2), 0, 0, fin (1 / 2)], [1, 0, 0, 1]]⟩ ∧
    boundaryFinishE exInvFirstE 1 [] ⟨1, [[0, 0, 0], [1, 0, 0], [1, 1, 0]], [0, 0, fin (1 / 4), 1, 1]⟩ = .error .valueError := by
  decide +kernel

/-- C193: boundaries that have been fitted but not parameterized are a `TypeError` after the data of the interior problem have
been parameterized. -/
example {r : Py (Surface (Ext ℚ) × List (List (Ext ℚ)))}
    (h : InteriorFitR bin64 exZeroSolver (fun _ _ => .ok (0, 0)) exTop.lift exBottom.lift 1 3 [[0, 0, 0]] r) :
    r = .error .typeError := by
  unfold InteriorFitR at h
  split at h
  · rename_i e he
    have : (ruledSurfaceR bin64 (some exTop.lift) (some exBottom.lift) (some 1) (some 3)).isOk = true := by decide +kernel
    rw [show (((1 : ℕ) : ℤ)) = 1 from rfl, show (((3 : ℕ) : ℤ)) = 3 from rfl] at he
    rw [he] at this
    cases this
  · obtain ⟨res, h1, h2⟩ := h
    have h1 : res = .error .typeError := h1
    subst h1
    exact h2

/-- C193: a session. -/
example : ∀ rt rb, BoundaryFitR bin64 1 exZeroSolver (fun c pt => curveInversionA 102 (ieeeArith bin64 (sumNormR bin64))
        (exGraphLike c) pt (bin64 (1 / 10 ^ 5)) (bin64 (1 / 10 ^ 5)) 100) false (lift1 [0, 1, 0]) (lift1 [2, 1, 0]) 2 5
        (lift2 exKnotData) rt →
      BoundaryFitR bin64 1 exZeroSolver (fun c pt => curveInversionA 102 (ieeeArith bin64 (sumNormR bin64))
        (exGraphLike c) pt (bin64 (1 / 10 ^ 5)) (bin64 (1 / 10 ^ 5)) 100) false (lift1 [0, 0, 0]) (lift1 [2, 0, 1 / 2]) 2 5
        (lift2 exKnotData) rb →
      (∃ err, err ≠ .diverged ∧ (rt = .error err ∨ rb = .error err)) ∨
      ∃ t b, rt = .ok t ∧ rb = .ok b ∧
        ∀ res, InteriorFitR bin64 exZeroSolver (fun s pt => surfaceInversionA 102 (ieeeArith bin64 (sumNormR bin64))
          (exPlaneLike s) pt (bin64 (1 / 10 ^ 5)) (bin64 (1 / 10 ^ 5)) 100) t b 1 3 (lift2 [[1, 1, 1], [2, 1, 1]]) res →
          (∃ err, err ≠ .diverged ∧ res = .error err) ∨
          ∃ P U V rows, res = .ok (Surface.lift ⟨2, 1, 5, 3, P, U, V⟩, lift2 rows) ∧ Shape P 15 3 ∧
            StoredSurface bin64 4 ⟨2, 1, 5, 3, P, U, V⟩ ∧ coord P 2 12 = 1 / 2 := by
  obtain ⟨-, hall⟩ := session_binary64 (B := 2) (eps1 := bin64 (1 / 10 ^ 5)) (eps2 := bin64 (1 / 10 ^ 5)) (maxIter := 100)
    (fuelI := 102) (st := [0, 1, 0]) (et := [2, 1, 0]) (sb := [0, 0, 0]) (eb := [2, 0, 1 / 2]) (dt := exKnotData)
    (db := exKnotData) (data := [[1, 1, 1], [2, 1, 1]]) (p := 2) (n := 5) (q := 1) (m := 3) (fuel := 1) exTwo_size.1
    (by decide +kernel) (exZeroSolver_tame.mono fun _ h => h.elim) (ieeeArith_stored (sumNormR bin64)) (ieeeArith_total _ _)
    (ieeeArith_propagates _ (sumNormR_nan _)) exGraphLike_ok (fun s => (exPlaneLike_ok s).1) (fun s => (exPlaneLike_ok s).2)
    (by norm_num) (by norm_num) rfl rfl rfl rfl (by decide +kernel) (by decide +kernel) (by decide +kernel) (by norm_num)
    (by norm_num) (by norm_num) (by norm_num) (by norm_num) (by norm_num) (by norm_num) (by norm_num) (by norm_num)
    (by decide +kernel)
  intro rt rb hrt hrb
  refine (hall rt rb hrt hrb).imp id ?_
  rintro ⟨t, b, h1, h2, -, h3⟩
  refine ⟨t, b, h1, h2, fun res hres => (h3 res hres).imp id ?_⟩
  rintro ⟨P, U, V, rows, a1, a2, a3, -, -, -, a4⟩
  refine ⟨P, U, V, rows, a1, a2, ?_, (a4 2 (by norm_num)).2.1⟩
  rw [show (4 : ℚ) = 2 * 2 by norm_num]
  exact a3

end PySpline
