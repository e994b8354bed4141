import Verif.Props.IeeeSessionEval

/-!
# C195: sessions with the adaptive method in IEEE arithmetic
-/

set_option linter.unusedSectionVars false
set_option exponentiation.threshold 1100

namespace PySpline

open Spec Ext Finset

section
variable {E : Err → Prop} {cinv : Curve (Ext ℚ) → List (Ext ℚ) → Py (Ext ℚ)}
  {sinv : Surface (Ext ℚ) → List (Ext ℚ) → Py (Ext ℚ × Ext ℚ)}

/-- **C195.** `adaptive_session_binary64` with any solver and any inversions that return doubles of the size in question or raise
exceptions of a class `E`. -/
theorem adaptive_session_with_binary64 {B : ℚ} (hB0 : 1 / 2 ^ 1000 ≤ B) (hB1 : 2 * B ≤ 2 ^ 1019)
    {ls : ℕ → List (List (Ext ℚ)) → List (Ext ℚ) → Py (List (Ext ℚ))}
    (hls : TameSolver bin64 (2 ^ 1023) B E ls)
    (hcI : TameCurveInversion bin64 E cinv) (hsI : TameSurfaceInversion bin64 E sinv)
    {st et sb eb : List ℚ} (hst : st.length = 3) (het : et.length = 3) (hsb : sb.length = 3) (heb : eb.length = 3)
    (hends : ∀ x ∈ st ++ et ++ sb ++ eb, bin64 x = fin x ∧ |x| ≤ B) {dt db data : List (List ℚ)}
    (h3 : ∀ pt ∈ dt ++ db ++ data, pt.length = 3)
    (hdata : ∀ pt ∈ dt ++ db ++ data, ∀ x ∈ pt, bin64 x = fin x ∧ |x| ≤ B) {p N t q m fuel : ℕ} (hp : 1 ≤ p) (hp7 : p ≤ 7)
    (ht : t ≤ 15) (hN : N ≤ p + 2 ^ t) (hlt : ∀ i < t, p + 2 ^ i < N) (hn : 3 < p + 2 ^ t) (hq : 1 ≤ q) (hq7 : q ≤ 7)
    (hqm : q < m) (hf : t < fuel) (hsize : 200 + (p + 2 ^ t) * m + data.length ≤ 10 ^ 8)
    (hsize' : dt.length + db.length ≤ 10 ^ 7) :
    ((∃ rt, BoundaryFitR bin64 fuel ls cinv true (lift1 st)
        (lift1 et) p N (lift2 dt) rt) ∧
      ∃ rb, BoundaryFitR bin64 fuel ls cinv true (lift1 sb)
        (lift1 eb) p N (lift2 db) rb) ∧
    ∀ rt rb, BoundaryFitR bin64 fuel ls cinv true (lift1 st)
        (lift1 et) p N (lift2 dt) rt →
      BoundaryFitR bin64 fuel ls cinv true (lift1 sb)
        (lift1 eb) p N (lift2 db) rb →
      (∃ err, E err ∧ (rt = .error err ∨ rb = .error err)) ∨
      ∃ tb bb, rt = .ok tb ∧ rb = .ok bb ∧
        (∃ res, InteriorFitR bin64 ls sinv tb bb q m
          (lift2 data) res) ∧
        ∀ res, InteriorFitR bin64 ls sinv tb bb q m
          (lift2 data) res → (∃ err, E err ∧ res = .error err) ∨
          ∃ P U V rows, res = .ok (Surface.lift ⟨p, q, p + 2 ^ t, m, P, U, V⟩, lift2 rows) ∧ Shape P ((p + 2 ^ t) * m) 3 ∧
            StoredSurface bin64 (2 * B) ⟨p, q, p + 2 ^ t, m, P, U, V⟩ ∧
            (Clamped p (p + 2 ^ t) U ∧ knotFn U 0 = 0 ∧ knotFn U (p + 2 ^ t + p) = 1 ∧
              ∀ j ≤ 2 ^ t, |knotFn U (p + j) - (j : ℚ) / 2 ^ t| ≤ t / 2 ^ 52) ∧
            generateUniformFl fl64 q m = .ok V ∧ Shape rows data.length 5 ∧
            ∀ k < 3, coord P k 0 = sb.getD k 0 ∧ coord P k ((p + 2 ^ t - 1) * m) = eb.getD k 0 ∧
              |coord P k (m - 1) - st.getD k 0| ≤ B / 2 ^ 47 ∧
              |coord P k ((p + 2 ^ t - 1) * m + (m - 1)) - et.getD k 0| ≤ B / 2 ^ 47 := by
  have hB : 0 < B := lt_of_lt_of_le (by positivity) hB0
  obtain ⟨ext, allt⟩ := boundary_fit_adaptive_binary64 hB0 (by linarith) hls hcI (data := dt) (s := st) (e := et) (p := p)
    (N := N) (t := t) (fuel := fuel) (fun pt h => h3 pt (by simp [h])) (fun pt h => hdata pt (by simp [h])) hst het
    (fun x h => hends x (by simp [h])) (fun x h => hends x (by simp [h])) hp (by omega) ht hN hlt hn hf (by omega)
  obtain ⟨exb, allb⟩ := boundary_fit_adaptive_binary64 hB0 (by linarith) hls hcI (data := db) (s := sb) (e := eb) (p := p)
    (N := N) (t := t) (fuel := fuel) (fun pt h => h3 pt (by simp [h])) (fun pt h => hdata pt (by simp [h])) hsb heb
    (fun x h => hends x (by simp [h])) (fun x h => hends x (by simp [h])) hp (by omega) ht hN hlt hn hf (by omega)
  refine ⟨⟨ext, exb⟩, fun rt rb hrt hrb => ?_⟩
  rcases allt rt hrt with ⟨err, he, rfl⟩ | ⟨Pt, Ut, tb, rfl, htb, -⟩
  · exact Or.inl ⟨err, he, Or.inl rfl⟩
  rcases allb rb hrb with ⟨err, he, rfl⟩ | ⟨Pb, Ub, bb, rfl, hbb, hU⟩
  · exact Or.inl ⟨err, he, Or.inr rfl⟩
  obtain ⟨hex, hall⟩ := interior_problem_binary64 hB0 le_rfl hB1 (hls.grow (by linarith)) hsI htb hbb hp hp7 hqm hq hq7 (data := data)
    (fun pt h => h3 pt (by simp [h]))
    (fun pt h x hx => ⟨(hdata pt (by simp [h]) x hx).1, (hdata pt (by simp [h]) x hx).2.trans (by linarith)⟩) (by omega)
  refine Or.inr ⟨tb, bb, rfl, rfl, hex, fun res hres => (hall res hres).imp id ?_⟩
  rintro ⟨P, V, rows, h1, ⟨h2, h4, h5⟩, ⟨h6, -⟩, h7⟩
  refine ⟨P, Ub, V, rows, h1, h2, h4, ⟨hbb.clamped, hbb.zero, hbb.one, hU⟩, h5, h6, fun k hk => ?_⟩
  have a := h7 k hk 0 (by omega)
  have c := h7 k hk (p + 2 ^ t - 1) (by omega)
  rw [zero_mul, zero_add] at a
  refine ⟨?_, ?_, ?_, ?_⟩
  · rw [a.1, coord, hbb.start]
  · rw [c.1, coord, hbb.stop]
  · have := a.2; rwa [coord, coord, htb.start] at this
  · have := c.2; rwa [coord, coord, htb.stop] at this

end

section
variable {A : Arith ℚ} {eps1 eps2 : Ext ℚ} {maxIter : ℤ} {fuelI : ℕ}

/-- **C195.** A session in double precision with overflow and underflow whose boundaries are fitted by knot insertion: end points
and data are doubles of size at most `B`, `2^-1000 ≤ B ≤ 2^1018`, the degrees at most seven, `p + 2^t`, `t ≤ 15`, is the first
number of this form that reaches the number of control points asked for, and larger than three.  If every call of the solver
returns as many doubles of size at most `B` as there are unknowns, or raises: each of the three fits has an outcome and none
hangs; unless one of them raises, the session ends with a surface of doubles with `(p + 2^t) m` control points, on knots that
are equally spaced up to `t 2^-52` along the boundaries and those of `generate_uniform` across, which starts and ends, on its
bottom edge, exactly in the points given for the bottom boundary and, on its top edge, in those given for the top boundary up to
`B 2^-47`. -/
theorem adaptive_session_binary64 {B : ℚ} (hB0 : 1 / 2 ^ 1000 ≤ B) (hB1 : 2 * B ≤ 2 ^ 1019)
    {ls : ℕ → List (List (Ext ℚ)) → List (Ext ℚ) → Py (List (Ext ℚ))}
    (hls : TameSolver bin64 (2 ^ 1023) B (· ≠ .diverged) ls) (hA : A.Stored bin64) (hAt : A.Total) (hAp : A.Propagates)
    {cv : Curve (Ext ℚ) → CurveLike (Ext ℚ)} (hcv : ∀ c, (cv c).Checks ∧ (cv c).TotalE)
    {sv : Surface (Ext ℚ) → SurfLike (Ext ℚ)} (hsv : ∀ s, (sv s).Checks ∧ (sv s).TotalE)
    (hrow : ∀ s u v m, (sv s).ders u v = .ok m → ∀ row ∈ m, row ≠ []) (hfI : maxIter + 2 ≤ fuelI) (hfI1 : 1 ≤ fuelI)
    {st et sb eb : List ℚ} (hst : st.length = 3) (het : et.length = 3) (hsb : sb.length = 3) (heb : eb.length = 3)
    (hends : ∀ x ∈ st ++ et ++ sb ++ eb, bin64 x = fin x ∧ |x| ≤ B) {dt db data : List (List ℚ)}
    (h3 : ∀ pt ∈ dt ++ db ++ data, pt.length = 3)
    (hdata : ∀ pt ∈ dt ++ db ++ data, ∀ x ∈ pt, bin64 x = fin x ∧ |x| ≤ B) {p N t q m fuel : ℕ} (hp : 1 ≤ p) (hp7 : p ≤ 7)
    (ht : t ≤ 15) (hN : N ≤ p + 2 ^ t) (hlt : ∀ i < t, p + 2 ^ i < N) (hn : 3 < p + 2 ^ t) (hq : 1 ≤ q) (hq7 : q ≤ 7)
    (hqm : q < m) (hf : t < fuel) (hsize : 200 + (p + 2 ^ t) * m + data.length ≤ 10 ^ 8)
    (hsize' : dt.length + db.length ≤ 10 ^ 7) :
    ((∃ rt, BoundaryFitR bin64 fuel ls (fun c pt => curveInversionA fuelI A (cv c) pt eps1 eps2 maxIter) true (lift1 st)
        (lift1 et) p N (lift2 dt) rt) ∧
      ∃ rb, BoundaryFitR bin64 fuel ls (fun c pt => curveInversionA fuelI A (cv c) pt eps1 eps2 maxIter) true (lift1 sb)
        (lift1 eb) p N (lift2 db) rb) ∧
    ∀ rt rb, BoundaryFitR bin64 fuel ls (fun c pt => curveInversionA fuelI A (cv c) pt eps1 eps2 maxIter) true (lift1 st)
        (lift1 et) p N (lift2 dt) rt →
      BoundaryFitR bin64 fuel ls (fun c pt => curveInversionA fuelI A (cv c) pt eps1 eps2 maxIter) true (lift1 sb)
        (lift1 eb) p N (lift2 db) rb →
      (∃ err, err ≠ .diverged ∧ (rt = .error err ∨ rb = .error err)) ∨
      ∃ tb bb, rt = .ok tb ∧ rb = .ok bb ∧
        (∃ res, InteriorFitR bin64 ls (fun s pt => surfaceInversionA fuelI A (sv s) pt eps1 eps2 maxIter) tb bb q m
          (lift2 data) res) ∧
        ∀ res, InteriorFitR bin64 ls (fun s pt => surfaceInversionA fuelI A (sv s) pt eps1 eps2 maxIter) tb bb q m
          (lift2 data) res → (∃ err, err ≠ .diverged ∧ res = .error err) ∨
          ∃ P U V rows, res = .ok (Surface.lift ⟨p, q, p + 2 ^ t, m, P, U, V⟩, lift2 rows) ∧ Shape P ((p + 2 ^ t) * m) 3 ∧
            StoredSurface bin64 (2 * B) ⟨p, q, p + 2 ^ t, m, P, U, V⟩ ∧
            (Clamped p (p + 2 ^ t) U ∧ knotFn U 0 = 0 ∧ knotFn U (p + 2 ^ t + p) = 1 ∧
              ∀ j ≤ 2 ^ t, |knotFn U (p + j) - (j : ℚ) / 2 ^ t| ≤ t / 2 ^ 52) ∧
            generateUniformFl fl64 q m = .ok V ∧ Shape rows data.length 5 ∧
            ∀ k < 3, coord P k 0 = sb.getD k 0 ∧ coord P k ((p + 2 ^ t - 1) * m) = eb.getD k 0 ∧
              |coord P k (m - 1) - st.getD k 0| ≤ B / 2 ^ 47 ∧
              |coord P k ((p + 2 ^ t - 1) * m + (m - 1)) - et.getD k 0| ≤ B / 2 ^ 47 :=
  adaptive_session_with_binary64 hB0 hB1 hls (own_curve_inversion_tame (eps1 := eps1) (eps2 := eps2) hA hAt hcv hfI hfI1)
    (own_surface_inversion_tame (eps1 := eps1) (eps2 := eps2) (maxIter := maxIter) (fuelI := fuelI) hA hAt hAp hsv hrow
      (by omega) hfI1) hst het hsb heb hends h3 hdata hp hp7 ht hN hlt hn hq hq7 hqm hf hsize
    hsize'

/-- The knots after at most fifteen halvings. -/
theorem halved_knots {p t : ℕ} (ht : t ≤ 15) {U : List ℚ} (hU : Clamped p (p + 2 ^ t) U) (h0 : knotFn U 0 = 0)
    (h1 : knotFn U (p + 2 ^ t + p) = 1) (h : ∀ j ≤ 2 ^ t, |knotFn U (p + j) - (j : ℚ) / 2 ^ t| ≤ t / 2 ^ 52) :
    UnitKnots p (p + 2 ^ t) U ∧ (∀ i, p ≤ i → i < p + 2 ^ t → 1 / 2 ^ 1000 ≤ knotFn U (i + 1) - knotFn U i) ∧
    knotFn U (p + 2 ^ t - 1) ≤ 1 - 102 / 10 ^ 8 := by
  have htq : (t : ℚ) ≤ 15 := by exact_mod_cast ht
  have h2 : (0 : ℚ) < 2 ^ t := by positivity
  have h15 : (1 : ℚ) / 2 ^ 15 ≤ 1 / 2 ^ t := one_div_le_one_div_of_le h2 (pow_le_pow_right₀ (by norm_num) ht)
  have hs : (t : ℚ) / 2 ^ 52 ≤ 1 / 2 ^ 48 := by
    have : (t : ℚ) / 2 ^ 52 ≤ 15 / 2 ^ 52 := div_le_div_of_nonneg_right htq (by positivity)
    exact this.trans (by norm_num)
  have gap : ∀ i, p ≤ i → i < p + 2 ^ t → 1 / 2 ^ 16 ≤ knotFn U (i + 1) - knotFn U i := by
    intro i hi hi'
    obtain ⟨j, rfl⟩ := Nat.exists_eq_add_of_le hi
    have a := abs_le.1 ((h j (by omega)).trans hs)
    have b := abs_le.1 ((h (j + 1) (by omega)).trans hs)
    rw [← add_assoc] at b
    have e : ((j + 1 : ℕ) : ℚ) / 2 ^ t = (j : ℚ) / 2 ^ t + 1 / 2 ^ t := by
      push_cast
      ring
    rw [e] at b
    have : (1 : ℚ) / 2 ^ 16 + 1 / 2 ^ 48 + 1 / 2 ^ 48 ≤ 1 / 2 ^ 15 := by norm_num
    linarith [a.2, b.1]
  have hpos : 0 < 2 ^ t := Nat.two_pow_pos t
  have g1 := gap p le_rfl (by omega)
  have g2 := gap (p + 2 ^ t - 1) (by omega) (by omega)
  rw [show p + 2 ^ t - 1 + 1 = p + 2 ^ t by omega] at g2
  have hz : (0 : ℚ) < 1 / 2 ^ 16 := by norm_num
  refine ⟨⟨hU, h0, h1, by linarith, by linarith⟩, fun i hi hi' => le_trans ?_ (gap i hi hi'), ?_⟩
  · exact one_div_le_one_div_of_le (by positivity) (pow_le_pow_right₀ (by norm_num) (by norm_num))
  · rw [hU.right (p + 2 ^ t) le_rfl (by omega), h1] at g2
    have : (102 : ℚ) / 10 ^ 8 ≤ 1 / 2 ^ 16 := by norm_num
    linarith

end

section
variable {E : Err → Prop} {cinv : Curve (Ext ℚ) → List (Ext ℚ) → Py (Ext ℚ)}
  {sinv : Surface (Ext ℚ) → List (Ext ℚ) → Py (Ext ℚ × Ext ℚ)}

/-- **C195.** `adaptive_session_evaluates_binary64` with any solver and any inversions that return doubles of the size in question or
raise exceptions of a class `E`. -/
theorem adaptive_session_with_evaluates_binary64 {B : ℚ} (hB0 : 1 / 2 ^ 1000 ≤ B) (hB1 : 2 * B ≤ 2 ^ 1000)
    {ls : ℕ → List (List (Ext ℚ)) → List (Ext ℚ) → Py (List (Ext ℚ))}
    (hls : TameSolver bin64 (2 ^ 1023) B E ls)
    (hcI : TameCurveInversion bin64 E cinv) (hsI : TameSurfaceInversion bin64 E sinv)
    {st et sb eb : List ℚ} (hst : st.length = 3) (het : et.length = 3) (hsb : sb.length = 3) (heb : eb.length = 3)
    (hends : ∀ x ∈ st ++ et ++ sb ++ eb, bin64 x = fin x ∧ |x| ≤ B) {dt db data : List (List ℚ)}
    (h3 : ∀ pt ∈ dt ++ db ++ data, pt.length = 3)
    (hdata : ∀ pt ∈ dt ++ db ++ data, ∀ x ∈ pt, bin64 x = fin x ∧ |x| ≤ B) {p N t q m fuel : ℕ} (hp : 1 ≤ p) (hp5 : p ≤ 5)
    (ht : t ≤ 15) (hN : N ≤ p + 2 ^ t) (hlt : ∀ i < t, p + 2 ^ i < N) (hn : 3 < p + 2 ^ t) (hq : 1 ≤ q) (hq5 : q ≤ 5)
    (hqm : q < m) (hm : m ≤ 2 ^ 19) (hf : t < fuel) (hsize : 200 + (p + 2 ^ t) * m + data.length ≤ 10 ^ 8)
    (hsize' : dt.length + db.length ≤ 10 ^ 7) {tb bb : Fitted (Ext ℚ)} {s : Surface (Ext ℚ)} {rows : List (List (Ext ℚ))}
    (hrt : BoundaryFitR bin64 fuel ls cinv true (lift1 st)
      (lift1 et) p N (lift2 dt) (.ok tb))
    (hrb : BoundaryFitR bin64 fuel ls cinv true (lift1 sb)
      (lift1 eb) p N (lift2 db) (.ok bb))
    (hs : InteriorFitR bin64 ls sinv tb bb q m (lift2 data)
      (.ok (s, rows)))
    {u v : ℚ} (hu : 0 ≤ u ∧ u ≤ 1) (hv : 0 ≤ v ∧ v ≤ 1) (hu' : bin64 u = fin u) (hv' : bin64 v = fin v) :
    (∃ pt, Surface.PointR bin64 s (fin u) (fin v) pt) ∧
    ∀ pt, Surface.PointR bin64 s (fin u) (fin v) pt → ∃ w : List ℚ, pt = w.map fin ∧ w.length = 3 ∧
      ∀ k < 3, |w.getD k 0| ≤ 2 * B + B / 2 ^ 44 ∧
        (u = 0 → v = 0 → |w.getD k 0 - sb.getD k 0| ≤ B / 2 ^ 44) ∧
        (u = 1 → v = 0 → |w.getD k 0 - eb.getD k 0| ≤ B / 2 ^ 44) ∧
        (u = 0 → v = 1 → |w.getD k 0 - st.getD k 0| ≤ B / 2 ^ 44) ∧
        (u = 1 → v = 1 → |w.getD k 0 - et.getD k 0| ≤ B / 2 ^ 44) := by
  have hB2 : 2 * B ≤ 2 ^ 1019 := hB1.trans (pow_le_pow_right₀ (by norm_num) (by norm_num))
  rcases (adaptive_session_with_binary64 hB0 hB2 hls hcI hsI hst het hsb heb hends h3 hdata hp (by omega) ht
    hN hlt hn hq (by omega) hqm hf hsize hsize').2 _ _ hrt hrb with ⟨_, _, h | h⟩ | ⟨t', b', e1, e2, _, h⟩
  · cases h
  · cases h
  cases e1
  cases e2
  rcases h _ hs with ⟨_, _, h⟩ | ⟨P, U, V, rows', h, hP, hS, ⟨hU, hU0, hU1, hUn⟩, hV, -, hc⟩
  · cases h
  cases h
  obtain ⟨ku, gu, lu⟩ := halved_knots ht hU hU0 hU1 hUn
  exact stored_surface_corners_binary64 hB0 hB1 hp hp5 hq hq5 ku
    (uniform_double_unit hqm (hm.trans (by norm_num)) hV) gu
    (uniform_double_gap hqm (hm.trans (by norm_num)) hV) lu (uniform_double_last hqm hm hV) hP hS hc
    hu hv hu' hv'

end

section
variable {A : Arith ℚ} {eps1 eps2 : Ext ℚ} {maxIter : ℤ} {fuelI : ℕ}

/-- **C195.** The surface at the end of such a session, with degrees at most five, at most `2^19` control points across and numbers of
size at most `B ≤ 2^999`, evaluated in double precision at doubles in `[0, 1]`: a point is returned, and every possible result
consists of numbers of size at most `2 B + B 2^-44`; at the four corners they agree with the four given end points up to
`B 2^-44`. -/
theorem adaptive_session_evaluates_binary64 {B : ℚ} (hB0 : 1 / 2 ^ 1000 ≤ B) (hB1 : 2 * B ≤ 2 ^ 1000)
    {ls : ℕ → List (List (Ext ℚ)) → List (Ext ℚ) → Py (List (Ext ℚ))}
    (hls : TameSolver bin64 (2 ^ 1023) B (· ≠ .diverged) ls) (hA : A.Stored bin64) (hAt : A.Total) (hAp : A.Propagates)
    {cv : Curve (Ext ℚ) → CurveLike (Ext ℚ)} (hcv : ∀ c, (cv c).Checks ∧ (cv c).TotalE)
    {sv : Surface (Ext ℚ) → SurfLike (Ext ℚ)} (hsv : ∀ s, (sv s).Checks ∧ (sv s).TotalE)
    (hrow : ∀ s u v m, (sv s).ders u v = .ok m → ∀ row ∈ m, row ≠ []) (hfI : maxIter + 2 ≤ fuelI) (hfI1 : 1 ≤ fuelI)
    {st et sb eb : List ℚ} (hst : st.length = 3) (het : et.length = 3) (hsb : sb.length = 3) (heb : eb.length = 3)
    (hends : ∀ x ∈ st ++ et ++ sb ++ eb, bin64 x = fin x ∧ |x| ≤ B) {dt db data : List (List ℚ)}
    (h3 : ∀ pt ∈ dt ++ db ++ data, pt.length = 3)
    (hdata : ∀ pt ∈ dt ++ db ++ data, ∀ x ∈ pt, bin64 x = fin x ∧ |x| ≤ B) {p N t q m fuel : ℕ} (hp : 1 ≤ p) (hp5 : p ≤ 5)
    (ht : t ≤ 15) (hN : N ≤ p + 2 ^ t) (hlt : ∀ i < t, p + 2 ^ i < N) (hn : 3 < p + 2 ^ t) (hq : 1 ≤ q) (hq5 : q ≤ 5)
    (hqm : q < m) (hm : m ≤ 2 ^ 19) (hf : t < fuel) (hsize : 200 + (p + 2 ^ t) * m + data.length ≤ 10 ^ 8)
    (hsize' : dt.length + db.length ≤ 10 ^ 7) {tb bb : Fitted (Ext ℚ)} {s : Surface (Ext ℚ)} {rows : List (List (Ext ℚ))}
    (hrt : BoundaryFitR bin64 fuel ls (fun c pt => curveInversionA fuelI A (cv c) pt eps1 eps2 maxIter) true (lift1 st)
      (lift1 et) p N (lift2 dt) (.ok tb))
    (hrb : BoundaryFitR bin64 fuel ls (fun c pt => curveInversionA fuelI A (cv c) pt eps1 eps2 maxIter) true (lift1 sb)
      (lift1 eb) p N (lift2 db) (.ok bb))
    (hs : InteriorFitR bin64 ls (fun s pt => surfaceInversionA fuelI A (sv s) pt eps1 eps2 maxIter) tb bb q m (lift2 data)
      (.ok (s, rows)))
    {u v : ℚ} (hu : 0 ≤ u ∧ u ≤ 1) (hv : 0 ≤ v ∧ v ≤ 1) (hu' : bin64 u = fin u) (hv' : bin64 v = fin v) :
    (∃ pt, Surface.PointR bin64 s (fin u) (fin v) pt) ∧
    ∀ pt, Surface.PointR bin64 s (fin u) (fin v) pt → ∃ w : List ℚ, pt = w.map fin ∧ w.length = 3 ∧
      ∀ k < 3, |w.getD k 0| ≤ 2 * B + B / 2 ^ 44 ∧
        (u = 0 → v = 0 → |w.getD k 0 - sb.getD k 0| ≤ B / 2 ^ 44) ∧
        (u = 1 → v = 0 → |w.getD k 0 - eb.getD k 0| ≤ B / 2 ^ 44) ∧
        (u = 0 → v = 1 → |w.getD k 0 - st.getD k 0| ≤ B / 2 ^ 44) ∧
        (u = 1 → v = 1 → |w.getD k 0 - et.getD k 0| ≤ B / 2 ^ 44) :=
  adaptive_session_with_evaluates_binary64 hB0 hB1 hls (own_curve_inversion_tame (eps1 := eps1) (eps2 := eps2) hA hAt hcv hfI hfI1)
    (own_surface_inversion_tame (eps1 := eps1) (eps2 := eps2) (maxIter := maxIter) (fuelI := fuelI) hA hAt hAp hsv hrow
      (by omega) hfI1) hst het hsb heb hends h3 hdata hp hp5 ht hN hlt hn hq hq5 hqm
    hm hf hsize hsize' hrt hrb hs hu hv hu' hv'

end

/-! ## Concrete cases -/

/-- C195: asked for five control points of degree two along the boundaries, a session ends with six of them, and the surface
evaluates at its corner `(1, 0)` to the end point of the bottom boundary up to rounding. -/
example {tb bb : Fitted (Ext ℚ)} {s : Surface (Ext ℚ)} {rows : List (List (Ext ℚ))}
    (hrt : BoundaryFitR bin64 3 exZeroSolver (fun c pt => curveInversionA 102 (ieeeArith bin64 (sumNormR bin64))
      (exGraphLike c) pt (bin64 (1 / 10 ^ 5)) (bin64 (1 / 10 ^ 5)) 100) true (lift1 [0, 1, 0]) (lift1 [2, 1, 0]) 2 5
      (lift2 exKnotData) (.ok tb))
    (hrb : BoundaryFitR bin64 3 exZeroSolver (fun c pt => curveInversionA 102 (ieeeArith bin64 (sumNormR bin64))
      (exGraphLike c) pt (bin64 (1 / 10 ^ 5)) (bin64 (1 / 10 ^ 5)) 100) true (lift1 [0, 0, 0]) (lift1 [2, 0, 1 / 2]) 2 5
      (lift2 exKnotData) (.ok bb))
    (hs : InteriorFitR bin64 exZeroSolver (fun s pt => surfaceInversionA 102 (ieeeArith bin64 (sumNormR bin64))
      (exPlaneLike s) pt (bin64 (1 / 10 ^ 5)) (bin64 (1 / 10 ^ 5)) 100) tb bb 1 3 (lift2 [[1, 1, 1], [2, 1, 1]]) (.ok (s, rows))) :
    s.numU = 6 ∧ ∀ pt, Surface.PointR bin64 s 1 0 pt → ∃ w : List ℚ, pt = w.map fin ∧ |w.getD 2 0 - 1 / 2| ≤ 2 / 2 ^ 44 := by
  have h2 : ∀ i < 2, 2 + 2 ^ i < 5 := by decide
  refine ⟨?_, ?_⟩
  · obtain ⟨-, all⟩ := adaptive_session_binary64 (B := 2) (eps1 := bin64 (1 / 10 ^ 5))
      (eps2 := bin64 (1 / 10 ^ 5)) (maxIter := 100)
      (fuelI := 102) (st := [0, 1, 0]) (et := [2, 1, 0]) (sb := [0, 0, 0]) (eb := [2, 0, 1 / 2]) (dt := exKnotData)
      (db := exKnotData) (data := [[1, 1, 1], [2, 1, 1]]) (p := 2) (N := 5) (t := 2) (q := 1) (m := 3) (fuel := 3) exTwo_size.1
      (by decide +kernel) (exZeroSolver_tame.mono fun _ h => h.elim) (ieeeArith_stored (sumNormR bin64)) (ieeeArith_total _ _)
      (ieeeArith_propagates _ (sumNormR_nan _)) exGraphLike_ok (fun s => (exPlaneLike_ok s).1) (fun s => (exPlaneLike_ok s).2)
      (by norm_num) (by norm_num) rfl rfl rfl rfl (by decide +kernel) (by decide +kernel) (by decide +kernel) (by norm_num)
      (by norm_num) (by norm_num) (by norm_num) h2 (by norm_num) (by norm_num) (by norm_num) (by norm_num) (by norm_num)
      (by decide +kernel) (by decide +kernel)
    rcases all _ _ hrt hrb with ⟨_, _, h | h⟩ | ⟨_, _, e1, e2, _, h⟩
    · cases h
    · cases h
    cases e1
    cases e2
    rcases h _ hs with ⟨_, _, h⟩ | ⟨P, U, V, rows', h, -⟩
    · cases h
    · cases h
      rfl
  · obtain ⟨-, all⟩ := adaptive_session_evaluates_binary64 (B := 2) (u := 1) (v := 0) (eps1 := bin64 (1 / 10 ^ 5))
      (eps2 := bin64 (1 / 10 ^ 5)) (maxIter := 100)
      (fuelI := 102) (st := [0, 1, 0]) (et := [2, 1, 0]) (sb := [0, 0, 0]) (eb := [2, 0, 1 / 2]) (dt := exKnotData)
      (db := exKnotData) (data := [[1, 1, 1], [2, 1, 1]]) (p := 2) (N := 5) (t := 2) (q := 1) (m := 3) (fuel := 3) exTwo_size.1
      (by decide +kernel) (exZeroSolver_tame.mono fun _ h => h.elim) (ieeeArith_stored (sumNormR bin64)) (ieeeArith_total _ _)
      (ieeeArith_propagates _ (sumNormR_nan _)) exGraphLike_ok (fun s => (exPlaneLike_ok s).1) (fun s => (exPlaneLike_ok s).2)
      (by norm_num) (by norm_num) rfl rfl rfl rfl (by decide +kernel) (by decide +kernel) (by decide +kernel) (by norm_num)
      (by norm_num) (by norm_num) (by norm_num) h2 (by norm_num) (by norm_num) (by norm_num) (by norm_num) (by norm_num)
      (by norm_num) (by decide +kernel) (by decide +kernel) hrt hrb hs (by norm_num) (by norm_num) (by decide +kernel)
      (by decide +kernel)
    exact fun pt h => (all pt h).imp fun w hw => ⟨hw.1, (hw.2.2 2 (by norm_num)).2.2.1 rfl rfl⟩

/-- C195: a session of this kind that ends with a surface. -/
example : ∃ tb bb s rows,
    BoundaryFitR bin64 3 exZeroSolver (fun _ _ => .ok 0) true (lift1 [0, 1, 0]) (lift1 [2, 1, 0]) 2 5 (lift2 exKnotData) (.ok tb) ∧
    BoundaryFitR bin64 3 exZeroSolver (fun _ _ => .ok 0) true (lift1 [0, 0, 0]) (lift1 [2, 0, 1 / 2]) 2 5 (lift2 exKnotData)
      (.ok bb) ∧
    InteriorFitR bin64 exZeroSolver (fun _ _ => .ok (0, 1)) tb bb 1 3 (lift2 [[1, 1, 1], [2, 1, 1]]) (.ok (s, rows)) ∧
    s.numU = 6 ∧ (∃ pt, Surface.PointR bin64 s 1 0 pt) ∧
    ∀ pt, Surface.PointR bin64 s 1 0 pt → ∃ w : List ℚ, pt = w.map fin ∧ |w.getD 2 0 - 1 / 2| ≤ 2 / 2 ^ 44 := by
  have hc : TameCurveInversion bin64 (fun _ => False) fun _ _ => .ok (0 : Ext ℚ) :=
    fun _ _ => Or.inr ⟨0, rfl, by decide +kernel, le_rfl, zero_le_one⟩
  have hi : TameSurfaceInversion bin64 (fun _ => False) fun _ _ => .ok ((0, 1) : Ext ℚ × Ext ℚ) :=
    fun _ _ => Or.inr ⟨0, 1, rfl, ⟨by decide +kernel, le_rfl, zero_le_one⟩, by decide +kernel, zero_le_one, le_rfl⟩
  obtain ⟨⟨⟨rt, hrt⟩, rb, hrb⟩, all⟩ := adaptive_session_with_binary64 (B := 2)
    (st := [0, 1, 0]) (et := [2, 1, 0]) (sb := [0, 0, 0]) (eb := [2, 0, 1 / 2]) (dt := exKnotData)
    (db := exKnotData) (data := [[1, 1, 1], [2, 1, 1]]) (p := 2) (N := 5) (t := 2) (q := 1) (m := 3) (fuel := 3) exTwo_size.1
    (by decide +kernel) exZeroSolver_tame hc hi rfl rfl rfl rfl (by decide +kernel) (by decide +kernel) (by decide +kernel)
    (by norm_num) (by norm_num) (by norm_num) (by norm_num) (by decide) (by norm_num) (by norm_num) (by norm_num) (by norm_num) (by norm_num) (by decide +kernel) (by decide +kernel)
  rcases all rt rb hrt hrb with ⟨_, h, _⟩ | ⟨tb, bb, rfl, rfl, ⟨res, hres⟩, h⟩
  · exact h.elim
  rcases h res hres with ⟨_, h, _⟩ | ⟨P, U, V, rows, rfl, -⟩
  · exact h.elim
  obtain ⟨hx, hall⟩ := adaptive_session_with_evaluates_binary64 (B := 2) (u := 1) (v := 0)
    (st := [0, 1, 0]) (et := [2, 1, 0]) (sb := [0, 0, 0]) (eb := [2, 0, 1 / 2]) (dt := exKnotData)
    (db := exKnotData) (data := [[1, 1, 1], [2, 1, 1]]) (p := 2) (N := 5) (t := 2) (q := 1) (m := 3) (fuel := 3) exTwo_size.1
    (by decide +kernel) exZeroSolver_tame hc hi rfl rfl rfl rfl (by decide +kernel) (by decide +kernel) (by decide +kernel)
    (by norm_num) (by norm_num) (by norm_num) (by norm_num) (by decide) (by norm_num) (by norm_num) (by norm_num) (by norm_num) (by norm_num) (by norm_num) (by decide +kernel) (by decide +kernel) hrt hrb hres (by norm_num) (by norm_num)
    (by decide +kernel) (by decide +kernel)
  exact ⟨tb, bb, _, _, hrt, hrb, hres, rfl, hx,
    fun pt h => (hall pt h).imp fun w hw => ⟨hw.1, (hw.2.2 2 (by norm_num)).2.2.1 rfl rfl⟩⟩

end PySpline
