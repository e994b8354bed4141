import Verif.Lemmas.RoundedSolve
import Verif.Lemmas.VtkDouble
import Verif.Model.RoundedKnotFit
import Verif.Props.InsertionDouble
import Verif.Props.FitDouble
import Verif.Props.KnotFit
import Verif.Props.KnotsDouble

/-!
# Rounds of fit and knot insertion in rounded arithmetic
-/

set_option linter.unusedSectionVars false

namespace PySpline

open Spec Finset

section
variable {K : Type} [Field K] [LinearOrder K]

/-! ## Whenever a call returns -/

theorem linearFitFixedFl_ok {fl : K → K} {ls : ℕ → List (List K) → List K → List K} {R : List (List K)}
    {Q P x : List K} {fixed : List Bool} (h : linearFitFixedFl fl ls R Q P fixed = .ok x) :
    x.length = P.length ∧ ∀ i < P.length, fixed.getD i false = true → x.getD i 0 = P.getD i 0 := by
  unfold linearFitFixedFl at h
  obtain ⟨nf, -, h⟩ := bind_eq_ok h
  split at h
  · cases h; exact ⟨rfl, fun _ _ _ => rfl⟩
  obtain ⟨⟨_, _, Qf, _, _⟩, -, h⟩ := bind_eq_ok h
  obtain ⟨b, -, h⟩ := bind_eq_ok h
  dsimp only at h
  obtain ⟨⟨full, _⟩, hl, h⟩ := bind_eq_ok h
  cases h
  refine forN_ok (fun i (st : List K × ℕ) => st.1.length = P.length ∧
    ∀ j < i, fixed.getD j false = true → st.1.getD j 0 = P.getD j 0) hl (Nat.zero_le _)
    ⟨by simp [zeros], fun j hj => absurd hj (by omega)⟩ ?_
  rintro i ⟨s, j⟩ ⟨s', j'⟩ - hi ⟨h1, h2⟩ hs
  dsimp only at h1 h2 hs ⊢
  obtain ⟨f, hf, hs⟩ := bind_eq_ok hs
  have hf' := (pyGet_ok_nat false hf).2
  split at hs
  · obtain ⟨p, hp, hs⟩ := bind_eq_ok hs
    obtain ⟨w, hw, hs⟩ := bind_eq_ok hs
    cases hs
    obtain ⟨hlt, rfl⟩ := pySet_ok_nat hw
    refine ⟨by simp [h1], fun k hk hfk => ?_⟩
    rw [getD_set _ _ _ _ _ hlt]
    by_cases e : k = i
    · subst e; rw [if_pos rfl]; exact (pyGet_ok_nat 0 hp).2.symm
    · rw [if_neg e]; exact h2 k (by omega) hfk
  · rename_i hff
    obtain ⟨p, hp, hs⟩ := bind_eq_ok hs
    obtain ⟨w, hw, hs⟩ := bind_eq_ok hs
    cases hs
    obtain ⟨hlt, rfl⟩ := pySet_ok_nat hw
    refine ⟨by simp [h1], fun k hk hfk => ?_⟩
    rw [getD_set _ _ _ _ _ hlt]
    by_cases e : k = i
    · subst e; rw [hf'] at hfk; exact absurd hfk hff
    · rw [if_neg e]; exact h2 k (by omega) hfk

theorem fitColumnsFl_ok {fl : K → K} {ls : ℕ → List (List K) → List K → List K} {M data P new : List (List K)}
    {fixed : List Bool} (h : fitColumnsFl fl ls M data P fixed = .ok new) :
    Shape new P.length 3 ∧ ∀ i < P.length, fixed.getD i false = true →
      ∀ k < 3, at2 new i k 0 = at2 P i k 0 := by
  unfold fitColumnsFl at h
  obtain ⟨qx, hqx, h⟩ := bind_eq_ok h
  obtain ⟨px, hpx, h⟩ := bind_eq_ok h
  obtain ⟨x, hx, h⟩ := bind_eq_ok h
  obtain ⟨qy, hqy, h⟩ := bind_eq_ok h
  obtain ⟨py, hpy, h⟩ := bind_eq_ok h
  obtain ⟨y, hy, h⟩ := bind_eq_ok h
  obtain ⟨qz, hqz, h⟩ := bind_eq_ok h
  obtain ⟨pz, hpz, h⟩ := bind_eq_ok h
  obtain ⟨z, hz, h⟩ := bind_eq_ok h
  obtain ⟨lx, fx⟩ := linearFitFixedFl_ok hx
  obtain ⟨ly, fy⟩ := linearFitFixedFl_ok hy
  obtain ⟨lz, fz⟩ := linearFitFixedFl_ok hz
  rw [column_length hpx] at lx fx
  rw [column_length hpy] at ly fy
  rw [column_length hpz] at lz fz
  unfold columnStack3 at h
  split at h
  · cases h
    refine ⟨⟨by simp [lx], fun row hrow => ?_⟩, fun i hi hf k hk => ?_⟩
    · obtain ⟨i, -, rfl⟩ := List.mem_map.1 hrow; rfl
    · unfold at2
      rw [columnStack3_getD (by omega)]
      have a := fx i hi hf
      have b := fy i hi hf
      have c := fz i hi hf
      rw [column_getD (c := 0) hpx hi] at a
      rw [column_getD (c := 1) hpy hi] at b
      rw [column_getD (c := 2) hpz hi] at c
      match k, hk with
      | 0, _ => exact a
      | 1, _ => exact b
      | 2, _ => exact c
  · cases h

/-- Whenever `single_fit_curve` returns, with any arithmetic. -/
theorem singleFitCurveFl_ok {fl : K → K} {ls : ℕ → List (List K) → List K → List K} {c c' : Curve K}
    {data : List (List K)} (h : SingleFitCurveFl fl ls c data (.ok c')) :
    c'.degree = c.degree ∧ c'.kv = c.kv ∧ 0 < c.ctrlpts.length ∧ Shape c'.ctrlpts c.ctrlpts.length 3 ∧
      ∀ k < 3, at2 c'.ctrlpts 0 k 0 = at2 c.ctrlpts 0 k 0 ∧
        at2 c'.ctrlpts (c.ctrlpts.length - 1) k 0 = at2 c.ctrlpts (c.ctrlpts.length - 1) k 0 := by
  rcases h with ⟨e, -, h⟩ | ⟨M, check, -, -, h⟩
  · cases h
  obtain ⟨_, -, h⟩ := bind_eq_ok h.symm
  obtain ⟨f, hf, h⟩ := bind_eq_ok h
  obtain ⟨new, hnew, h⟩ := bind_eq_ok h
  cases h
  have hn := curveMask_ok hf
  obtain ⟨m, hm, -, hmask⟩ := curveMask_eq hn
  rw [hm] at hf; cases hf
  obtain ⟨h1, h2⟩ := fitColumnsFl_ok hnew
  refine ⟨rfl, rfl, hn, h1, fun k hk => ⟨h2 0 hn ?_ k hk, h2 _ (by omega) ?_ k hk⟩⟩
  · rw [hmask 0 hn]; simp
  · rw [hmask _ (by omega)]; simp; omega

theorem curveKnotInsertionFl_length {fl : K → K} {p r : ℕ} {U U' : List K} {P P' : List (List K)} {u : K}
    (h : curveKnotInsertionFl fl p U P u r = .ok (U', P')) :
    U'.length = U.length + r ∧ P'.length = P.length + r := by
  unfold curveKnotInsertionFl at h
  obtain ⟨k, -, h⟩ := bind_eq_ok h
  dsimp only at h
  obtain ⟨kv1, h1, h⟩ := bind_eq_ok h
  obtain ⟨kv2, h2, h⟩ := bind_eq_ok h
  obtain ⟨kv3, h3, h⟩ := bind_eq_ok h
  obtain ⟨P1, g1, h⟩ := bind_eq_ok h
  obtain ⟨P2, g2, h⟩ := bind_eq_ok h
  obtain ⟨R, -, h⟩ := bind_eq_ok h
  obtain ⟨⟨P3, R'⟩, g3, h⟩ := bind_eq_ok h
  dsimp only at h
  obtain ⟨P4, g4, h⟩ := bind_eq_ok h
  cases h
  have l1 : kv1.length = U.length + r := forZ_ok (fun kv => kv.length = U.length + r) h1
    (by simp [zeros]) fun i s s' hs h => by
      obtain ⟨x, -, h⟩ := bind_eq_ok h
      rw [pySet_length h, hs]
  have l2 : kv2.length = U.length + r := forZ_ok (fun kv => kv.length = U.length + r) h2
    l1 fun i s s' hs h => by rw [pySet_length h, hs]
  have l3 : U'.length = U.length + r := forZ_ok (fun kv => kv.length = U.length + r) h3
    l2 fun i s s' hs h => by
      obtain ⟨x, -, h⟩ := bind_eq_ok h
      rw [pySet_length h, hs]
  have m1 : P1.length = P.length + r := forZ_ok (fun m => m.length = P.length + r) g1
    (by simp [zeros2]) fun i s s' hs h => by
      obtain ⟨x, -, h⟩ := bind_eq_ok h
      rw [assignRow_length h, hs]
  have m2 : P2.length = P.length + r := forZ_ok (fun m => m.length = P.length + r) g2
    m1 fun i s s' hs h => by
      obtain ⟨x, -, h⟩ := bind_eq_ok h
      rw [assignRow_length h, hs]
  have m3 : P3.length = P.length + r :=
    forZ_ok (fun st : List (List K) × List (List K) => st.1.length = P.length + r) g3
    m2 fun i s s' hs h => by
      obtain ⟨R1, -, h⟩ := bind_eq_ok h
      obtain ⟨r0, -, h⟩ := bind_eq_ok h
      obtain ⟨A, hA, h⟩ := bind_eq_ok h
      obtain ⟨r1, -, h⟩ := bind_eq_ok h
      obtain ⟨B, hB, h⟩ := bind_eq_ok h
      cases h
      show B.length = _
      rw [assignRow_length hB, assignRow_length hA, hs]
  have m4 : P'.length = P.length + r := forZ_ok (fun m => m.length = P.length + r) g4
    m3 fun i s s' hs h => by
      obtain ⟨x, -, h⟩ := bind_eq_ok h
      rw [assignRow_length h, hs]
  exact ⟨l3, m4⟩

theorem insertKnotFl_length {fl : K → K} {c c' : Curve K} {u : K} (h : c.insertKnotFl fl u = .ok c') :
    c'.degree = c.degree ∧ c'.kv.length = c.kv.length + 1 ∧
      c'.ctrlpts.length = c.ctrlpts.length + 1 := by
  unfold Curve.insertKnotFl at h
  split at h
  · cases h
  obtain ⟨⟨kv, pts⟩, hi, h⟩ := bind_eq_ok h
  cases h
  exact ⟨rfl, curveKnotInsertionFl_length hi⟩

theorem insertKnotsFl_length {fl : K → K} (l : List K) : ∀ {c c' : Curve K},
    forL l c (fun u c => c.insertKnotFl fl u) = .ok c' →
    c'.degree = c.degree ∧ c'.kv.length = c.kv.length + l.length ∧
      c'.ctrlpts.length = c.ctrlpts.length + l.length := by
  induction l with
  | nil => intro c c' h; cases h; exact ⟨rfl, rfl, rfl⟩
  | cons u us ih =>
    intro c c' h
    unfold forL at h
    rw [List.foldlM_cons] at h
    obtain ⟨c1, h1, h⟩ := bind_eq_ok h
    obtain ⟨a, b, d⟩ := ih h
    obtain ⟨a', b', d'⟩ := insertKnotFl_length h1
    refine ⟨by rw [a, a'], ?_, ?_⟩ <;> simp only [List.length_cons] <;> omega

theorem midKnotsFl_length {fl : K → K} {c : Curve K} {ks : List K} (h : midKnotsFl fl c = .ok ks) :
    (ks.length : ℤ) = (c.kv.length : ℤ) - c.degree - 1 - c.degree := by
  unfold midKnotsFl at h
  dsimp only at h
  split at h
  · cases h
  obtain ⟨⟨ks', _⟩, hl, h⟩ := bind_eq_ok h
  cases h
  have := forZ_ok (fun st : List K × ℕ =>
    st.1.length = ((c.kv.length : ℤ) - c.degree - 1 - c.degree).toNat) hl (by simp [zeros])
    fun i s s' hs h => by
      obtain ⟨a, -, h⟩ := bind_eq_ok h
      obtain ⟨b, -, h⟩ := bind_eq_ok h
      obtain ⟨d, hd, h⟩ := bind_eq_ok h
      cases h
      show d.length = _
      rw [pySet_length hd, hs]
  have h2 : ks'.length = ((c.kv.length : ℤ) - c.degree - 1 - c.degree).toNat := this
  show (ks'.length : ℤ) = _
  omega

/-! ## The refined knots -/

/-- The knots after the numbers `m p, m (p + 1), …` have been inserted into the first `j` spans. -/
def refineWith (m V : ℕ → K) (p j : ℕ) : ℕ → K := fun i =>
  if i ≤ p then V i
  else if i ≤ p + 2 * j then
    (if (i - p) % 2 = 0 then V (p + (i - p) / 2) else m (p + (i - p) / 2))
  else V (i - j)

theorem refineWith_zero (m V : ℕ → K) (p : ℕ) : refineWith m V p 0 = V := by
  funext i
  unfold refineWith
  split
  · rfl
  · rw [if_neg (by omega)]; rfl

theorem refineWith_le (m V : ℕ → K) (p j : ℕ) {i : ℕ} (h : i ≤ p) : refineWith m V p j i = V i := by
  unfold refineWith; rw [if_pos h]

theorem refineWith_gt (m V : ℕ → K) (p j : ℕ) {i : ℕ} (h : p + 2 * j ≤ i) :
    refineWith m V p j i = V (i - j) := by
  unfold refineWith
  by_cases h1 : i ≤ p
  · rw [if_pos h1, show j = 0 by omega]; rfl
  · rw [if_neg h1]
    by_cases h2 : i ≤ p + 2 * j
    · rw [if_pos h2, if_pos (by omega), show p + (i - p) / 2 = i - j by omega]
    · rw [if_neg h2]

theorem refineWith_even (m V : ℕ → K) {p j t : ℕ} (h : t ≤ j) :
    refineWith m V p j (p + 2 * t) = V (p + t) := by
  unfold refineWith
  by_cases h1 : p + 2 * t ≤ p
  · rw [if_pos h1, show t = 0 by omega]
  · rw [if_neg h1, if_pos (by omega), if_pos (by omega)]
    congr 1; omega

theorem refineWith_odd (m V : ℕ → K) {p j t : ℕ} (h : t < j) :
    refineWith m V p j (p + 2 * t + 1) = m (p + t) := by
  unfold refineWith
  rw [if_neg (by omega), if_pos (by omega), if_neg (by omega)]
  congr 1; omega

theorem refineWith_succ (m V : ℕ → K) (p j : ℕ) :
    insKnots (refineWith m V p j) (p + 2 * j) (m (p + j)) 1 = refineWith m V p (j + 1) := by
  funext i
  unfold insKnots
  by_cases h1 : i ≤ p + 2 * j
  · rw [if_pos h1]
    unfold refineWith
    split
    · rfl
    · rw [if_pos (show i ≤ p + 2 * (j + 1) by omega)]
  · rw [if_neg h1]
    by_cases h2 : i ≤ p + 2 * j + 1
    · rw [if_pos h2, show i = p + 2 * j + 1 by omega, refineWith_odd m V (by omega)]
    · rw [if_neg h2, refineWith_gt m V p j (by omega), refineWith_gt m V p (j + 1) (by omega)]
      congr 1; omega

end

section
variable {K : Type} [Field K] [LinearOrder K] [IsStrictOrderedRing K]

/-- The midpoints of the spans. -/
theorem midKnotsFl_eq {fl : K → K} {p n : ℕ} {c : Curve K} (hd : c.degree = p) (hlen : c.kv.length = n + p + 1)
    (hsz : p < n) :
    midKnotsFl fl c = .ok ((List.range (n - p)).map fun j =>
      midFl fl (knotFn c.kv (p + j)) (knotFn c.kv (p + j + 1))) := by
  unfold midKnotsFl
  dsimp only
  rw [hd, if_neg (by omega)]
  have e : ((c.kv.length : ℤ) - p - 1 - p).toNat = n - p := by omega
  rw [e, forZ_eq_forN p, show ((c.kv.length : ℤ) - p - 1).toNat = n by omega]
  refine Returns.eq_ok ?_
  refine Returns.bind (Returns.forN (fun k (st : List K × ℕ) => st.1.length = n - p ∧ st.2 = k - p ∧
    ∀ j < k - p, st.1.getD j 0 = midFl fl (knotFn c.kv (p + j)) (knotFn c.kv (p + j + 1))) (by omega) ?_ ?_) ?_
  · exact ⟨by simp [zeros], by omega, fun j hj => absurd hj (by omega)⟩
  · rintro k ⟨ks, idx⟩ hk1 hk2 ⟨h1, h2, h3⟩
    dsimp only at h1 h2 h3 ⊢
    subst h2
    rw [pyGet_knot c.kv _ k rfl (by omega), ok_bind, pyGet_knot c.kv _ (k + 1) (by push_cast; ring) (by omega),
      ok_bind, pySet_nat _ _ (k - p) _ rfl (by omega), ok_bind]
    refine Returns.ok ⟨by simp [h1], by omega, fun j hj => ?_⟩
    rw [getD_set _ _ _ _ _ (by omega)]
    by_cases e : j = k - p
    · rw [if_pos e]
      rw [show p + j = k by omega]
    · rw [if_neg e]; exact h3 j (by omega)
  · rintro ⟨ks, idx⟩ ⟨h1, -, h3⟩
    refine Returns.ok ?_
    dsimp only at h1 h3 ⊢
    refine List.ext_getElem (by simp [h1]) fun i g1 g2 => ?_
    have := h3 i (by omega)
    rw [List.getD_eq_getElem?_getD, List.getElem?_eq_getElem g1] at this
    simpa using this

/-- What `parameterize_curve` returns if the inversion returns parameters in `[0, 1]`. -/
theorem parameterizeCurveWith_range {inv : List K → Py K} {data : List (List K)} (h3 : ∀ pt ∈ data, pt.length = 3)
    (hinv : ∀ pt ∈ data, ∃ u, inv pt = .ok u ∧ 0 ≤ u ∧ u ≤ 1) :
    ∃ rows, parameterizeCurveWith inv data = .ok rows ∧ Shape rows data.length 4 ∧
      ∀ r < data.length, 0 ≤ at2 rows r 3 0 ∧ at2 rows r 3 0 ≤ 1 := by
  choose! g hg using hinv
  have hm : mapPy (fun point => do
      let u ← inv point
      .ok (point ++ [u])) data = .ok (data.map fun pt => pt ++ [g pt]) :=
    mapPy_eq_ok _ _ _ fun pt hpt => by rw [(hg pt hpt).1, ok_bind]
  have hlen : ∀ row ∈ data.map fun pt => pt ++ [g pt], row.length = 4 := by
    intro row hrow
    obtain ⟨pt, hpt, rfl⟩ := List.mem_map.1 hrow
    simp [h3 pt hpt]
  have hperm := npSortRows_perm [3, 0, 1, 2] (data.map fun pt => pt ++ [g pt])
  unfold parameterizeCurveWith
  rw [hm, ok_bind, if_pos (List.all_eq_true.2 fun row hrow => by simpa using hlen row hrow)]
  refine ⟨_, rfl, ⟨by rw [hperm.length_eq]; simp, fun row hrow => hlen row (hperm.mem_iff.1 hrow)⟩, fun r hr => ?_⟩
  set rows := npSortRows [3, 0, 1, 2] (data.map fun pt => pt ++ [g pt])
  have hl : r < rows.length := by rw [hperm.length_eq]; simpa using hr
  have hmem : rows.getD r [] ∈ rows := by
    rw [List.getD_eq_getElem?_getD, List.getElem?_eq_getElem hl]
    exact List.getElem_mem hl
  obtain ⟨pt, hpt, he⟩ := List.mem_map.1 (hperm.mem_iff.1 hmem)
  have e : at2 rows r 3 0 = g pt := by
    unfold at2
    rw [← he, List.getD_eq_getElem?_getD, List.getElem?_append_right (by rw [h3 pt hpt]), h3 pt hpt]
    rfl
  rw [e]
  exact (hg pt hpt).2

theorem knotFn_insertedKnots {U : List K} {k r n p : ℕ} {u : K} (hl : U.length = n + p + 1) (hk : k < n) :
    knotFn (insertedKnots U k u r) = insKnots (knotFn U) k u r := by
  obtain ⟨kv, -, lkv, vkv⟩ := insertion_knots (r := r) u hl hk
  have hfn := knotFn_of_getD hl hk lkv vkv
  rw [← eq_insertedKnots hl hk lkv hfn, hfn]

/-- If the solver returns vectors of the right length, the three columns are fitted. -/
theorem fitColumnsFl_returns {fl : K → K} {ls : ℕ → List (List K) → List K → List K}
    (hlen : ∀ n A b, A.length = b.length → (∀ row ∈ A, row.length = n) → (ls n A b).length = n) {m n w : ℕ}
    {R data P : List (List K)} {fixed : List Bool} (hd : Shape data m w) (hw : 3 ≤ w) (hP : Shape P n 3)
    (hR : Shape R m n) (hf : fixed.length = n) : ∃ new, fitColumnsFl fl ls R data P fixed = .ok new := by
  have key : ∀ k : ℕ, Returns (linearFitFixedFl fl ls R (data.map fun row => row.getD k 0)
      (P.map fun row => row.getD k 0) fixed) fun z => z.length = n := fun k =>
    (linearFitFixedFl_reduce hlen (by simpa [hd.1, hP.1] using hR) (by simp [hf, hP.1])).mono fun z hz => by
      rw [hz.1]; simp [hP.1]
  have : Returns (fitColumnsFl fl ls R data P fixed) fun _ => True := by
    unfold fitColumnsFl
    rw [column_nat hd 0 0 rfl (by omega), ok_bind, column_nat hP 0 0 rfl (by omega), ok_bind]
    refine Returns.bind (key 0) fun x hx => ?_
    rw [column_nat hd 1 1 rfl (by omega), ok_bind, column_nat hP 1 1 rfl (by omega), ok_bind]
    refine Returns.bind (key 1) fun y hy => ?_
    rw [column_nat hd 2 2 rfl (by omega), ok_bind, column_nat hP 2 2 rfl (by omega), ok_bind]
    refine Returns.bind (key 2) fun z hz => ?_
    unfold columnStack3
    rw [if_pos ⟨by omega, by omega⟩]
    exact Returns.ok trivial
  obtain ⟨new, h, -⟩ := this
  exact ⟨new, h⟩

end

/-! ## Double precision -/

/-- One fit in double precision: it is never refused. -/
theorem singleFitCurve_double_returns {ls : ℕ → List (List ℚ) → List ℚ → List ℚ}
    (hlen : ∀ n A b, A.length = b.length → (∀ row ∈ A, row.length = n) → (ls n A b).length = n) {c : Curve ℚ}
    {data : List (List ℚ)} {m n : ℕ} (hU : Clamped c.degree n c.kv)
    (hfirst : knotFn c.kv c.degree < knotFn c.kv (c.degree + 1)) (hP : Shape c.ctrlpts n 3) (hd : Shape data m 4)
    (hdom : ∀ r < m, knotFn c.kv c.degree ≤ at2 data r 3 0 ∧ at2 data r 3 0 ≤ knotFn c.kv n)
    (hsize : 5 * c.degree + n + m ≤ 10 ^ 10) :
    (∃ res, SingleFitCurveFl fl64 ls c data res) ∧ ∀ res, SingleFitCurveFl fl64 ls c data res →
      ∃ c', res = .ok c' ∧ c'.degree = c.degree ∧ c'.kv = c.kv ∧ Shape c'.ctrlpts n 3 ∧
        c'.ctrlpts.getD 0 [] = c.ctrlpts.getD 0 [] ∧ c'.ctrlpts.getD (n - 1) [] = c.ctrlpts.getD (n - 1) [] := by
  have hsz := hU.size
  obtain ⟨M, hM, ⟨r, hr⟩, hok⟩ := single_fit_curve_unity_double hU hfirst hP.1 hd hdom hsize
  obtain ⟨M', hM', hs, -⟩ := curve_matrix_rounded accurate_fl64 hU hfirst hP.1 hd
  rw [hM] at hM'
  cases hM'
  obtain ⟨f, hf, hfl, -⟩ := curveMask_eq (n := n) (by omega)
  obtain ⟨new, hnew⟩ := fitColumnsFl_returns (fl := fl64) hlen hd (by omega) hP hs hfl
  refine ⟨⟨_, Or.inr ⟨M, r, hM, hr, rfl⟩⟩, fun res hres => ?_⟩
  have hret : res = .ok { c with ctrlpts := new } := by
    rcases hres with ⟨e, he, -⟩ | ⟨M', check, hM', hcheck, rfl⟩
    · rw [hM] at he; cases he
    rw [hM] at hM'
    cases hM'
    rw [hok _ hcheck, ok_bind, hP.1, hf, ok_bind, hnew, ok_bind]
  subst hret
  obtain ⟨-, -, h0, h1, h2⟩ := singleFitCurveFl_ok hres
  rw [hP.1] at h1 h2
  exact ⟨_, rfl, rfl, rfl, h1, getD_eq_of_at2 h1 hP (by omega) fun k hk => (h2 k hk).1,
    getD_eq_of_at2 h1 hP (by omega) fun k hk => (h2 k hk).2⟩

/-- One insertion of a number that is far from the knots. -/
theorem insertKnotFl_far {p n : ℕ} {c : Curve ℚ} {u : ℚ} (hd : c.degree = p) (hp : 1 ≤ p) (hU : Clamped p n c.kv)
    (hz : knotFn c.kv 0 = 0) (ho : knotFn c.kv (n + p) = 1) (hP : Shape c.ctrlpts n 3) (h0 : 0 < u) (h1 : u < 1)
    (hfar : ∀ x ∈ c.kv, 2 / 10 ^ 5 ≤ |u - x|) :
    ∃ k P', c.insertKnotFl fl64 u = .ok ⟨p, P', insertedKnots c.kv k u 1⟩ ∧ p ≤ k ∧ k < n ∧ knotFn c.kv k < u ∧
      u < knotFn c.kv (k + 1) ∧ Shape P' (n + 1) 3 ∧ Clamped p (n + 1) (insertedKnots c.kv k u 1) ∧
      P'.getD 0 [] = c.ctrlpts.getD 0 [] ∧ P'.getD n [] = c.ctrlpts.getD (n - 1) [] := by
  obtain ⟨q, P, U⟩ := c
  dsimp only at hd hU hz ho hP hfar ⊢
  subst hd
  have hV := monotone_knotFn hU.mono
  have hlen := hU.len
  have hsz := hU.size
  have hn : knotFn U n = 1 := by rw [hU.right n le_rfl (by omega), ho]
  have hpz : knotFn U q = 0 := by rw [hU.left q le_rfl, hz]
  have hnot : u ∉ U := fun h => by
    have := hfar u h
    rw [sub_self, abs_zero] at this
    norm_num at this
  have hmem : ∀ i ≤ n + q, knotFn U i ∈ U := fun i hi => by
    rw [knotFn_eq (by omega)]; exact List.getElem_mem _
  have hne : ∀ i ≤ n + q, u ≠ knotFn U i := fun i hi e => hnot (e ▸ hmem i hi)
  have hu1 : u ≤ 1 - 2 / 10 ^ 5 := by
    have := hfar _ (hmem n (by omega))
    rw [hn, abs_sub_comm, abs_of_pos (by linarith)] at this
    linarith
  obtain ⟨k, hfs, hpk, hk, b1, b2, -⟩ := findSpanWith_regular (close := endTestFl fl64) (u := u) hU.toKnotVector
    endTestFl_refl (by rw [hpz]; exact h0.le) (by rw [hn]; exact h1.le) (fun i _ hi e => absurd e (hne i (by omega)))
    (fun h => by
      rw [hn] at h
      have := endTestFl_one h1.le h
      linarith)
  have b1' : knotFn U k < u := lt_of_le_of_ne b1 (hne k (by omega)).symm
  have b2' : u < knotFn U (k + 1) := lt_of_le_of_ne b2 (hne (k + 1) (by omega))
  have hcount : U.count u = 0 := List.count_eq_zero.2 hnot
  have hunit : ∀ x ∈ U, |x| ≤ 1 := by
    intro x hx
    obtain ⟨i, hi, rfl⟩ := List.mem_iff_getElem.1 hx
    rw [← knotFn_eq hi, abs_of_nonneg]
    · rw [← ho]; exact hV (by omega)
    · rw [← hz]; exact hV (Nat.zero_le _)
  have hmult : findMultiplicityFl fl64 u U = U.count u := by
    rw [hcount]
    exact foldl_count_zero fun x hx => iscloseFl_far (hunit x hx) (hfar x hx)
  obtain ⟨B, hB⟩ : ∃ B : ℚ, ∀ row ∈ P, ∀ x ∈ row, |x| ≤ B := by
    obtain ⟨B, hB⟩ := (P.flatten.toFinset.image fun x : ℚ => |x|).exists_le
    exact ⟨B, fun row hr x hx => hB _ (mem_image.2 ⟨x, List.mem_toFinset.2 (List.mem_flatten.2 ⟨row, hr, hx⟩), rfl⟩)⟩
  obtain ⟨P', hcall, shP, hl, hr', Q, -, -, -, hcl⟩ := knot_insertion_rounded rounding_fl64 accurate_fl64
    hU.toKnotVector hP hpk hk hfs b1 b2' hmult (by rw [hcount]; exact hp) hB
  refine ⟨k, P', ?_, hpk, hk, b1', b2', shP, (hcl hU).1, hl 0 (by omega), ?_⟩
  · unfold Curve.insertKnotFl
    dsimp only
    rw [(validateKnot_iff u).2 ⟨h0.le, h1.le⟩, if_neg (by simp), hcall, ok_bind]
  · have := hr' (n - 1) (by omega) (by omega)
    rwa [show n - 1 + 1 = n by omega] at this

/-- One round of midpoint insertion in double precision, if the computed midpoints are right up to `η`. -/
theorem insertRoundFl {p n : ℕ} {δ η : ℚ} {c : Curve ℚ} (h : Spaced p n δ c) (hp : 1 ≤ p)
    (hmid : ∀ i, p ≤ i → i < n → |midFl fl64 (knotFn c.kv i) (knotFn c.kv (i + 1))
      - (knotFn c.kv i + knotFn c.kv (i + 1)) / 2| ≤ η) (hδ : 2 / 10 ^ 5 + η ≤ δ / 2) :
    Returns (do let ks ← midKnotsFl fl64 c
                forL ks c fun u c => c.insertKnotFl fl64 u) fun c' =>
        Spaced p (p + 2 * (n - p)) (δ / 2 - η) c' ∧
        (∀ t, t ≤ n - p → knotFn c'.kv (p + 2 * t) = knotFn c.kv (p + t)) ∧
        (∀ t, t < n - p → knotFn c'.kv (p + 2 * t + 1)
          = midFl fl64 (knotFn c.kv (p + t)) (knotFn c.kv (p + t + 1))) ∧
        c'.ctrlpts.getD 0 [] = c.ctrlpts.getD 0 [] ∧
        c'.ctrlpts.getD (p + 2 * (n - p) - 1) [] = c.ctrlpts.getD (n - 1) [] := by
  have hsz := h.clamped.size
  have hm := monotone_knotFn h.clamped.mono
  rw [midKnotsFl_eq h.deg h.clamped.len hsz, ok_bind]
  set V := knotFn c.kv with hV
  set u : ℕ → ℚ := fun i => midFl fl64 (V i) (V (i + 1)) with hu
  have hz0 : V 0 = 0 := h.zero
  have hV0 : ∀ i, 0 ≤ V i := fun i => by rw [← hz0]; exact hm (Nat.zero_le i)
  have hn1 : V n = 1 := (h.clamped.right n le_rfl (by omega)).trans h.one
  have hV1 : ∀ i, i ≤ n + p → V i ≤ 1 := fun i hi => by rw [← h.one]; exact hm hi
  have hlo : ∀ i, p ≤ i → i < n → δ / 2 - η ≤ u i - V i := fun i h1 h2 => by
    have a := (abs_le.1 (hmid i h1 h2)).1
    have b := h.gap i h1 h2
    rw [← hV] at b
    have e : u i = midFl fl64 (V i) (V (i + 1)) := rfl
    linarith
  have hhi : ∀ i, p ≤ i → i < n → δ / 2 - η ≤ V (i + 1) - u i := fun i h1 h2 => by
    have a := (abs_le.1 (hmid i h1 h2)).2
    have b := h.gap i h1 h2
    rw [← hV] at b
    have e : u i = midFl fl64 (V i) (V (i + 1)) := rfl
    linarith
  have htol : (0 : ℚ) < 2 / 10 ^ 5 := by norm_num
  rw [forL_map_range]
  refine Returns.mono (Returns.forN (fun j (c' : Curve ℚ) => c'.degree = p ∧ Shape c'.ctrlpts (n + j) 3 ∧
        Clamped p (n + j) c'.kv ∧ knotFn c'.kv = refineWith u V p j ∧
        c'.ctrlpts.getD 0 [] = c.ctrlpts.getD 0 [] ∧
        c'.ctrlpts.getD (n + j - 1) [] = c.ctrlpts.getD (n - 1) []) (Nat.zero_le _) ?_ ?_) ?_
  · exact ⟨h.deg, h.pts, h.clamped, (refineWith_zero u V p).symm, rfl, rfl⟩
  · rintro j c' - hj ⟨h1, h2, h3, h4, h6, h7⟩
    have hm' := monotone_knotFn h3.mono
    have hlen' := h3.len
    have hk0 : knotFn c'.kv (p + 2 * j) = V (p + j) := by rw [h4, refineWith_even u V le_rfl]
    have hk1 : knotFn c'.kv (p + 2 * j + 1) = V (p + j + 1) := by
      rw [h4, refineWith_gt u V p j (by omega)]; congr 1; omega
    have g1 := hlo (p + j) (by omega) (by omega)
    have g2 := hhi (p + j) (by omega) (by omega)
    obtain ⟨k, P', hins, hpk, hk, b1, b2, hs', hc', e0, e1⟩ := insertKnotFl_far (c := c') (u := u (p + j)) h1 hp h3
      (by rw [h4, refineWith_le u V p j (Nat.zero_le _), hz0])
      (by rw [← h3.right (n + j) le_rfl (by omega), h4, refineWith_gt u V p j (by omega), Nat.add_sub_cancel, hn1]) h2
      (by have := hV0 (p + j); linarith) (by have := hV1 (p + j + 1) (by omega); linarith)
      (fun x hx => by
        obtain ⟨i, hi, rfl⟩ := List.getElem_of_mem hx
        rw [← knotFn_eq hi]
        by_cases hik : i ≤ p + 2 * j
        · have a := hm' hik
          rw [hk0] at a
          have := le_abs_self (u (p + j) - knotFn c'.kv i)
          linarith
        · have a : knotFn c'.kv (p + 2 * j + 1) ≤ knotFn c'.kv i := hm' (by omega)
          rw [hk1] at a
          have := neg_le_abs (u (p + j) - knotFn c'.kv i)
          linarith)
    have hkk : k = p + 2 * j := by
      by_contra hne
      rcases Nat.lt_or_gt_of_ne hne with hlt | hgt
      · have : knotFn c'.kv (k + 1) ≤ knotFn c'.kv (p + 2 * j) := hm' (by omega)
        rw [hk0] at this; linarith
      · have : knotFn c'.kv (p + 2 * j + 1) ≤ knotFn c'.kv k := hm' (by omega)
        rw [hk1] at this; linarith
    subst hkk
    have e : midFl fl64 (V (p + j)) (V (p + j + 1)) = u (p + j) := rfl
    rw [e, hins]
    refine Returns.ok ⟨rfl, hs', hc', ?_, e0.trans h6, ?_⟩
    · dsimp only
      rw [knotFn_insertedKnots hlen' hk, h4, refineWith_succ]
    · dsimp only
      rw [show n + (j + 1) - 1 = n + j by omega, e1, h7]
  · rintro c' ⟨h1, h2, h3, h4, h6, h7⟩
    have e : n + (n - p) = p + 2 * (n - p) := by omega
    rw [e] at h2 h3 h7
    have ev : ∀ t, t ≤ n - p → knotFn c'.kv (p + 2 * t) = V (p + t) := fun t ht => by
      rw [h4, refineWith_even u V ht]
    have od : ∀ t, t < n - p → knotFn c'.kv (p + 2 * t + 1) = u (p + t) := fun t ht => by
      rw [h4, refineWith_odd u V ht]
    refine ⟨⟨h1, h2, h3, ?_, ?_, ?_⟩, ev, od, h6, h7⟩
    · rw [h4, refineWith_le u V _ _ (by omega), hz0]
    · rw [← h3.right (p + 2 * (n - p)) le_rfl (by omega), ev (n - p) le_rfl, ← hn1]
      congr 1; omega
    · intro i hi1 hi2
      obtain ⟨t, ht⟩ : ∃ t, i = p + 2 * t ∨ i = p + 2 * t + 1 := ⟨(i - p) / 2, by omega⟩
      rcases ht with rfl | rfl
      · rw [ev t (by omega), od t (by omega)]
        exact hlo _ (by omega) (by omega)
      · rw [od t (by omega), show p + 2 * t + 1 + 1 = p + 2 * (t + 1) by ring, ev (t + 1) (by omega)]
        exact hhi (p + t) (by omega) (by omega)

end PySpline
