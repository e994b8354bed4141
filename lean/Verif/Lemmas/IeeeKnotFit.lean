import Verif.Lemmas.IeeeTameSolve
import Verif.Lemmas.RoundedKnotRuns
import Verif.Model.IeeeKnotFit
import Verif.Props.IeeeInsertion
import Verif.Props.IeeeSolve

/-!
# Rounds of fit and knot insertion in IEEE arithmetic
-/

set_option linter.unusedSectionVars false
set_option exponentiation.threshold 1100

namespace PySpline

open Spec Ext Finset

/-! ## Rows and coordinates -/

section
variable {K : Type} [Field K] [LinearOrder K] [IsStrictOrderedRing K]

theorem forall_mem_of_coord {P : List (List K)} {n : ℕ} (hP : Shape P n 3) {Φ : K → Prop}
    (h : ∀ k < 3, ∀ i < n, Φ (coord P k i)) : ∀ row ∈ P, ∀ x ∈ row, Φ x := by
  intro row hrow x hx
  obtain ⟨i, hi, rfl⟩ := List.getElem_of_mem hrow
  obtain ⟨k, hk, rfl⟩ := List.getElem_of_mem hx
  have h3 := hP.2 _ hrow
  have := h k (by omega) i (by rw [← hP.1]; exact hi)
  simpa [coord, List.getD_eq_getElem?_getD, hi, hk] using this

theorem coord_of_forall_mem {P : List (List K)} {n : ℕ} (hP : Shape P n 3) {Φ : K → Prop}
    (h : ∀ row ∈ P, ∀ x ∈ row, Φ x) {k i : ℕ} (hk : k < 3) (hi : i < n) : Φ (coord P k i) := by
  have h1 : i < P.length := by rw [hP.1]; exact hi
  have h2 : k < P[i].length := by rw [hP.2 _ (List.getElem_mem h1)]; exact hk
  have := h _ (List.getElem_mem h1) _ (List.getElem_mem h2)
  simpa [coord, List.getD_eq_getElem?_getD, h1, h2] using this

/-- Different knots are at least as far apart as the shortest span. -/
theorem Spaced.sep {p n : ℕ} {δ : K} {c : Curve K} (h : Spaced p n δ c) :
    ∀ x ∈ c.kv, ∀ y ∈ c.kv, x < y → δ ≤ y - x := by
  have hm := monotone_knotFn h.clamped.mono
  have hlen := h.clamped.len
  have hsz := h.clamped.size
  intro x hx y hy hxy
  obtain ⟨i, hi, rfl⟩ := List.getElem_of_mem hx
  obtain ⟨j, hj, rfl⟩ := List.getElem_of_mem hy
  rw [← knotFn_eq hi, ← knotFn_eq hj] at hxy ⊢
  have key : ∀ i', p ≤ i' → knotFn c.kv i = knotFn c.kv i' → δ ≤ knotFn c.kv j - knotFn c.kv i := by
    intro i' hp he
    have hn : i' < n := by
      by_contra hn
      have h1 : knotFn c.kv n ≤ knotFn c.kv i' := hm (by omega)
      have h2 : knotFn c.kv j ≤ knotFn c.kv (n + p) := hm (by omega)
      rw [← h.clamped.right n le_rfl (by omega)] at h2
      rw [he] at hxy
      exact absurd (hxy.trans_le (h2.trans h1)) (lt_irrefl _)
    have hij : i' + 1 ≤ j := by
      by_contra hij
      have : knotFn c.kv j ≤ knotFn c.kv i' := hm (by omega)
      rw [he] at hxy
      exact absurd (hxy.trans_le this) (lt_irrefl _)
    have h1 := h.gap i' hp hn
    have h2 := hm hij
    rw [he]
    linarith
  rcases Nat.lt_or_ge i p with h1 | h1
  · exact key p le_rfl (by rw [h.clamped.left i h1.le, h.clamped.left p le_rfl])
  · exact key i h1 rfl

/-! ## The order of the rows -/

theorem keyLe_lift : ∀ l l' : List K, keyLe (lift1 l) (lift1 l') = true ↔ l ≤ l' := by
  intro l
  induction l with
  | nil =>
    intro l'
    rw [← not_lt]
    simp [keyLe]
  | cons a l ih =>
    intro l'
    rw [← not_lt]
    cases l' with
    | nil => simp [keyLe]
    | cons b l' =>
      have hlt : ∀ x y : K, sortLt (fin x) (fin y) = decide (x < y) := by
        intro x y
        simp [sortLt, lt]
      have ih' := ih l'
      rw [← not_lt] at ih'
      show (if sortLt (fin a) (fin b) then true else if sortLt (fin b) (fin a) then false
        else keyLe (lift1 l) (lift1 l')) = true ↔ _
      rw [hlt, hlt, List.cons_lt_cons_iff]
      rcases lt_trichotomy a b with h | rfl | h
      · simp [h, h.not_gt, h.ne']
      · simp [ih']
      · simp [h, h.not_gt]

theorem npSortRowsE_lift (order : List ℕ) (rows : List (List K)) :
    npSortRowsE order (lift2 rows) = lift2 (npSortRows order rows) := by
  unfold npSortRowsE npSortRows
  refine (List.map_insertionSort _ _ (lift1 : List K → List (Ext K)) rows fun a _ b _ => ?_).symm
  have e : ∀ a : List K, (order.map fun i => (lift1 a).getD i (0 : Ext K)) = lift1 (sortKey order a) := by
    intro a
    unfold sortKey
    show _ = List.map fin (List.map _ _)
    rw [List.map_map]
    exact List.map_congr_left fun i _ => getD_lift a i
  rw [e, e, keyLe_lift]

theorem mapPy_cases {α β : Type} {E : Err → Prop} (f : α → Py β) : ∀ l : List α,
    (∀ x ∈ l, (∃ e, E e ∧ f x = .error e) ∨ ∃ y, f x = .ok y) →
    (∃ e, E e ∧ mapPy f l = .error e) ∨ ∀ x ∈ l, ∃ y, f x = .ok y := by
  intro l
  induction l with
  | nil => intro _; exact Or.inr fun x hx => by cases hx
  | cons a l ih =>
    intro h
    rcases h a (by simp) with ⟨e, he, ha⟩ | ⟨y, hy⟩
    · exact Or.inl ⟨e, he, by unfold mapPy; rw [ha]; rfl⟩
    · rcases ih fun x hx => h x (List.mem_cons_of_mem _ hx) with ⟨e, he, hl⟩ | hl
      · exact Or.inl ⟨e, he, by unfold mapPy; rw [hy, ok_bind, hl]; rfl⟩
      · refine Or.inr fun x hx => ?_
        rcases List.mem_cons.1 hx with rfl | hx
        · exact ⟨y, hy⟩
        · exact hl x hx

end

/-- The rows that the fit is given. -/
theorem parameterizeCurveWithE_finite {E : Err → Prop} {B : ℚ} {inv : List (Ext ℚ) → Py (Ext ℚ)} {data : List (List ℚ)}
    (h3 : ∀ pt ∈ data, pt.length = 3) (hdata : ∀ pt ∈ data, ∀ x ∈ pt, bin64 x = fin x ∧ |x| ≤ B)
    (hinv : ∀ pt ∈ data, (∃ e, E e ∧ inv (lift1 pt) = .error e) ∨
      ∃ u, inv (lift1 pt) = .ok (fin u) ∧ bin64 u = fin u ∧ 0 ≤ u ∧ u ≤ 1) :
    (∃ e, E e ∧ parameterizeCurveWithE inv (lift2 data) = .error e) ∨
    ∃ rows, parameterizeCurveWithE inv (lift2 data) = .ok (lift2 rows) ∧ Shape rows data.length 4 ∧
      (∀ r < data.length, 0 ≤ at2 rows r 3 0 ∧ at2 rows r 3 0 ≤ 1) ∧
      (∀ k < 4, ∀ r < data.length, bin64 (at2 rows r k 0) = fin (at2 rows r k 0)) ∧
      ∀ k < 3, ∀ r < data.length, |at2 rows r k 0| ≤ B := by
  unfold parameterizeCurveWithE
  rcases mapPy_cases (E := E) (fun point => do
      let u ← inv point
      .ok (point ++ [u])) (lift2 data) (fun pt' hpt' => by
        obtain ⟨pt, hpt, rfl⟩ := List.mem_map.1 hpt'
        rcases hinv pt hpt with ⟨e, he, h⟩ | ⟨u, h, -⟩
        · exact Or.inl ⟨e, he, by rw [show inv (List.map fin pt) = _ from h]; rfl⟩
        · exact Or.inr ⟨_, by rw [show inv (List.map fin pt) = _ from h]; rfl⟩) with ⟨e, he, h⟩ | hall
  · exact Or.inl ⟨e, he, by rw [h]; rfl⟩
  right
  have hok : ∀ pt ∈ data, ∃ u, inv (lift1 pt) = .ok (fin u) ∧ bin64 u = fin u ∧ 0 ≤ u ∧ u ≤ 1 := by
    intro pt hpt
    rcases hinv pt hpt with ⟨e, he, h⟩ | h
    · obtain ⟨y, hy⟩ := hall (lift1 pt) (List.mem_map.2 ⟨pt, hpt, rfl⟩)
      rw [h] at hy
      cases hy
    · exact h
  choose! g hg using hok
  have hm : mapPy (fun point => do
      let u ← inv point
      .ok (point ++ [u])) (lift2 data) = .ok (lift2 (data.map fun pt => pt ++ [g pt])) := by
    rw [mapPy_eq_ok _ (fun pt' : List (Ext ℚ) => pt' ++ [fin (g (pt'.map Ext.val))]) _ fun pt' hpt' => by
      obtain ⟨pt, hpt, rfl⟩ := List.mem_map.1 hpt'
      have ev : (List.map fin pt).map Ext.val = pt := by
        rw [List.map_map]
        exact List.map_id' _
      rw [ev, show inv (List.map fin pt) = _ from (hg pt hpt).1, ok_bind]]
    congr 1
    rw [lift2, List.map_map, List.map_map]
    refine List.map_congr_left fun pt hpt => ?_
    have ev : (List.map fin pt).map Ext.val = pt := by
      rw [List.map_map]
      exact List.map_id' _
    simp only [Function.comp, ev, List.map_append, List.map_cons, List.map_nil]
  have hlen : ∀ row ∈ data.map fun pt => pt ++ [g pt], row.length = 4 := by
    intro row hrow
    obtain ⟨pt, hpt, rfl⟩ := List.mem_map.1 hrow
    simp [h3 pt hpt]
  have hperm := npSortRows_perm [3, 0, 1, 2] (data.map fun pt => pt ++ [g pt])
  rw [hm, ok_bind, if_pos (List.all_eq_true.2 fun row hrow => by
    obtain ⟨row', hrow', rfl⟩ := List.mem_map.1 hrow
    rw [decide_eq_true_iff, List.length_map]
    exact hlen row' hrow'), npSortRowsE_lift]
  set rows := npSortRows [3, 0, 1, 2] (data.map fun pt => pt ++ [g pt])
  have hrow : ∀ r < data.length, ∃ pt ∈ data, rows.getD r [] = pt ++ [g pt] := by
    intro r hr
    have hl : r < rows.length := by rw [hperm.length_eq]; simpa using hr
    have hmem : rows.getD r [] ∈ rows := by
      rw [List.getD_eq_getElem?_getD, List.getElem?_eq_getElem hl]
      exact List.getElem_mem hl
    obtain ⟨pt, hpt, he⟩ := List.mem_map.1 (hperm.mem_iff.1 hmem)
    exact ⟨pt, hpt, he.symm⟩
  have e3 : ∀ pt ∈ data, (pt ++ [g pt]).getD 3 0 = g pt := fun pt hpt => by
    rw [List.getD_eq_getElem?_getD, List.getElem?_append_right (by rw [h3 pt hpt]), h3 pt hpt]
    rfl
  have ek : ∀ pt ∈ data, ∀ k < 3, (pt ++ [g pt]).getD k 0 ∈ pt := fun pt hpt k hk => by
    have hk' : k < pt.length := by rw [h3 pt hpt]; exact hk
    rw [List.getD_eq_getElem?_getD, List.getElem?_append_left hk', List.getElem?_eq_getElem hk']
    exact List.getElem_mem hk'
  refine ⟨rows, rfl, ⟨by rw [hperm.length_eq]; simp, fun row hrow => hlen row (hperm.mem_iff.1 hrow)⟩, ?_, ?_, ?_⟩
  · intro r hr
    obtain ⟨pt, hpt, he⟩ := hrow r hr
    unfold at2
    rw [he, e3 pt hpt]
    exact (hg pt hpt).2.2
  · intro k hk r hr
    obtain ⟨pt, hpt, he⟩ := hrow r hr
    unfold at2
    rw [he]
    rcases Nat.lt_or_ge k 3 with h | h
    · exact (hdata pt hpt _ (ek pt hpt k h)).1
    · obtain rfl : k = 3 := by omega
      rw [e3 pt hpt]
      exact (hg pt hpt).2.1
  · intro k hk r hr
    obtain ⟨pt, hpt, he⟩ := hrow r hr
    unfold at2
    rw [he]
    exact (hdata pt hpt _ (ek pt hpt k hk)).2

/-! ## Midpoints -/

/-- The midpoint of a span that is not tiny: nothing underflows. -/
theorem midR_bin64 {l r : ℚ} (h0 : 0 ≤ l) (h : 2 / 10 ^ 5 ≤ r - l) (h1 : r ≤ 1) :
    midR bin64 (fin l) (fin r) = fin (midFl fl64 l r) ∧ bin64 (midFl fl64 l r) = fin (midFl fl64 l r) := by
  have hbig : (8 : ℚ) ≤ 2 ^ 1023 := le_trans (by norm_num) (pow_le_pow_right₀ (by norm_num) (show 3 ≤ 1023 by norm_num))
  have hsmall : (2 : ℚ) ^ (-1022 : ℤ) ≤ 1 / 2 ^ 20 := by
    rw [zpow_neg, one_div]
    exact inv_anti₀ (by positivity) (by exact_mod_cast pow_le_pow_right₀ (by norm_num) (show 20 ≤ 1022 by norm_num))
  have hd : 0 ≤ r - l := le_trans (by norm_num) h
  have d1 := fl64_lower hd
  have d2 := fl64_upper hd
  have e0 : 0 ≤ fl64 (r - l) / 2 := by
    have := fl64_nonneg hd
    positivity
  have e1 := fl64_lower e0
  have e2 := fl64_upper e0
  have x1 : fl64s (r - l) = fl64 (r - l) := fl64s_normal (hsmall.trans (le_trans (by norm_num) h))
  have x2 : fl64s (fl64 (r - l) / 2) = fl64 (fl64 (r - l) / 2) := fl64s_normal (hsmall.trans (by norm_num at *; linarith))
  have x3 : fl64s (l + fl64 (fl64 (r - l) / 2)) = fl64 (l + fl64 (fl64 (r - l) / 2)) :=
    fl64s_normal (hsmall.trans (by norm_num at *; linarith))
  have y1 : bin64 (r - l) = fin (fl64 (r - l)) := by
    rw [bin64_le hd (by linarith), x1]
  have y2 : bin64 (fl64 (r - l) / 2) = fin (fl64 (fl64 (r - l) / 2)) := by
    rw [bin64_le e0 (le_trans (by norm_num at *; linarith) hbig), x2]
  have f0 := fl64_nonneg e0
  have y3 : bin64 (l + fl64 (fl64 (r - l) / 2)) = fin (midFl fl64 l r) := by
    rw [bin64_le (by linarith) (le_trans (by norm_num at *; linarith) hbig), x3]
    rfl
  refine ⟨?_, ?_⟩
  · have q : (fin (fl64 (r - l)) : Ext ℚ) / fin 2 = fin (fl64 (r - l) / 2) := fin_div _ (by norm_num)
    show rnd bin64 (fin l + rnd bin64 (bin64 (r - l) / fin 2)) = _
    rw [y1, q]
    show rnd bin64 (fin l + bin64 (fl64 (r - l) / 2)) = _
    rw [y2]
    exact y3
  · have hy := (bin64_eq_fin y3).1
    have hm := mid_knot_error h0 (by linarith : l ≤ r) h1
    have hm0 : 0 ≤ midFl fl64 l r := by rw [hy]; exact fl64s_nonneg (by linarith)
    have : midFl fl64 l r ≤ 2 ^ 1023 := by
      refine le_trans ?_ hbig
      rw [abs_le] at hm
      norm_num at *
      linarith
    rw [bin64_le hm0 this]
    congr 1
    rw [hy, fl64s_idem]

theorem pyGet_knot_lift (U : List ℚ) (i : ℤ) (k : ℕ) (hi : i = k) (hk : k < U.length) :
    pyGet (lift1 U) i = .ok (fin (knotFn U k)) := by
  rw [pyGet_nat _ i k 0 hi (by rw [List.length_map]; exact hk), knotFn_eq hk, List.getD_eq_getElem?_getD,
    List.getElem?_map, List.getElem?_eq_getElem hk]
  rfl

theorem midKnotsR_eq {rd : ℚ → Ext ℚ} {p n : ℕ} {c : Curve ℚ} (hd : c.degree = p) (hlen : c.kv.length = n + p + 1)
    (hsz : p < n) :
    midKnotsR rd c.lift = .ok ((List.range (n - p)).map fun j =>
      midR rd (fin (knotFn c.kv (p + j))) (fin (knotFn c.kv (p + j + 1)))) := by
  have hl : c.lift.kv.length = n + p + 1 := by
    show (lift1 c.kv).length = _
    rw [List.length_map, hlen]
  unfold midKnotsR
  dsimp only
  rw [show c.lift.degree = p from hd, if_neg (by omega)]
  have e : ((c.lift.kv.length : ℤ) - p - 1 - p).toNat = n - p := by omega
  rw [e, forZ_eq_forN p, show ((c.lift.kv.length : ℤ) - p - 1).toNat = n by omega]
  refine Returns.eq_ok ?_
  refine Returns.bind (Returns.forN (fun k (st : List (Ext ℚ) × ℕ) => st.1.length = n - p ∧ st.2 = k - p ∧
    ∀ j < k - p, st.1.getD j 0 = midR rd (fin (knotFn c.kv (p + j))) (fin (knotFn c.kv (p + j + 1)))) (by omega) ?_ ?_) ?_
  · exact ⟨by simp, by omega, fun j hj => absurd hj (by omega)⟩
  · rintro k ⟨ks, idx⟩ hk1 hk2 ⟨h1, h2, h3⟩
    dsimp only at h1 h2 h3 ⊢
    subst h2
    rw [show c.lift.kv = lift1 c.kv from rfl, pyGet_knot_lift c.kv _ k rfl (by omega), ok_bind,
      pyGet_knot_lift c.kv _ (k + 1) (by push_cast; ring) (by omega),
      ok_bind, pySet_nat _ _ (k - p) _ rfl (by omega), ok_bind]
    refine Returns.ok ⟨by simp [h1], by omega, fun j hj => ?_⟩
    rw [getD_set _ _ _ _ _ (by omega)]
    by_cases e : j = k - p
    · rw [if_pos e]
      rw [show p + j = k by omega]
    · rw [if_neg e]; exact h3 j (by omega)
  · rintro ⟨ks, idx⟩ ⟨h1, -, h3⟩
    refine Returns.ok ?_
    dsimp only at h1 h3 ⊢
    refine List.ext_getElem (by simp [h1]) fun i g1 g2 => ?_
    have := h3 i (by omega)
    rw [List.getD_eq_getElem?_getD, List.getElem?_eq_getElem g1] at this
    simpa using this

/-- One insertion of a number that is far from the knots. -/
theorem insertKnotR_far {p n : ℕ} {c : Curve ℚ} {u B : ℚ} (hd : c.degree = p) (hp : 1 ≤ p) (hp10 : p ≤ 10)
    (hU : Clamped p n c.kv) (hz : knotFn c.kv 0 = 0) (ho : knotFn c.kv (n + p) = 1) (hP : Shape c.ctrlpts n 3) (h0 : 0 < u)
    (h1 : u < 1) (hfar : ∀ x ∈ c.kv, 2 / 10 ^ 5 ≤ |u - x|) (hst : StoredCurve bin64 B c) (hu : bin64 u = fin u)
    (hB : B ≤ 2 ^ 1020) :
    ∃ k P', c.lift.insertKnotR bin64 (fin u) = .ok (⟨p, P', insertedKnots c.kv k u 1⟩ : Curve ℚ).lift ∧ p ≤ k ∧ k < n ∧
      knotFn c.kv k < u ∧ u < knotFn c.kv (k + 1) ∧ Shape P' (n + 1) 3 ∧ Clamped p (n + 1) (insertedKnots c.kv k u 1) ∧
      P'.getD 0 [] = c.ctrlpts.getD 0 [] ∧ P'.getD n [] = c.ctrlpts.getD (n - 1) [] ∧
      StoredCurve bin64 (B + (2 / 10 ^ 14 * B + 1 / 2 ^ 1060)) ⟨p, P', insertedKnots c.kv k u 1⟩ := by
  obtain ⟨q, P, U⟩ := c
  dsimp only at hd hU hz ho hP hfar ⊢
  subst hd
  have hV := monotone_knotFn hU.mono
  have hsz := hU.size
  have hn : knotFn U n = 1 := by rw [hU.right n le_rfl (by omega), ho]
  have hpz : knotFn U q = 0 := by rw [hU.left q le_rfl, hz]
  obtain ⟨k, P', hcall, shP, b1, b2, hcl, hst', hl, hr, -⟩ := knot_insertion_binary64 (r := 1) hU hz ho hp10 hP h0 h1 hfar hp
    hst.knots hu (fun row hr x hx => (hst.pts row hr x hx).1) (fun row hr x hx => (hst.pts row hr x hx).2) hB
  have hpk : q ≤ k := by
    by_contra hk
    have : knotFn U (k + 1) ≤ knotFn U q := hV (by omega)
    linarith
  have hkn : k < n := by
    by_contra hk
    have : knotFn U n ≤ knotFn U k := hV (by omega)
    linarith
  refine ⟨k, P', ?_, hpk, hkn, b1, b2, shP, hcl, hl 0 (by omega), ?_, ⟨?_, hst'⟩⟩
  · unfold Curve.insertKnotR
    rw [validateKnotE_lift, (validateKnot_iff u).2 ⟨h0.le, h1.le⟩, if_neg (by simp)]
    show (curveKnotInsertionR bin64 q (U.map fin) (P.map (List.map fin)) (fin u) 1 >>= _) = _
    rw [hcall, ok_bind]
    rfl
  · have := hr (n - 1) (by omega) (by omega)
    rwa [show n - 1 + 1 = n by omega] at this
  · intro x hx
    unfold insertedKnots at hx
    rcases List.mem_append.1 hx with hx | hx
    · rcases List.mem_append.1 hx with hx | hx
      · exact hst.knots x (List.mem_of_mem_take hx)
      · rw [List.eq_of_mem_replicate hx]; exact hu
    · exact hst.knots x (List.mem_of_mem_drop hx)

/-- One round of midpoint insertion in double precision. -/
theorem insertRoundR {p n : ℕ} {δ B : ℚ} {c : Curve ℚ} (h : Spaced p n δ c) (hp : 1 ≤ p) (hp10 : p ≤ 10)
    (hst : StoredCurve bin64 B c) (hB0 : 1 / 2 ^ 1000 ≤ B) (hB1 : B ≤ 2 ^ 1019) (hn : n ≤ 10 ^ 8)
    (hδ : 2 / 10 ^ 5 + 1 / 2 ^ 52 ≤ δ / 2) :
    ∃ c' : Curve ℚ, (do let ks ← midKnotsR bin64 c.lift
                        forL ks c.lift fun u c => c.insertKnotR bin64 u) = .ok c'.lift ∧
        Spaced p (p + 2 * (n - p)) (δ / 2 - 1 / 2 ^ 52) c' ∧ StoredCurve bin64 (2 * B) c' ∧
        (∀ t, t ≤ n - p → knotFn c'.kv (p + 2 * t) = knotFn c.kv (p + t)) ∧
        (∀ t, t < n - p → knotFn c'.kv (p + 2 * t + 1)
          = midFl fl64 (knotFn c.kv (p + t)) (knotFn c.kv (p + t + 1))) ∧
        c'.ctrlpts.getD 0 [] = c.ctrlpts.getD 0 [] ∧
        c'.ctrlpts.getD (p + 2 * (n - p) - 1) [] = c.ctrlpts.getD (n - 1) [] := by
  have hsz := h.clamped.size
  have hm := monotone_knotFn h.clamped.mono
  have hB : 0 < B := lt_of_lt_of_le (by positivity) hB0
  rw [midKnotsR_eq h.deg h.clamped.len hsz, ok_bind]
  set V := knotFn c.kv with hV
  set u : ℕ → ℚ := fun i => midFl fl64 (V i) (V (i + 1)) with hu
  have hz0 : V 0 = 0 := h.zero
  have hV0 : ∀ i, 0 ≤ V i := fun i => by rw [← hz0]; exact hm (Nat.zero_le i)
  have hn1 : V n = 1 := (h.clamped.right n le_rfl (by omega)).trans h.one
  have hV1 : ∀ i, i ≤ n + p → V i ≤ 1 := fun i hi => by rw [← h.one]; exact hm hi
  have hη : (0 : ℚ) < 1 / 2 ^ 52 := by norm_num
  have hgap : ∀ i, p ≤ i → i < n → 4 / 10 ^ 5 ≤ V (i + 1) - V i := fun i h1 h2 => by
    have b := h.gap i h1 h2
    rw [← hV] at b
    linarith
  have hmid : ∀ i, p ≤ i → i < n → |u i - (V i + V (i + 1)) / 2| ≤ 1 / 2 ^ 52 := fun i h1 h2 =>
    mid_knot_error (hV0 i) (hm (Nat.le_succ i)) (hV1 (i + 1) (by omega))
  have hmidR : ∀ i, p ≤ i → i < n → midR bin64 (fin (V i)) (fin (V (i + 1))) = fin (u i) ∧ bin64 (u i) = fin (u i) :=
    fun i h1 h2 => midR_bin64 (hV0 i) (by have := hgap i h1 h2; linarith) (hV1 (i + 1) (by omega))
  have hlo : ∀ i, p ≤ i → i < n → δ / 2 - 1 / 2 ^ 52 ≤ u i - V i := fun i h1 h2 => by
    have a := (abs_le.1 (hmid i h1 h2)).1
    have b := h.gap i h1 h2
    rw [← hV] at b
    linarith
  have hhi : ∀ i, p ≤ i → i < n → δ / 2 - 1 / 2 ^ 52 ≤ V (i + 1) - u i := fun i h1 h2 => by
    have a := (abs_le.1 (hmid i h1 h2)).2
    have b := h.gap i h1 h2
    rw [← hV] at b
    linarith
  have htol : (0 : ℚ) < 2 / 10 ^ 5 := by norm_num
  have hn' : (n : ℚ) ≤ 10 ^ 8 := by exact_mod_cast hn
  have hBj : ∀ j : ℕ, j ≤ n → B + j * (6 / 10 ^ 14 * B) ≤ 2 * B := fun j hj => by
    have h1 : (j : ℚ) ≤ 10 ^ 8 := le_trans (by exact_mod_cast hj) hn'
    have h2 := mul_le_mul_of_nonneg_right h1 (show 0 ≤ 6 / 10 ^ 14 * B by positivity)
    have h3 : (10 : ℚ) ^ 8 * (6 / 10 ^ 14 * B) ≤ B := by
      rw [← mul_assoc]
      have : (10 : ℚ) ^ 8 * (6 / 10 ^ 14) ≤ 1 := by norm_num
      have := mul_le_mul_of_nonneg_right this hB.le
      linarith
    linarith
  have hsmall : (1 : ℚ) / 2 ^ 1060 ≤ 1 / 10 ^ 14 * B := by
    have h1 : (1 : ℚ) / 2 ^ 1060 = 1 / 2 ^ 60 * (1 / 2 ^ 1000) := by
      rw [one_div_mul_one_div, ← pow_add]
    rw [h1]
    exact mul_le_mul (by norm_num) hB0 (by positivity) (by positivity)
  have hpow : (2 : ℚ) * 2 ^ 1019 = 2 ^ 1020 := by rw [← pow_succ']
  rw [forL_map_range]
  obtain ⟨w, hw, c', rfl, h1, h2, h3, h4, h5, h6, h7⟩ := Returns.forN (fun j (st : Curve (Ext ℚ)) => ∃ c' : Curve ℚ, st = c'.lift ∧
        c'.degree = p ∧ Shape c'.ctrlpts (n + j) 3 ∧
        Clamped p (n + j) c'.kv ∧ knotFn c'.kv = refineWith u V p j ∧ StoredCurve bin64 (B + j * (6 / 10 ^ 14 * B)) c' ∧
        c'.ctrlpts.getD 0 [] = c.ctrlpts.getD 0 [] ∧
        c'.ctrlpts.getD (n + j - 1) [] = c.ctrlpts.getD (n - 1) []) (Nat.zero_le (n - p))
    (b := n - p) (s := c.lift)
    (f := fun i s => s.insertKnotR bin64 (midR bin64 (fin (V (p + i))) (fin (V (p + i + 1)))))
    ⟨c, rfl, h.deg, h.pts, h.clamped, (refineWith_zero u V p).symm, by rw [Nat.cast_zero, zero_mul, add_zero]; exact hst, rfl, rfl⟩
    (by
    rintro j st - hj ⟨c', rfl, h1, h2, h3, h4, h5, h6, h7⟩
    have hm' := monotone_knotFn h3.mono
    have hlen' := h3.len
    have hk0 : knotFn c'.kv (p + 2 * j) = V (p + j) := by rw [h4, refineWith_even u V le_rfl]
    have hk1 : knotFn c'.kv (p + 2 * j + 1) = V (p + j + 1) := by
      rw [h4, refineWith_gt u V p j (by omega)]; congr 1; omega
    have g1 := hlo (p + j) (by omega) (by omega)
    have g2 := hhi (p + j) (by omega) (by omega)
    obtain ⟨hmr, hms⟩ := hmidR (p + j) (by omega) (by omega)
    have hb := hBj j (by omega)
    obtain ⟨k, P', hins, hpk, hk, b1, b2, hs', hc', e0, e1, hst'⟩ := insertKnotR_far (c := c') (u := u (p + j)) h1 hp hp10 h3
      (by rw [h4, refineWith_le u V p j (Nat.zero_le _), hz0])
      (by rw [← h3.right (n + j) le_rfl (by omega), h4, refineWith_gt u V p j (by omega), Nat.add_sub_cancel, hn1]) h2
      (by have := hV0 (p + j); linarith) (by have := hV1 (p + j + 1) (by omega); linarith)
      (fun x hx => by
        obtain ⟨i, hi, rfl⟩ := List.getElem_of_mem hx
        rw [← knotFn_eq hi]
        by_cases hik : i ≤ p + 2 * j
        · have a := hm' hik
          rw [hk0] at a
          have := le_abs_self (u (p + j) - knotFn c'.kv i)
          linarith
        · have a : knotFn c'.kv (p + 2 * j + 1) ≤ knotFn c'.kv i := hm' (by omega)
          rw [hk1] at a
          have := neg_le_abs (u (p + j) - knotFn c'.kv i)
          linarith) h5 hms (by linarith)
    have hkk : k = p + 2 * j := by
      by_contra hne
      rcases Nat.lt_or_gt_of_ne hne with hlt | hgt
      · have : knotFn c'.kv (k + 1) ≤ knotFn c'.kv (p + 2 * j) := hm' (by omega)
        rw [hk0] at this; linarith
      · have : knotFn c'.kv (p + 2 * j + 1) ≤ knotFn c'.kv k := hm' (by omega)
        rw [hk1] at this; linarith
    subst hkk
    rw [hmr, hins]
    refine Returns.ok ⟨_, rfl, rfl, hs', hc', ?_, ⟨hst'.knots, fun row hr x hx => ⟨(hst'.pts row hr x hx).1, ?_⟩⟩,
      e0.trans h6, ?_⟩
    · dsimp only
      rw [knotFn_insertedKnots hlen' hk, h4, refineWith_succ]
    · refine (hst'.pts row hr x hx).2.trans ?_
      push_cast
      have := mul_le_mul_of_nonneg_left hb (show (0 : ℚ) ≤ 2 / 10 ^ 14 by norm_num)
      linarith
    · dsimp only
      rw [show n + (j + 1) - 1 = n + j by omega, e1, h7])
  refine ⟨c', hw, ?_⟩
  have e : n + (n - p) = p + 2 * (n - p) := by omega
  rw [e] at h2 h3 h7
  have ev : ∀ t, t ≤ n - p → knotFn c'.kv (p + 2 * t) = V (p + t) := fun t ht => by
    rw [h4, refineWith_even u V ht]
  have od : ∀ t, t < n - p → knotFn c'.kv (p + 2 * t + 1) = u (p + t) := fun t ht => by
    rw [h4, refineWith_odd u V ht]
  refine ⟨⟨h1, h2, h3, ?_, ?_, ?_⟩,
    ⟨h5.knots, fun row hr x hx => ⟨(h5.pts row hr x hx).1, (h5.pts row hr x hx).2.trans (hBj _ (by omega))⟩⟩, ev, od, h6, h7⟩
  · rw [h4, refineWith_le u V _ _ (by omega), hz0]
  · rw [← h3.right (p + 2 * (n - p)) le_rfl (by omega), ev (n - p) le_rfl, ← hn1]
    congr 1; omega
  · intro i hi1 hi2
    obtain ⟨t, ht⟩ : ∃ t, i = p + 2 * t ∨ i = p + 2 * t + 1 := ⟨(i - p) / 2, by omega⟩
    rcases ht with rfl | rfl
    · rw [ev t (by omega), od t (by omega)]
      exact hlo _ (by omega) (by omega)
    · rw [od t (by omega), show p + 2 * t + 1 + 1 = p + 2 * (t + 1) by ring, ev (t + 1) (by omega)]
      exact hhi (p + t) (by omega) (by omega)

/-- One fit with the parameters of another curve, in double precision. -/
theorem refitR_finite {E : Err → Prop} {B : ℚ} (hB0 : 1 / 2 ^ 1000 ≤ B) (hB1 : B ≤ 2 ^ 1019)
    {ls : ℕ → List (List (Ext ℚ)) → List (Ext ℚ) → Py (List (Ext ℚ))} (hls : TameSolver bin64 (2 ^ 1023) B E ls)
    {inv : List (Ext ℚ) → Py (Ext ℚ)} {data : List (List ℚ)} (h3 : ∀ pt ∈ data, pt.length = 3)
    (hdata : ∀ pt ∈ data, ∀ x ∈ pt, bin64 x = fin x ∧ |x| ≤ B)
    (hinv : ∀ pt ∈ data, (∃ e, E e ∧ inv (lift1 pt) = .error e) ∨
      ∃ u, inv (lift1 pt) = .ok (fin u) ∧ bin64 u = fin u ∧ 0 ≤ u ∧ u ≤ 1) {p n : ℕ} (hp10 : p ≤ 10) {δ X : ℚ} {c : Curve ℚ}
    (h : Spaced p n δ c) (hδ : 1 / 2 ^ 1000 ≤ δ) (hst : StoredCurve bin64 X c)
    (hends : ∀ k < 3, |coord c.ctrlpts k 0| ≤ B ∧ |coord c.ctrlpts k (n - 1)| ≤ B)
    (hs : 5 * p + n + data.length ≤ 10 ^ 8) :
    (∃ e, E e ∧ parameterizeCurveWithE inv (lift2 data) = .error e) ∨
    ∃ rows, parameterizeCurveWithE inv (lift2 data) = .ok (lift2 rows) ∧
      (∃ res, SingleFitCurveR bin64 ls c.lift (lift2 rows) res) ∧
      ∀ res, SingleFitCurveR bin64 ls c.lift (lift2 rows) res → (∃ e, E e ∧ res = .error e) ∨
        ∃ c' : Curve ℚ, res = .ok c'.lift ∧ Spaced p n δ c' ∧ StoredCurve bin64 B c' ∧ c'.kv = c.kv ∧
          c'.ctrlpts.getD 0 [] = c.ctrlpts.getD 0 [] ∧ c'.ctrlpts.getD (n - 1) [] = c.ctrlpts.getD (n - 1) [] := by
  have hsz := h.clamped.size
  have hδ0 : 0 < δ := lt_of_lt_of_le (by positivity) hδ
  rcases parameterizeCurveWithE_finite h3 hdata hinv with herr | ⟨rows, hrows, hsh, hran, hrst, hrB⟩
  · exact Or.inl herr
  refine Or.inr ⟨rows, hrows, ?_⟩
  have hp0 : knotFn c.kv p = 0 := by rw [h.clamped.left p le_rfl, h.zero]
  have hn1 : knotFn c.kv n = 1 := by rw [h.clamped.right n le_rfl (by omega), h.one]
  have hdeg := h.deg
  have hone : (1 : ℚ) ≤ 2 ^ 1000 := one_le_pow₀ (by norm_num)
  have hpow : (8 : ℚ) * 2 ^ 1019 ≤ 2 ^ 1023 := by
    rw [show (8 : ℚ) = 2 ^ 3 by norm_num, ← pow_add]
    exact pow_le_pow_right₀ (by norm_num) (by norm_num)
  obtain ⟨hex, hall⟩ := singleFitCurveR_finite (c := c) (data := rows) (m := data.length) (n := n) hls
    (by rw [hdeg]; exact h.clamped) (by rw [hdeg]; exact hp10) (by rw [hdeg]; exact h.distinct hδ0 p le_rfl hsz) h.pts hsh
    hst.knots (fun x hx y hy hxy => hδ.trans (h.sep x hx y hy hxy))
    (by rw [hdeg, h.one, h.zero, sub_zero]; exact hone)
    (fun r hr => by rw [hdeg, hp0, hn1]; exact hran r hr) hrst
    (fun k hk => ⟨(coord_of_forall_mem h.pts hst.pts hk (by omega)).1, (coord_of_forall_mem h.pts hst.pts hk (by omega)).1⟩)
    (fun k hk => ⟨hrB k hk, (hends k hk).1, (hends k hk).2⟩) hB0 (by linarith) (by rw [hdeg]; exact hs)
  refine ⟨hex, fun res hres => ?_⟩
  rcases hall res hres with herr | ⟨c', hc', hd', hk', hP', hcs⟩
  · exact Or.inl herr
  refine Or.inr ⟨c', hc', ⟨by rw [hd', hdeg], hP', ?_, ?_, ?_, ?_⟩, ⟨by rw [hk']; exact hst.knots,
    forall_mem_of_coord hP' (Φ := fun x => bin64 x = fin x ∧ |x| ≤ B) fun k hk i hi => (hcs k hk).2.2 i hi⟩, hk',
    getD_eq_of_at2 hP' h.pts (by omega) fun k hk => (hcs k hk).1,
    getD_eq_of_at2 hP' h.pts (by omega) fun k hk => (hcs k hk).2.1⟩
  · rw [hk']; exact h.clamped
  · rw [hk']; exact h.zero
  · rw [hk']; exact h.one
  · rw [hk']; exact h.gap

end PySpline
