import Verif.Lemmas.InsertionAux
import Verif.Lemmas.Insertion
import Verif.Lemmas.InsertionEnd
import Verif.Props.Knots

/-!
# C10–C14: `curve_knot_insertion`
-/

set_option linter.unusedSectionVars false

namespace PySpline

open Spec Finset

variable {K : Type} [Field K] [LinearOrder K] [IsStrictOrderedRing K]

/-- The knots of `U` with `u` put `r` times behind position `k`. -/
def insertedKnots (U : List K) (k : ℕ) (u : K) (r : ℕ) : List K :=
  U.take (k + 1) ++ List.replicate r u ++ U.drop (k + 1)

theorem eq_insertedKnots {U kv : List K} {k r n p : ℕ} {u : K} (hl : U.length = n + p + 1)
    (hk : k < n) (hkv : kv.length = n + p + 1 + r)
    (h : knotFn kv = insKnots (knotFn U) k u r) : kv = insertedKnots U k u r := by
  unfold insertedKnots
  refine List.ext_getElem (by simp; omega) fun i h1 h2 => ?_
  rw [← knotFn_eq h1, h]
  unfold insKnots
  by_cases a : i ≤ k
  · rw [if_pos a, List.getElem_append_left (by simp; omega), List.getElem_append_left (by simp; omega),
      List.getElem_take, knotFn_eq]
  · rw [if_neg a]
    by_cases b : i ≤ k + r
    · rw [if_pos b, List.getElem_append_left (by simp; omega),
        List.getElem_append_right (by simp; omega), List.getElem_replicate]
    · rw [if_neg b, List.getElem_append_right (by simp; omega), List.getElem_drop,
        knotFn_eq (by omega)]
      congr 1
      simp
      omega

theorem insertedKnots_perm (U : List K) (k : ℕ) (u : K) (r : ℕ) :
    (insertedKnots U k u r).Perm (U ++ List.replicate r u) := by
  unfold insertedKnots
  have h : (U.take (k + 1) ++ List.replicate r u ++ U.drop (k + 1)).Perm
      (U.take (k + 1) ++ U.drop (k + 1) ++ List.replicate r u) := by
    rw [List.append_assoc, List.append_assoc]
    exact List.Perm.append_left _ List.perm_append_comm
  rwa [List.take_append_drop] at h

/-- **C10.** Whenever `curve_knot_insertion` returns and `find_span` brackets the new knot, the
returned knots are the old ones and `num_inserts` copies of the new one, in order. -/
theorem knot_insertion_knots {U U' : List K} {P P' : List (List K)} {k r n p : ℕ} {u : K}
    (hU : KnotVector p n U) (hP : P.length = n) (hk : k < n)
    (hfs : findSpan n p u U = .ok (k : ℤ)) (h1 : knotFn U k ≤ u) (h2 : u ≤ knotFn U (k + 1))
    (hret : curveKnotInsertion p U P u r = .ok (U', P')) :
    U' = insertedKnots U k u r ∧ U'.Perm (U ++ List.replicate r u) ∧ U'.Pairwise (· ≤ ·) ∧
      U'.length = n + r + p + 1 := by
  obtain ⟨kv, hkv, lkv, vkv⟩ := insertion_knots (r := r) u hU.len hk
  have hfn := knotFn_of_getD hU.len hk lkv vkv
  have e : U' = kv := by
    unfold curveKnotInsertion at hret
    rw [hP, hfs, ok_bind] at hret
    simp only at hkv hret
    rw [bind3_ok _ _ _ _ _ hkv] at hret
    have fin : ∀ {α β γ δ ε ζ : Type} (a : Py α) (f : α → Py β) (g : α → β → Py γ)
        (g' : α → β → γ → Py δ) (g'' : α → β → γ → δ → Py ε) (x y : ζ) (z : ε),
        (a >>= fun i => f i >>= fun j => g i j >>= fun k => g' i j k >>= fun l =>
          g'' i j k l >>= fun m => Except.ok (x, m)) = .ok (y, z) → y = x := by
      intro α β γ δ ε ζ a f g g' g'' x y z h
      have : (a >>= fun i => f i >>= fun j => g i j >>= fun k => g' i j k >>= fun l =>
          g'' i j k l >>= fun m => Except.ok (x, m))
          = ((a >>= fun i => f i >>= fun j => g i j >>= fun k => g' i j k >>= g'' i j k)
              >>= fun m => Except.ok (x, m)) := by
        simp only [bind_assoc]
      rw [this] at h
      rcases hh : (a >>= fun i => f i >>= fun j => g i j >>= fun k => g' i j k >>= g'' i j k) with e | v
      · rw [hh] at h; cases h
      · rw [hh, ok_bind] at h; cases h; rfl
    exact fin _ _ _ _ _ _ _ _ hret
  subst e
  have e := eq_insertedKnots hU.len hk lkv hfn
  refine ⟨e, ?_, ?_, by omega⟩
  · rw [e]; exact insertedKnots_perm U k u r
  · refine pairwise_of_mono ?_
    rw [hfn]
    exact insKnots_mono (monotone_knotFn hU.mono) h1 h2 r

/-- The multiplicity found by `find_multiplicity` is the exact one: no other knot is within the
tolerance of `np.isclose`. -/
def NoNearMiss (u : K) (U : List K) : Prop :=
  ∀ x ∈ U, |u - x| ≤ 1 / 10 ^ 8 + 1 / 10 ^ 5 * |x| → x = u

theorem insertion_setup {U : List K} {P : List (List K)} {k r n p : ℕ} {u : K}
    (hU : KnotVector p n U) (hP : Shape P n 3) (hpk : p ≤ k) (hk : k < n)
    (hfs : findSpan n p u U = .ok (k : ℤ)) (h1 : knotFn U k ≤ u) (h2 : u < knotFn U (k + 1))
    (hnm : NoNearMiss u U) (hr : r + U.count u ≤ p) :
    (∀ j, k < j + U.count u → j ≤ k → knotFn U j = u) ∧
    Returns (curveKnotInsertion p U P u r) fun res =>
      res.1.length = n + p + 1 + r ∧ knotFn res.1 = insKnots (knotFn U) k u r ∧
      Shape res.2 (n + r) 3 ∧ ∀ m < n + r, ∀ y < 3,
        at2 res.2 m y 0 = boehmIter (knotFn U) p k u (coord P y) r m := by
  have hm := monotone_knotFn hU.mono
  have hlen := hU.len
  have hs : findMultiplicity u U = U.count u := (find_multiplicity_counts u U).2.2 hnm
  have hrun := multiplicity_run hm (k := k) (by omega) h1 (fun _ => h2) rfl
  refine ⟨hrun, curveKnotInsertion_returns hU.len hP hpk hk hfs hs hm (lt_of_le_of_lt h1 h2) hr
    (fun t m y => boehmIter (knotFn U) p k u (coord P y) t m) (fun m y => rfl) ?_ ?_ ?_⟩
  · intro t m y h h'
    have := boehmIter_left (V := knotFn U) (k := k) (p := p) (u := u) (c := coord P y) (r - t) h'
    rwa [show t + (r - t) = r by omega] at this
  · intro t m y h h'
    have := boehmIter_right (V := knotFn U) (k := k) (p := p) (u := u) (c := coord P y) (t := t)
      hrun hr (r - t) (by omega) h'
    rwa [show t + (r - t) = r by omega] at this
  · intro t i y _ h
    exact boehmIter_mid hpk (by omega)

/-- **C11.** A knot in the half-open span returned by `find_span`, inserted so often that its
multiplicity stays at most the degree: the call returns and the curve is the same function. -/
theorem knot_insertion_preserves_curve {U : List K} {P : List (List K)} {k r n p : ℕ} {u : K}
    (hU : KnotVector p n U) (hP : Shape P n 3) (hpk : p ≤ k) (hk : k < n)
    (hfs : findSpan n p u U = .ok (k : ℤ)) (h1 : knotFn U k ≤ u) (h2 : u < knotFn U (k + 1))
    (hnm : NoNearMiss u U) (hr : r + U.count u ≤ p) :
    ∃ U' P', curveKnotInsertion p U P u r = .ok (U', P') ∧
      KnotVector p (n + r) U' ∧ Shape P' (n + r) 3 ∧
      (∀ y < 3, ∀ x, spline (knotFn U') p (n + r) (coord P' y) x
        = spline (knotFn U) p n (coord P y) x) ∧
      (Clamped p n U → Clamped p (n + r) U' ∧
        ∀ y < 3, ∀ x, curve (knotFn U') p (n + r) (coord P' y) x
          = curve (knotFn U) p n (coord P y) x) := by
  obtain ⟨hrun, ⟨U', P'⟩, hret, hl', hfn, shP, vP⟩ := insertion_setup hU hP hpk hk hfs h1 h2 hnm hr
  obtain ⟨hkv, hspl, hc⟩ := inserted_curve hU hpk hk h1 h2 hrun hr hl' hfn vP
  exact ⟨U', P', hret, hkv, shP, hspl, hc⟩

/-- **C11** in terms of the caller's data only: a parameter of the domain that is not near the
right end and not within tolerance of a knot, inserted up to `degree` times. -/
theorem knot_insertion_preserves_curve_new_knot {U : List K} {P : List (List K)} {r n p : ℕ} {u : K}
    (hU : KnotVector p n U) (hP : Shape P n 3) (hlo : knotFn U p ≤ u) (hhi : u ≤ knotFn U n)
    (hend : nearEnd n u U = false)
    (hnew : ∀ x ∈ U, ¬ |u - x| ≤ 1 / 10 ^ 8 + 1 / 10 ^ 5 * |x|) (hr : r ≤ p) :
    ∃ U' P', curveKnotInsertion p U P u r = .ok (U', P') ∧
      KnotVector p (n + r) U' ∧ Shape P' (n + r) 3 ∧ U'.Perm (U ++ List.replicate r u) ∧
      (∀ y < 3, ∀ x, spline (knotFn U') p (n + r) (coord P' y) x
        = spline (knotFn U) p n (coord P y) x) ∧
      (Clamped p n U → Clamped p (n + r) U' ∧
        ∀ y < 3, ∀ x, curve (knotFn U') p (n + r) (coord P' y) x
          = curve (knotFn U) p n (coord P y) x) := by
  have hlen := hU.len
  obtain ⟨k, hfs, hpk, hk, hb⟩ := find_span_on_domain hU hlo hhi
  rcases hb with ⟨h1, h2⟩ | ⟨h, -⟩
  swap
  · rw [hend] at h; cases h
  have hnot : u ∉ U := fun h => hnew u h (by rw [sub_self, abs_zero]; positivity)
  have h2 : u < knotFn U (k + 1) := by
    refine lt_of_le_of_ne h2 fun e => hnot ?_
    rw [e, knotFn_eq (by omega)]
    exact List.getElem_mem _
  have hc : U.count u = 0 := List.count_eq_zero.2 hnot
  obtain ⟨U', P', hret, hkv, shP, hspl, hcl⟩ := knot_insertion_preserves_curve (r := r) hU hP hpk hk
    hfs h1 h2 (fun x hx h => absurd h (hnew x hx)) (by omega)
  exact ⟨U', P', hret, hkv, shP,
    (knot_insertion_knots hU hP.1 hk hfs h1 h2.le hret).2.1, hspl, hcl⟩

/-- **C12.** Under the hypotheses of C11: `num_inserts` more control points; those before and
behind the affected range are kept; every new one is a convex combination of old ones with indices
between its own minus `num_inserts` and its own. -/
theorem knot_insertion_convex {U U' : List K} {P P' : List (List K)} {k r n p : ℕ} {u : K}
    (hU : KnotVector p n U) (hP : Shape P n 3) (hpk : p ≤ k) (hk : k < n)
    (hfs : findSpan n p u U = .ok (k : ℤ)) (h1 : knotFn U k ≤ u) (h2 : u < knotFn U (k + 1))
    (hnm : NoNearMiss u U) (hr : r + U.count u ≤ p)
    (hret : curveKnotInsertion p U P u r = .ok (U', P')) :
    P'.length = n + r ∧
    (∀ m, m + p ≤ k → P'.getD m [] = P.getD m []) ∧
    (∀ m, k ≤ m + U.count u → m < n → P'.getD (m + r) [] = P.getD m []) ∧
    ∀ m < n + r, ∃ w : ℕ → K, (∀ i, 0 ≤ w i) ∧ (∀ i, w i ≠ 0 → i ≤ m ∧ m ≤ i + r) ∧
      ∑ i ∈ range n, w i = 1 ∧
      ∀ y < 3, coord P' y m = ∑ i ∈ range n, w i * coord P y i := by
  obtain ⟨hrun, ⟨U'', P''⟩, hret', hl', hfn, shP, vP⟩ :=
    insertion_setup hU hP hpk hk hfs h1 h2 hnm hr
  rw [hret] at hret'
  cases hret'
  dsimp only at hl' hfn shP vP
  have hm := monotone_knotFn hU.mono
  have rows : ∀ a b, a < n + r → b < n → (∀ y < 3, at2 P' a y 0 = at2 P b y 0) →
      P'.getD a [] = P.getD b [] := by
    intro a b ha hb h
    have l1 := shP.row ha
    have l2 := hP.row hb
    refine List.ext_getElem (by omega) fun y hy1 hy2 => ?_
    have := h y (by omega)
    unfold at2 at this
    rw [List.getD_eq_getElem?_getD (l := P'.getD a []), List.getElem?_eq_getElem hy1,
      List.getD_eq_getElem?_getD (l := P.getD b []), List.getElem?_eq_getElem hy2] at this
    exact this
  refine ⟨shP.1, fun m hmk => rows m m (by omega) (by omega) fun y hy => ?_,
    fun m hmk hmn => rows (m + r) m (by omega) hmn fun y hy => ?_, fun m hmn => ?_⟩
  · rw [vP m (by omega) y hy]
    have := boehmIter_left (V := knotFn U) (k := k) (p := p) (u := u) (c := coord P y) (t := 0)
      (m := m) r (by omega)
    rw [show 0 + r = r by omega] at this
    exact this
  · rw [vP _ (by omega) y hy]
    have := boehmIter_right (V := knotFn U) (k := k) (p := p) (u := u) (c := coord P y) (t := 0)
      (m := m) hrun hr r (by omega) hmk
    rw [show 0 + r = r by omega] at this
    exact this
  · obtain ⟨w, hw1, hw2, hw3, hw4⟩ := boehmIter_convex (p := p) hm h1 h2 (n + r) r m hmn
    have hsub : range n ⊆ range (n + r) := range_subset_range.2 (by omega)
    have hz : ∀ i ∈ range (n + r), i ∉ range n → w i = 0 := by
      intro i _ hi2
      by_contra hne
      have := hw2 i hne
      simp only [mem_range, not_lt] at hi2
      omega
    refine ⟨w, hw1, fun i hi => ⟨(hw2 i hi).1, (hw2 i hi).2.1⟩, ?_, fun y hy => ?_⟩
    · rw [← hw3]; exact sum_subset hsub hz
    · show at2 P' m y 0 = _
      rw [vP m hmn y hy, hw4]
      refine (sum_subset hsub fun i hi1 hi2 => ?_).symm
      rw [hz i hi1 hi2, zero_mul]

/-- Control points computed when a simple knot is inserted from the span on its left. -/
def leftSpanPts (V : ℕ → K) (p k : ℕ) (u : K) (c : ℕ → K) : ℕ → K := fun m =>
  if m + p ≤ k then c m
  else if m < k then (u - V m) / (V (m + p) - V m) * c m + (1 - (u - V m) / (V (m + p) - V m)) * c (m - 1)
  else c (m - 1)

/-- **C13.** Inserting a simple interior knot `u = U[k+1]` once, when `find_span` returns the span
`k` to its left: the call returns normally, and the returned curve differs from the old one by
exactly `a * (P[k] - P[k-1]) * N_k` with a positive number `a`. -/
theorem knot_insertion_left_span {U : List K} {P : List (List K)} {k n p : ℕ} {u : K}
    (hU : KnotVector p n U) (hP : Shape P n 3) (hp2 : 2 ≤ p) (hpk : p ≤ k) (hk : k + 1 < n)
    (hfs : findSpan n p u U = .ok (k : ℤ)) (h1 : knotFn U k < u) (h2 : knotFn U (k + 1) = u)
    (h3 : u < knotFn U (k + 2)) (hnm : NoNearMiss u U) :
    ∃ U' P', curveKnotInsertion p U P u 1 = .ok (U', P') ∧
      KnotVector p (n + 1) U' ∧ Shape P' (n + 1) 3 ∧
      ∃ a : K, 0 < a ∧ ∀ y < 3, ∀ x, spline (knotFn U') p (n + 1) (coord P' y) x
        = spline (knotFn U) p n (coord P y) x
          - a * (coord P y k - coord P y (k - 1)) * N (knotFn U') p k x := by
  have hm := monotone_knotFn hU.mono
  have hlen := hU.len
  have hrun := multiplicity_run hm (k := k + 1) (by omega) h2.le (fun _ => h3) rfl
  have hcount : U.count u = 1 := by
    have hpos : 0 < U.count u := List.count_pos_iff.2
      (by rw [← h2, knotFn_eq (by omega)]; exact List.getElem_mem _)
    by_contra hne
    have := hrun k (by omega) (by omega)
    exact h1.ne this
  have hs : findMultiplicity u U = 1 := by rw [(find_multiplicity_counts u U).2.2 hnm, hcount]
  set V := knotFn U with hV
  obtain ⟨⟨U', P'⟩, hret, hl', hfn, shP, vP⟩ :=
    curveKnotInsertion_returns (r := 1) hU.len hP hpk (by omega) hfs hs hm
      (show V k < V (k + 1) by rw [h2]; exact h1)
      (by omega)
      (fun t m y => if t = 0 then coord P y m else leftSpanPts V p k u (coord P y) m)
      (fun m y => rfl)
      (by
        intro t m y ht hmk
        rw [if_neg (by omega)]
        by_cases h : t = 0
        · rw [if_pos h]; unfold leftSpanPts; rw [if_pos (by omega)]
        · rw [if_neg h])
      (by
        intro t m y ht hmk
        rw [if_neg (by omega)]
        by_cases h : t = 0
        · subst h
          rw [if_pos rfl]; unfold leftSpanPts
          rw [if_neg (by omega), if_neg (by omega)]; congr 1
        · rw [if_neg h, show m + (1 - t) = m by omega])
      (by
        intro t i y ht h
        have : t = 0 := by omega
        subst this
        rw [if_neg (by omega), if_pos rfl, if_pos rfl]
        unfold leftSpanPts
        rw [if_neg (by omega), if_pos (by omega)]
        have e1 : k - p + 0 + 1 + i = k - p + 0 + (i + 1) := by omega
        have e2 : k - p + 0 + 1 + i + p = i + k + 1 := by omega
        have e3 : k - p + 0 + 1 + i - 1 = k - p + 0 + i := by omega
        rw [e2, e3, e1])
  dsimp only at hl' hfn shP vP
  have hins : insKnots V k u 1 = insKnots V (k + 1) u 1 := by
    funext i
    unfold insKnots
    by_cases a : i ≤ k
    · rw [if_pos a, if_pos (by omega)]
    rw [if_neg a]
    by_cases b : i ≤ k + 1
    · rw [if_pos b, if_pos b, show i = k + 1 by omega, h2]
    rw [if_neg b, if_neg b]
    by_cases c : i ≤ k + 1 + 1
    · rw [if_pos c, show i - 1 = k + 1 by omega, h2]
    · rw [if_neg c]
  have hmono' : Monotone (knotFn U') := by rw [hfn]; exact insKnots_mono hm h1.le h2.ge 1
  refine ⟨U', P', hret, ⟨by omega, pairwise_of_mono hmono', by have := hU.size; omega⟩, shP,
    (u - V k) / (V (k + p) - V k), ?_, fun y hy x => ?_⟩
  · have : V (k + 2) ≤ V (k + p) := hm (by omega)
    exact div_pos (by linarith) (by linarith)
  · have hsp := spline_boehm hm h2.le h3 (p := p) (n := n) (by omega) hk (coord P y) x
    rw [hfn, ← hsp, hins]
    unfold spline
    have key : ∀ i < n + 1, coord P' y i = boehm V p (k + 1) u (coord P y) i
        - if i = k then (u - V k) / (V (k + p) - V k) * (coord P y k - coord P y (k - 1)) else 0 := by
      intro i hi
      have e : coord P' y i = leftSpanPts V p k u (coord P y) i := vP i hi y hy
      rw [e]
      unfold leftSpanPts boehm boehmA
      by_cases a : i + p ≤ k
      · rw [if_pos a, if_pos (by omega), if_neg (by omega)]; ring
      rw [if_neg a]
      by_cases b : i < k
      · rw [if_pos b, if_neg (by omega : ¬ i = k)]
        by_cases c : i + p ≤ k + 1
        · rw [if_pos c, show i + p = k + 1 by omega, h2, div_self (by
            have : V i ≤ V k := hm (by omega)
            intro h; linarith)]
          ring
        · rw [if_neg c, if_neg (by omega)]; ring
      rw [if_neg b, if_neg (by omega)]
      by_cases c : i = k
      · subst c
        rw [if_neg (by omega), if_pos rfl]; ring
      rw [if_neg c]
      by_cases d : k + 1 < i
      · rw [if_pos d]; ring
      · rw [if_neg d, show i = k + 1 by omega, h2, sub_self, zero_div]; ring
    have : ∀ i ∈ range (n + 1), coord P' y i * N (insKnots V (k + 1) u 1) p i x
        = boehm V p (k + 1) u (coord P y) i * N (insKnots V (k + 1) u 1) p i x
          - (if i = k then (u - V k) / (V (k + p) - V k) * (coord P y k - coord P y (k - 1))
              * N (insKnots V (k + 1) u 1) p k x else 0) := by
      intro i hi
      rw [key i (mem_range.1 hi)]
      by_cases c : i = k
      · subst c; rw [if_pos rfl, if_pos rfl]; ring
      · rw [if_neg c, if_neg c]; ring
    rw [sum_congr rfl this, sum_sub_distrib, sum_ite_eq' (range (n + 1)) k,
      if_pos (mem_range.2 (by omega))]

/-- **C13**, consequence: if the control points `k` and `k-1` differ, the curve really changes. -/
theorem knot_insertion_left_span_changes_curve {U : List K} {P : List (List K)} {k n p y : ℕ} {u : K}
    (hU : KnotVector p n U) (hP : Shape P n 3) (hp2 : 2 ≤ p) (hpk : p ≤ k) (hk : k + 1 < n)
    (hfs : findSpan n p u U = .ok (k : ℤ)) (h1 : knotFn U k < u) (h2 : knotFn U (k + 1) = u)
    (h3 : u < knotFn U (k + 2)) (hnm : NoNearMiss u U) (hy : y < 3)
    (hne : coord P y k ≠ coord P y (k - 1)) :
    ∃ U' P' x, curveKnotInsertion p U P u 1 = .ok (U', P') ∧ knotFn U p ≤ x ∧ x < knotFn U n ∧
      spline (knotFn U') p (n + 1) (coord P' y) x ≠ spline (knotFn U) p n (coord P y) x := by
  obtain ⟨U', P', hret, hkv, shP, a, ha, hspl⟩ :=
    knot_insertion_left_span hU hP hp2 hpk hk hfs h1 h2 h3 hnm
  have hm := monotone_knotFn hU.mono
  have hk1 := knot_insertion_knots hU hP.1 (by omega) hfs h1.le h2.ge hret
  have hm' := monotone_knotFn hk1.2.2.1
  have e1 : knotFn U' k = knotFn U k := by
    have hlen := hU.len
    rw [knotFn_eq (by omega), knotFn_eq (by omega)]
    simp only [hk1.1, insertedKnots]
    rw [List.getElem_append_left (by simp; omega), List.getElem_append_left (by simp; omega),
      List.getElem_take]
  have e2 : knotFn U' (k + 1) = u := by
    have hlen := hU.len
    rw [knotFn_eq (by omega)]
    simp only [hk1.1, insertedKnots]
    rw [List.getElem_append_left (by simp; omega), List.getElem_append_right (by simp),
      List.getElem_replicate]
  have hx1 : knotFn U k < (knotFn U k + u) / 2 := by linarith
  have hx2 : (knotFn U k + u) / 2 < u := by linarith
  have hpos := piece_pos hm' (by rw [e1]; exact hx1) (by rw [e2]; exact hx2) p k le_rfl (by omega)
  refine ⟨U', P', (knotFn U k + u) / 2, hret, ?_, ?_, ?_⟩
  · have := hm hpk; linarith
  · have : knotFn U (k + 1) ≤ knotFn U n := hm (by omega)
    linarith
  · rw [hspl y hy]
    intro h
    have : a * (coord P y k - coord P y (k - 1)) * N (knotFn U') p k ((knotFn U k + u) / 2) = 0 := by
      linarith
    rcases mul_eq_zero.1 this with h | h
    · rcases mul_eq_zero.1 h with h | h
      · exact ha.ne' h
      · exact hne (sub_eq_zero.1 h)
    · exact hpos.ne' h

/-- **C14**, last knot.  On a clamped knot vector (with exactly `degree + 1` last knots) inserting
the last knot once is not rejected.  Two of the returned control points are the origin. -/
theorem knot_insertion_at_last_knot {U : List K} {P : List (List K)} {n p : ℕ}
    (hU : Clamped p n U) (hP : Shape P n 3) (hp : 1 ≤ p)
    (hlast : knotFn U (n - 1) < knotFn U n) (hnm : NoNearMiss (knotFn U n) U) :
    ∃ U' P', curveKnotInsertion p U P (knotFn U n) 1 = .ok (U', P') ∧
      KnotVector p (n + 1) U' ∧ Shape P' (n + 1) 3 ∧
      ∀ y < 3, coord P' y (n - p) = 0 ∧
        coord P' y (if p + 1 < n then n - p - 2 else n) = 0 := by
  have hlen := hU.len
  have hsz := hU.size
  have hm := monotone_knotFn hU.mono
  have hfs : findSpan n p (knotFn U n) U = .ok ((n - 1 : ℕ) : ℤ) := by
    unfold findSpan findSpanWith
    rw [pyGet_knot U _ n rfl (by omega), ok_bind, if_pos (isclose_refl _ _ _ (by positivity)
      (by unfold atolDefault; positivity))]
    congr 1
    omega
  have hcount : findMultiplicity (knotFn U n) U = p + 1 := by
    rw [(find_multiplicity_counts _ U).2.2 hnm]
    have e : U = U.take n ++ U.drop n := (List.take_append_drop n U).symm
    rw [e, List.count_append, ← e]
    have e1 : (U.take n).count (knotFn U n) = 0 := by
      rw [List.count_eq_zero]
      intro hmem
      obtain ⟨i, hi, e⟩ := List.mem_take_iff_getElem.1 hmem
      rw [← knotFn_eq (by omega)] at e
      have : knotFn U i ≤ knotFn U (n - 1) := hm (by omega)
      rw [e] at this
      exact absurd (lt_of_le_of_lt this hlast) (lt_irrefl _)
    have e2 : (U.drop n).count (knotFn U n) = (U.drop n).length := by
      rw [List.count_eq_length]
      intro x hx
      obtain ⟨i, hi, rfl⟩ := List.mem_iff_getElem.1 hx
      rw [List.length_drop] at hi
      rw [List.getElem_drop, ← knotFn_eq, hU.right (n + i) (by omega) (by omega),
        hU.right n le_rfl (by omega)]
    rw [e1, e2, List.length_drop]
    omega
  have hmono : ∀ k, k = n - 1 → Monotone (insKnots (knotFn U) k (knotFn U n) 1) := by
    intro k hk
    subst hk
    refine insKnots_mono hm hlast.le ?_ 1
    rw [show n - 1 + 1 = n by omega]
  by_cases hpn : p + 1 < n
  · obtain ⟨⟨U', P'⟩, hret, hl', hfn, shP, vP⟩ :=
      insertion_overfull hlen hP hp (by omega) (by omega) hfs hcount
    refine ⟨U', P', hret, ⟨by dsimp only at hl'; omega, pairwise_of_mono ?_, by omega⟩, shP,
      fun y hy => ⟨?_, ?_⟩⟩
    · dsimp only at hfn; rw [hfn]; exact hmono _ rfl
    · exact (vP (n - p) (by omega) y hy).trans (if_pos (Or.inr (by omega)))
    · rw [if_pos hpn]
      exact (vP (n - p - 2) (by omega) y hy).trans (if_pos (Or.inl (by omega)))
  · have hn : n - 1 = p := by omega
    rw [hn] at hfs
    obtain ⟨⟨U', P'⟩, hret, hl', hfn, shP, vP⟩ :=
      insertion_overfull_first hlen hP hp hsz hfs hcount
    refine ⟨U', P', hret, ⟨by dsimp only at hl'; omega, pairwise_of_mono ?_, by omega⟩, shP,
      fun y hy => ⟨?_, ?_⟩⟩
    · dsimp only at hfn; rw [hfn]; exact hmono _ hn.symm
    · exact (vP (n - p) (by omega) y hy).trans (if_pos (Or.inl (by omega)))
    · rw [if_neg hpn]
      exact (vP n (by omega) y hy).trans (if_pos (Or.inr rfl))

/-- **C14**, first knot.  Inserting the first knot once returns the control points
`P[n-1], 0, P[1], …, P[n-2], 0`: the curve now starts at its old last control point. -/
theorem knot_insertion_at_first_knot {U : List K} {P : List (List K)} {n p : ℕ}
    (hU : Clamped p n U) (hP : Shape P n 3) (hp : 1 ≤ p)
    (hfirst : knotFn U p < knotFn U (p + 1)) (hend : nearEnd n (knotFn U 0) U = false)
    (hnm : NoNearMiss (knotFn U 0) U) :
    ∃ U' P', curveKnotInsertion p U P (knotFn U 0) 1 = .ok (U', P') ∧
      KnotVector p (n + 1) U' ∧ Shape P' (n + 1) 3 ∧
      ∀ y < 3, coord P' y 0 = coord P y (n - 1) ∧ coord P' y 1 = 0 ∧ coord P' y n = 0 ∧
        ∀ i, 1 < i → i < n → coord P' y i = coord P y (i - 1) := by
  have hlen := hU.len
  have hsz := hU.size
  have hm := monotone_knotFn hU.mono
  have h0 : knotFn U p = knotFn U 0 := hU.left p le_rfl
  have hfs : findSpan n p (knotFn U 0) U = .ok (p : ℤ) := by
    obtain ⟨k, hfs, hpk, hk, hb⟩ := find_span_on_domain (u := knotFn U 0) hU.toKnotVector h0.le
      (hm (by omega))
    rcases hb with ⟨h1, -⟩ | ⟨h, -⟩
    · by_cases e : k = p
      · rw [hfs, e]
      · have : knotFn U (p + 1) ≤ knotFn U k := hm (by omega)
        rw [h0] at hfirst
        exact absurd (lt_of_lt_of_le hfirst (this.trans h1)) (lt_irrefl _)
    · rw [hend] at h; cases h
  have hcount : findMultiplicity (knotFn U 0) U = p + 1 := by
    rw [(find_multiplicity_counts _ U).2.2 hnm]
    have e : U = U.take (p + 1) ++ U.drop (p + 1) := (List.take_append_drop (p + 1) U).symm
    rw [e, List.count_append, ← e]
    have e1 : (U.drop (p + 1)).count (knotFn U 0) = 0 := by
      rw [List.count_eq_zero]
      intro hmem
      obtain ⟨i, hi, e⟩ := List.mem_iff_getElem.1 hmem
      rw [List.length_drop] at hi
      rw [List.getElem_drop, ← knotFn_eq] at e
      have : knotFn U (p + 1) ≤ knotFn U (p + 1 + i) := hm (by omega)
      rw [e, ← h0] at this
      exact absurd (lt_of_lt_of_le hfirst this) (lt_irrefl _)
    have e2 : (U.take (p + 1)).count (knotFn U 0) = (U.take (p + 1)).length := by
      rw [List.count_eq_length]
      intro x hx
      obtain ⟨i, hi, rfl⟩ := List.mem_take_iff_getElem.1 hx
      rw [← knotFn_eq (by omega), hU.left i (by omega)]
    rw [e1, e2, List.length_take]
    omega
  obtain ⟨⟨U', P'⟩, hret, hl', hfn, shP, vP⟩ :=
    insertion_overfull_first hlen hP hp hsz hfs hcount
  refine ⟨U', P', hret, ⟨by dsimp only at hl'; omega, pairwise_of_mono ?_, by omega⟩, shP,
    fun y hy => ⟨?_, ?_, ?_, fun i hi1 hi2 => ?_⟩⟩
  · dsimp only at hfn; rw [hfn]
    exact insKnots_mono hm h0.le (by rw [← h0]; exact hfirst.le) 1
  · exact (vP 0 (by omega) y hy).trans (by rw [if_neg (by omega), if_pos rfl]; rfl)
  · exact (vP 1 (by omega) y hy).trans (if_pos (Or.inl rfl))
  · exact (vP n (by omega) y hy).trans (if_pos (Or.inr rfl))
  · exact (vP i (by omega) y hy).trans (by rw [if_neg (by omega), if_neg (by omega)]; rfl)

/-! ## Concrete cases -/

/-- Control points used in the examples. -/
def exP : List (List ℚ) := [[0, 0, 0], [1, 2, 0], [2, 0, 1], [3, 1, 0], [4, 4, 0], [5, 0, 2]]

theorem exP_shape : Shape exP 6 3 := ⟨rfl, by decide +kernel⟩

example : curveKnotInsertion 2 exU exP (3/10) 1
    = .ok ([0, 0, 0, 1/4, 3/10, 1/2, 3/4, 1, 1, 1],
      [[0, 0, 0], [1, 2, 0], [8/5, 4/5, 3/5], [21/10, 1/10, 9/10], [3, 1, 0], [4, 4, 0], [5, 0, 2]]) := by
  decide +kernel

/-- C11 and C12 apply to two insertions of the new knot `3/10`. -/
example : ∃ U' P', curveKnotInsertion 2 exU exP (3/10) 2 = .ok (U', P') ∧
    KnotVector 2 8 U' ∧ Shape P' 8 3 ∧ U'.Perm (exU ++ List.replicate 2 (3/10)) ∧
    (∀ y < 3, ∀ x, spline (knotFn U') 2 8 (coord P' y) x = spline (knotFn exU) 2 6 (coord exP y) x) ∧
    (Clamped 2 6 exU → Clamped 2 8 U' ∧ ∀ y < 3, ∀ x,
      curve (knotFn U') 2 8 (coord P' y) x = curve (knotFn exU) 2 6 (coord exP y) x) :=
  knot_insertion_preserves_curve_new_knot exU_knotVector exP_shape (by decide +kernel)
    (by decide +kernel) (by decide +kernel) (by decide +kernel) (by decide)

/-- C11 for an existing knot found in the span on its right. -/
example : ∃ U' P', curveKnotInsertion 2 exU exP (1/4) 1 = .ok (U', P') ∧
      KnotVector 2 (6 + 1) U' ∧ Shape P' (6 + 1) 3 ∧
      (∀ y < 3, ∀ x, spline (knotFn U') 2 (6 + 1) (coord P' y) x
        = spline (knotFn exU) 2 6 (coord exP y) x) ∧
      (Clamped 2 6 exU → Clamped 2 (6 + 1) U' ∧
        ∀ y < 3, ∀ x, curve (knotFn U') 2 (6 + 1) (coord P' y) x
          = curve (knotFn exU) 2 6 (coord exP y) x) :=
  knot_insertion_preserves_curve (k := 3) exU_knotVector exP_shape (by decide) (by decide)
    (by decide +kernel) (by decide +kernel) (by decide +kernel)
    (by unfold NoNearMiss; decide +kernel) (by decide +kernel)

/-- C13: the knot `3/4` of `exU` is found in the span on its left. -/
example : ∃ U' P' x, curveKnotInsertion 2 exU exP (3/4) 1 = .ok (U', P') ∧
    knotFn exU 2 ≤ x ∧ x < knotFn exU 6 ∧
    spline (knotFn U') 2 (6 + 1) (coord P' 0) x ≠ spline (knotFn exU) 2 6 (coord exP 0) x :=
  knot_insertion_left_span_changes_curve (k := 4) exU_knotVector exP_shape (by decide) (by decide)
    (by decide) (by decide +kernel) (by decide +kernel) (by decide +kernel) (by decide +kernel)
    (by unfold NoNearMiss; decide +kernel) (by decide) (by decide +kernel)

/-- C14. -/
example : (curveKnotInsertion 2 exU exP 1 1).map Prod.snd = .ok
      [[0, 0, 0], [1, 2, 0], [0, 0, 0], [2, 0, 1], [0, 0, 0], [4, 4, 0], [5, 0, 2]] ∧
    (curveKnotInsertion 2 exU exP 0 1).map Prod.snd = .ok
      [[5, 0, 2], [0, 0, 0], [1, 2, 0], [2, 0, 1], [3, 1, 0], [4, 4, 0], [0, 0, 0]] := by
  decide +kernel

example : ∃ U' P', curveKnotInsertion 2 exU exP (knotFn exU 6) 1 = .ok (U', P') ∧
      KnotVector 2 (6 + 1) U' ∧ Shape P' (6 + 1) 3 ∧
      ∀ y < 3, coord P' y (6 - 2) = 0 ∧ coord P' y (if 2 + 1 < 6 then 6 - 2 - 2 else 6) = 0 :=
  knot_insertion_at_last_knot exU_clamped exP_shape (by decide) (by decide +kernel)
    (by unfold NoNearMiss; decide +kernel)

end PySpline
