import Verif.Lemmas.Boehm
import Verif.Lemmas.KnotUtil

/-!
# `curve_knot_insertion` (A5.1) is iterated Boehm insertion
-/

set_option linter.unusedSectionVars false

namespace PySpline

open Spec Finset

variable {K : Type} [Field K] [LinearOrder K] [IsStrictOrderedRing K]

/-- Control points after `t` insertions of `u` behind knot `k`. -/
def boehmIter (V : ℕ → K) (p k : ℕ) (u : K) (c : ℕ → K) : ℕ → ℕ → K
  | 0 => c
  | t + 1 => boehm (insKnots V k u t) p (k + t) u (boehmIter V p k u c t)

theorem insKnots_zero (V : ℕ → K) (k : ℕ) (u : K) : insKnots V k u 0 = V := by
  funext i
  unfold insKnots
  split
  · rfl
  · rw [if_neg (by omega)]; rfl

theorem insKnots_succ (V : ℕ → K) (k : ℕ) (u : K) (t : ℕ) :
    insKnots (insKnots V k u t) (k + t) u 1 = insKnots V k u (t + 1) := by
  funext i
  unfold insKnots
  by_cases a : i ≤ k
  · rw [if_pos (by omega), if_pos a, if_pos a]
  by_cases b : i ≤ k + t
  · rw [if_pos b, if_neg a, if_pos b, if_neg a, if_pos (by omega)]
  rw [if_neg b]
  by_cases c : i ≤ k + t + 1
  · rw [if_pos c, if_neg a, if_pos (by omega)]
  · rw [if_neg c, if_neg (by omega : ¬ i - 1 ≤ k), if_neg (by omega), if_neg a,
      if_neg (by omega : ¬ i ≤ k + (t + 1))]
    congr 1
    omega

section
variable {V : ℕ → K} {k p : ℕ} {u : K} {c : ℕ → K}

theorem spline_boehmIter (hV : Monotone V) (h1 : V k ≤ u) (h2 : u < V (k + 1)) {n : ℕ}
    (hp : p ≤ k) (hn : k < n) (r : ℕ) (x : K) :
    spline (insKnots V k u r) p (n + r) (boehmIter V p k u c r) x = spline V p n c x := by
  induction r with
  | zero => rw [insKnots_zero]; rfl
  | succ r ih =>
    rw [← ih, ← insKnots_succ]
    refine spline_boehm (n := n + r) (insKnots_mono hV h1 h2.le r) ?_ ?_ (by omega) (by omega) _ x
    · unfold insKnots
      by_cases h : k + r ≤ k
      · rw [if_pos h, show k + r = k by omega]; exact h1
      · rw [if_neg h, if_pos le_rfl]
    · unfold insKnots
      rw [if_neg (by omega), if_neg (by omega), show k + r + 1 - r = k + 1 by omega]
      exact h2

theorem boehmIter_left_step {t m : ℕ} (h : m + p ≤ k + t) :
    boehmIter V p k u c (t + 1) m = boehmIter V p k u c t m := by
  conv_lhs => unfold boehmIter boehm boehmA
  rw [if_pos h]; ring

theorem boehmIter_left {t m : ℕ} (d : ℕ) (h : m + p ≤ k + t) :
    boehmIter V p k u c (t + d) m = boehmIter V p k u c t m := by
  induction d with
  | zero => rfl
  | succ d ih => rw [← Nat.add_assoc, boehmIter_left_step (by omega), ih]

theorem boehmIter_right_step {s r t m : ℕ} (hs : ∀ j, k < j + s → j ≤ k → V j = u)
    (hr : r + s ≤ p) (ht : t < r) (hm : k ≤ m + s) :
    boehmIter V p k u c (t + 1) (m + 1) = boehmIter V p k u c t m := by
  conv_lhs => unfold boehmIter boehm boehmA
  rw [if_neg (by omega)]
  have e : insKnots V k u t (m + 1) = u ∨ k + t < m + 1 := by
    by_cases a : m + 1 ≤ k
    · left; unfold insKnots; rw [if_pos a, hs _ (by omega) a]
    · by_cases b : k + t < m + 1
      · right; exact b
      · left; unfold insKnots; rw [if_neg a, if_pos (by omega)]
  rcases e with e | e
  · rw [e, sub_self, zero_div]; simp
  · rw [if_pos e]; simp

theorem boehmIter_right {s r t m : ℕ} (hs : ∀ j, k < j + s → j ≤ k → V j = u)
    (hr : r + s ≤ p) (d : ℕ) (ht : t + d ≤ r) (hm : k ≤ m + s) :
    boehmIter V p k u c (t + d) (m + d) = boehmIter V p k u c t m := by
  induction d with
  | zero => rfl
  | succ d ih =>
    rw [← Nat.add_assoc, ← Nat.add_assoc,
      boehmIter_right_step hs hr (by omega) (by omega), ih (by omega)]

theorem boehmIter_mid {t i : ℕ} (hk : p ≤ k) (h : k - p + t + 1 + i ≤ k) :
    boehmIter V p k u c (t + 1) (k - p + t + 1 + i)
      = (u - V (k - p + t + 1 + i)) / (V (i + k + 1) - V (k - p + t + 1 + i))
          * boehmIter V p k u c t (k - p + t + (i + 1))
        + (1 - (u - V (k - p + t + 1 + i)) / (V (i + k + 1) - V (k - p + t + 1 + i)))
          * boehmIter V p k u c t (k - p + t + i) := by
  conv_lhs => unfold boehmIter boehm boehmA
  rw [if_neg (by omega), if_neg (by omega)]
  have e1 : insKnots V k u t (k - p + t + 1 + i) = V (k - p + t + 1 + i) := by
    unfold insKnots; rw [if_pos h]
  have e2 : insKnots V k u t (k - p + t + 1 + i + p) = V (i + k + 1) := by
    unfold insKnots; rw [if_neg (by omega), if_neg (by omega)]; congr 1; omega
  rw [e1, e2, show k - p + t + 1 + i - 1 = k - p + t + i by omega,
    show k - p + t + 1 + i = k - p + t + (i + 1) by omega]

end

theorem assign_nat {α : Type} [Zero α] {asg : List (List α) → ℤ → List α → Py (List (List α))}
    (hasg : ∀ m i v, asg m i v = (do
      let row ← pyGet m i
      if v.length = row.length then pySet m i v
      else if v.length = 1 then pySet m i (List.replicate row.length (v.getD 0 0))
      else .error .valueError))
    {m : List (List α)} {r c : ℕ} (h : Shape m r c) (i : ℤ) (a : ℕ) (v : List α)
    (hi : i = a) (ha : a < r) (hv : v.length = c) :
    ∃ m', asg m i v = .ok m' ∧ Shape m' r c ∧
      ∀ x y, at2 m' x y 0 = if x = a then v.getD y 0 else at2 m x y 0 := by
  have ha' : a < m.length := by rw [h.1]; exact ha
  refine ⟨m.set a v, ?_, ⟨by simp [h.1], ?_⟩, ?_⟩
  · rw [hasg, pyGet_nat m i a [] hi ha', ok_bind, if_pos (by rw [hv, h.row ha]),
      pySet_nat m i a v hi ha']
  · intro row hrow
    rcases List.mem_or_eq_of_mem_set hrow with h1 | h1
    · exact h.2 _ h1
    · rw [h1]; exact hv
  · intro x y
    unfold at2
    rw [getD_set _ _ _ _ _ ha']
    split <;> rfl

theorem assignRow_nat {m : List (List K)} {r c : ℕ} (h : Shape m r c) (i : ℤ) (a : ℕ) (v : List K)
    (hi : i = a) (ha : a < r) (hv : v.length = c) :
    ∃ m', assignRow m i v = .ok m' ∧ Shape m' r c ∧
      ∀ x y, at2 m' x y 0 = if x = a then v.getD y 0 else at2 m x y 0 :=
  assign_nat (asg := assignRow) (fun _ _ _ => rfl) h i a v hi ha hv

theorem rowComb_getD {a b : K} {x y : List K} {i : ℕ} (hx : i < x.length) (hy : i < y.length) :
    (rowComb a x b y).getD i 0 = a * x.getD i 0 + b * y.getD i 0 := by
  unfold rowComb
  simp [List.getD_eq_getElem?_getD, hx, hy]

theorem rowComb_length {a b : K} {x y : List K} {c : ℕ} (hx : x.length = c) (hy : y.length = c) :
    (rowComb a x b y).length = c := by
  unfold rowComb; simp [hx, hy]

/-- The knots part of `curve_knot_insertion`, lines 217-224. -/
theorem insertion_knots {U : List K} {k r n p : ℕ} (u : K) (hl : U.length = n + p + 1) (hk : k < n) :
    Returns (do
      let newKv ← forZ 0 ((k : ℤ) + 1) (zeros (U.length + r)) fun i kv => do
        let x ← pyGet U i
        pySet kv i x
      let newKv ← forZ 1 ((r : ℤ) + 1) newKv fun i kv => pySet kv ((k : ℤ) + i) u
      forZ ((k : ℤ) + 1) ((n : ℤ) + p + 1) newKv fun i kv => do
        let x ← pyGet U i
        pySet kv (i + r) x) fun kv =>
      kv.length = n + p + 1 + r ∧
        ∀ m < n + p + 1 + r, kv.getD m 0 = insKnots (knotFn U) k u r m := by
  set V := knotFn U with hV
  refine Returns.bind (Returns.forZ (fun i kv => kv.length = n + p + 1 + r ∧
    ∀ m : ℕ, (m : ℤ) < i → kv.getD m 0 = V m) (by omega) ?_ ?_) ?_
  · exact ⟨by simp [zeros, hl], fun m hm => by omega⟩
  · rintro i kv h1 h2 ⟨l, h⟩
    lift i to ℕ using h1
    rw [pyGet_knot U _ i rfl (by omega), ok_bind, pySet_nat kv _ i _ rfl (by omega)]
    refine Returns.ok ⟨by simpa using l, fun m hm => ?_⟩
    rw [getD_set _ _ _ _ _ (by omega)]
    split
    · next e => rw [e]
    · exact h m (by omega)
  intro kv ⟨l, h⟩
  refine Returns.bind (Returns.forZ (fun i kv => kv.length = n + p + 1 + r ∧
    (∀ m : ℕ, m ≤ k → kv.getD m 0 = V m) ∧ ∀ m : ℕ, k < m → (m : ℤ) < k + i → kv.getD m 0 = u)
    (by omega) ?_ ?_) ?_
  · exact ⟨l, fun m hm => h m (by omega), fun m h1 h2 => by omega⟩
  · rintro i kv h1 h2 ⟨l, ha, hb⟩
    lift i to ℕ using (by omega)
    rw [pySet_nat kv _ (k + i) _ (by push_cast; ring) (by omega)]
    refine Returns.ok ⟨by simpa using l, fun m hm => ?_, fun m hm1 hm2 => ?_⟩
    · rw [getD_set _ _ _ _ _ (by omega), if_neg (by omega)]; exact ha m hm
    · rw [getD_set _ _ _ _ _ (by omega)]
      split
      · rfl
      · exact hb m hm1 (by omega)
  intro kv ⟨l, ha, hb⟩
  refine Returns.mono (Returns.forZ (fun i kv => kv.length = n + p + 1 + r ∧
    (∀ m : ℕ, m ≤ k → kv.getD m 0 = V m) ∧ (∀ m : ℕ, k < m → m ≤ k + r → kv.getD m 0 = u) ∧
    ∀ m : ℕ, k + r < m → (m : ℤ) < i + r → kv.getD m 0 = V (m - r))
    (by omega) ?_ ?_) ?_
  · exact ⟨l, ha, fun m h1 h2 => hb m h1 (by omega), fun m h1 h2 => by omega⟩
  · rintro i kv h1 h2 ⟨l, ha, hb, hc⟩
    lift i to ℕ using (by omega)
    rw [pyGet_knot U _ i rfl (by omega), ok_bind,
      pySet_nat kv _ (i + r) _ (by push_cast; ring) (by omega)]
    refine Returns.ok ⟨by simpa using l, fun m hm => ?_, fun m hm1 hm2 => ?_, fun m hm1 hm2 => ?_⟩
    · rw [getD_set _ _ _ _ _ (by omega), if_neg (by omega)]; exact ha m hm
    · rw [getD_set _ _ _ _ _ (by omega), if_neg (by omega)]; exact hb m hm1 hm2
    · rw [getD_set _ _ _ _ _ (by omega)]
      split
      · next e => rw [e, Nat.add_sub_cancel]
      · exact hc m hm1 (by omega)
  rintro kv ⟨l, ha, hb, hc⟩
  refine ⟨l, fun m hm => ?_⟩
  unfold insKnots
  split
  · exact ha m (by omega)
  · split
    · exact hb m (by omega) (by omega)
    · exact hc m (by omega) (by omega)

theorem knotFn_of_getD {U kv : List K} {k r n p : ℕ} {u : K} (hl : U.length = n + p + 1)
    (hk : k < n) (hkv : kv.length = n + p + 1 + r)
    (h : ∀ m < n + p + 1 + r, kv.getD m 0 = insKnots (knotFn U) k u r m) :
    knotFn kv = insKnots (knotFn U) k u r := by
  have hin : ∀ m < n + p + 1 + r, knotFn kv m = insKnots (knotFn U) k u r m := by
    intro m hm
    rw [← h m hm, knotFn_eq (by omega), List.getD_eq_getElem?_getD,
      List.getElem?_eq_getElem (by omega)]
    rfl
  have hout : ∀ (L : List K) (m : ℕ), L ≠ [] → L.length ≤ m → knotFn L m = knotFn L (L.length - 1) := by
    intro L m hne hm
    have hpos := List.length_pos_iff.2 hne
    unfold knotFn
    rw [List.getD_eq_getElem?_getD, List.getElem?_eq_none hm, List.getD_eq_getElem?_getD,
      List.getElem?_eq_getElem (by omega)]
    simp [List.getLastD_eq_getLast?, List.getLast?_eq_getElem?, hpos]
  funext m
  by_cases hm : m < n + p + 1 + r
  · exact hin m hm
  · rw [hout kv m (by intro e; simp [e] at hkv; omega) (by omega), hin _ (by omega)]
    unfold insKnots
    rw [if_neg (by omega), if_neg (by omega), if_neg (by omega), if_neg (by omega),
      hout U (m - r) (by intro e; simp [e] at hl) (by omega)]
    congr 1
    omega


theorem at2_row {P : List (List K)} {i y : ℕ} : (P.getD i []).getD y 0 = at2 P i y 0 := rfl

theorem at2_get {α : Type} [Zero α] {P : List (List α)} {i y : ℕ} : (P.getD i []).getD y 0 = at2 P i y 0 := rfl

/-- The control point part of `curve_knot_insertion`, lines 227-251, with any entries and any inner step: `Q t`
are the control points after `t` rounds. -/
theorem insertion_rows_any {α : Type} [Zero α] {asg : List (List α) → ℤ → List α → Py (List (List α))}
    (hasg : ∀ m i v, asg m i v = (do
      let row ← pyGet m i
      if v.length = row.length then pySet m i v
      else if v.length = 1 then pySet m i (List.replicate row.length (v.getD 0 0))
      else .error .valueError))
    {P : List (List α)} {k r s n p : ℕ}
    (hP : Shape P n 3) (hpk : p ≤ k) (hk : k < n) (hr : r + s ≤ p) (step : ℤ → ℤ → List (List α) → Py (List (List α)))
    (comb : ℕ → ℕ → α → α → α)
    (hstep : ∀ t i : ℕ, t < r → k - p + t + 1 + i + s ≤ k → ∀ R, Shape R (p + 1) 3 →
      ∃ row : List α, step ((t : ℤ) + 1) i R = asg R i row ∧ row.length = 3 ∧
        ∀ y < 3, row.getD y 0 = comb t i (at2 R (i + 1) y 0) (at2 R i y 0))
    (Q : ℕ → ℕ → ℕ → α) (q0 : ∀ m y, at2 P m y 0 = Q 0 m y)
    (qleft : ∀ t m y, t ≤ r → m + p ≤ k + t → Q r m y = Q t m y)
    (qright : ∀ t m y, t ≤ r → k ≤ m + s → Q r (m + (r - t)) y = Q t m y)
    (qmid : ∀ t i y, t < r → k - p + t + 1 + i + s ≤ k → Q (t + 1) (k - p + t + 1 + i) y
      = comb t i (Q t (k - p + t + (i + 1)) y) (Q t (k - p + t + i) y)) :
    Returns (do
      let newP ← forZ 0 ((k : ℤ) - p + 1) (List.replicate (P.length + r) (List.replicate 3 0)) fun i m => do
        let row ← pyGet P i
        asg m i row
      let newP ← forZ ((k : ℤ) - s) P.length newP fun i m => do
        let row ← pyGet P i
        asg m (i + r) row
      let R ← forZ 0 ((p : ℤ) - s + 1) (List.replicate (p + 1) (List.replicate 3 0)) fun i m => do
        let row ← pyGet P ((k : ℤ) - p + i)
        asg m i row
      let (newP, R) ← forZ 1 ((r : ℤ) + 1) (newP, R) fun j (newP, R) => do
        let L : ℤ := k - p + j
        let R ← forZ 0 ((p : ℤ) - j - s + 1) R fun i R => step j i R
        let r0 ← pyGet R 0
        let newP ← asg newP L r0
        let r1 ← pyGet R ((p : ℤ) - j - s)
        let newP ← asg newP (k + r - j - s) r1
        .ok (newP, R)
      let L : ℤ := k - p + r
      forZ (L + 1) ((k : ℤ) - s) newP fun i m => do
        let row ← pyGet R (i - L)
        asg m i row) fun newP =>
      Shape newP (n + r) 3 ∧ ∀ m < n + r, ∀ y < 3,
        at2 newP m y 0 = Q r m y := by
  have hPl : P.length = n := hP.1
  rw [hPl]
  -- first loop
  refine Returns.bind (Returns.forZ (fun i m => Shape m (n + r) 3 ∧
    ∀ x : ℕ, (x : ℤ) < i → ∀ y < 3, at2 m x y 0 = at2 P x y 0) (by omega) ?_ ?_) ?_
  · exact ⟨shape_replicate _ _ _, fun x hx => by omega⟩
  · rintro i m hi1 hi2 ⟨sh, h⟩
    lift i to ℕ using hi1
    rw [pyGet_nat P _ i [] rfl (by omega), ok_bind]
    obtain ⟨m1, g1, sh1, at1⟩ := assign_nat hasg sh (i : ℤ) i (P.getD i []) rfl (by omega)
      (hP.row (by omega))
    rw [g1]
    refine Returns.ok ⟨sh1, fun x hx y hy => ?_⟩
    rw [at1]
    split
    · next e => rw [e, at2_get]
    · exact h x (by omega) y hy
  rintro m ⟨sh, hA⟩
  -- second loop
  refine Returns.bind (Returns.forZ (fun i m => Shape m (n + r) 3 ∧
    (∀ x : ℕ, x + p ≤ k → ∀ y < 3, at2 m x y 0 = at2 P x y 0) ∧
    ∀ x : ℕ, k + r ≤ x + s → (x : ℤ) < i + r → ∀ y < 3, at2 m x y 0 = at2 P (x - r) y 0)
    (by omega) ?_ ?_) ?_
  · exact ⟨sh, fun x hx => hA x (by omega), fun x hx1 hx2 => by omega⟩
  · rintro i m hi1 hi2 ⟨sh, ha, hb⟩
    lift i to ℕ using (by omega)
    rw [pyGet_nat P _ i [] rfl (by omega), ok_bind]
    obtain ⟨m1, g1, sh1, at1⟩ := assign_nat hasg sh ((i : ℤ) + r) (i + r) (P.getD i [])
      (by push_cast; ring) (by omega) (hP.row (by omega))
    rw [g1]
    refine Returns.ok ⟨sh1, fun x hx y hy => ?_, fun x hx1 hx2 y hy => ?_⟩
    · rw [at1]
      split
      · next e => rw [at2_get, show x = i by omega]
      · exact ha x hx y hy
    · rw [at1]
      split
      · next e => rw [e, Nat.add_sub_cancel, at2_get]
      · exact hb x hx1 (by omega) y hy
  rintro m ⟨sh, ha, hb⟩
  -- R
  refine Returns.bind (Returns.forZ (fun i R => Shape R (p + 1) 3 ∧
    ∀ x : ℕ, (x : ℤ) < i → ∀ y < 3, at2 R x y 0 = at2 P (k - p + x) y 0) (by omega) ?_ ?_) ?_
  · exact ⟨shape_replicate _ _ _, fun x hx => by omega⟩
  · rintro i R hi1 hi2 ⟨sh, h⟩
    lift i to ℕ using hi1
    rw [pyGet_nat P _ (k - p + i) [] (by push_cast [hpk]; ring) (by omega), ok_bind]
    obtain ⟨m1, g1, sh1, at1⟩ := assign_nat hasg sh (i : ℤ) i (P.getD (k - p + i) []) rfl (by omega)
      (hP.row (by omega))
    rw [g1]
    refine Returns.ok ⟨sh1, fun x hx y hy => ?_⟩
    rw [at1]
    split
    · next e => rw [e, at2_get]
    · exact h x (by omega) y hy
  rintro R ⟨shR, hR⟩
  -- insertion loop
  refine Returns.bind (Returns.forZ (fun (j : ℤ) (st : List (List α) × List (List α)) =>
    Shape st.1 (n + r) 3 ∧ Shape st.2 (p + 1) 3 ∧
    (∀ x : ℕ, (x : ℤ) + p < k + j → ∀ y < 3, at2 st.1 x y 0 = Q r x y) ∧
    (∀ x : ℕ, x < n + r → (k : ℤ) + r + 1 ≤ x + s + j → ∀ y < 3, at2 st.1 x y 0 = Q r x y) ∧
    (∀ x t : ℕ, j = t + 1 → x + s + t ≤ p → ∀ y < 3, at2 st.2 x y 0 = Q t (k - p + t + x) y))
    (by omega) ?_ ?_) ?_
  · refine ⟨sh, shR, fun x hx y hy => ?_, fun x hx1 hx2 y hy => ?_, fun x t e hx y hy => ?_⟩
    · rw [ha x (by omega) y hy, q0, qleft 0 x y (by omega) (by omega)]
    · rw [hb x (by omega) (by omega) y hy, q0]
      have := qright 0 (x - r) y (by omega) (by omega)
      rw [show x - r + (r - 0) = x by omega] at this
      rw [this]
    · have : t = 0 := by omega
      subst this
      rw [hR x (by omega) y hy, q0]; rfl
  · rintro j ⟨m, R⟩ hj1 hj2 ⟨sh, shR, hl', hr', hR⟩
    obtain ⟨t, rfl⟩ : ∃ t : ℕ, j = t + 1 := ⟨(j - 1).toNat, by omega⟩
    simp only at hl' hr' hR ⊢
    have hR := fun x hx => hR x t rfl hx
    -- inner loop
    refine Returns.bind (Returns.forZ (fun (i : ℤ) (R : List (List α)) => Shape R (p + 1) 3 ∧
      (∀ x : ℕ, (x : ℤ) < i → ∀ y < 3, at2 R x y 0 = Q (t + 1) (k - p + t + 1 + x) y) ∧
      (∀ x : ℕ, i ≤ x → x + s + t ≤ p → ∀ y < 3, at2 R x y 0 = Q t (k - p + t + x) y))
      (by omega) ?_ ?_) ?_
    · exact ⟨shR, fun x hx => by omega, fun x _ hx => hR x hx⟩
    · rintro i R hi1 hi2 ⟨shR, hRa, hRb⟩
      lift i to ℕ using hi1
      obtain ⟨row, hrow, hlen, hval⟩ := hstep t i (by omega) (by omega) R shR
      rw [hrow]
      obtain ⟨m1, g1, sh1, at1⟩ := assign_nat hasg shR (i : ℤ) i row rfl (by omega) hlen
      rw [g1]
      refine Returns.ok ⟨sh1, fun x hx y hy => ?_, fun x hx1 hx2 y hy => ?_⟩
      · rw [at1]
        split
        · next e =>
          subst e
          rw [hval y hy, hRb (x + 1) (by omega) (by omega) y hy, hRb x le_rfl (by omega) y hy]
          exact (qmid t x y (by omega) (by omega)).symm
        · exact hRa x (by omega) y hy
      · rw [at1, if_neg (by omega)]; exact hRb x (by omega) hx2 y hy
    rintro R ⟨shR, hRa, hRb⟩
    rw [pyGet_nat R 0 0 [] rfl (by rw [shR.1]; omega), ok_bind]
    obtain ⟨m1, g1, sh1, at1⟩ := assign_nat hasg sh ((k : ℤ) - p + (t + 1)) (k - p + t + 1)
      (R.getD 0 []) (by push_cast [hpk]; ring) (by omega) (shR.row (by omega))
    rw [g1, ok_bind, pyGet_nat R _ (p - (t + 1) - s) [] (by omega) (by rw [shR.1]; omega), ok_bind]
    obtain ⟨m2, g2, sh2, at2'⟩ := assign_nat hasg sh1 ((k : ℤ) + r - (t + 1) - s)
      (k - s + (r - (t + 1))) (R.getD (p - (t + 1) - s) []) (by omega) (by omega)
      (shR.row (by omega))
    rw [g2, ok_bind]
    have v1 : ∀ y < 3, (R.getD 0 []).getD y 0 = Q r (k - p + t + 1) y := by
      intro y hy
      rw [at2_get, hRa 0 (by omega) y hy, qleft (t + 1) _ y (by omega) (by omega)]
    have v2 : ∀ y < 3, (R.getD (p - (t + 1) - s) []).getD y 0 = Q r (k - s + (r - (t + 1))) y := by
      intro y hy
      rw [at2_get, hRa _ (by omega) y hy, qright (t + 1) _ y (by omega) (by omega)]
      congr 1
      omega
    refine Returns.ok ⟨sh2, shR, fun x hx y hy => ?_, fun x hx1 hx2 y hy => ?_,
      fun x t' e hx y hy => ?_⟩
    · rw [at2']
      split
      · next e => rw [e, v2 y hy]
      · rw [at1]
        split
        · next e => rw [e, v1 y hy]
        · exact hl' x (by omega) y hy
    · rw [at2']
      split
      · next e => rw [e, v2 y hy]
      · rw [at1]
        split
        · next e => rw [e, v1 y hy]
        · exact hr' x hx1 (by omega) y hy
    · have : t' = t + 1 := by omega
      subst this
      rw [hRa x (by omega) y hy]
      rfl
  rintro ⟨m, R⟩ ⟨sh, shR, hl', hr', hR⟩
  simp only at sh shR hl' hr' hR ⊢
  have hR := fun x hx => hR x r rfl hx
  by_cases hlast : k - p + r + 1 ≤ k - s
  swap
  · rw [forZ_empty (by omega)]
    refine Returns.ok ⟨sh, fun x hx y hy => ?_⟩
    by_cases h : x + p ≤ k + r
    · exact hl' x (by omega) y hy
    · exact hr' x hx (by omega) y hy
  refine Returns.mono (Returns.forZ (fun (i : ℤ) (m : List (List α)) => Shape m (n + r) 3 ∧
    (∀ x : ℕ, (x : ℤ) < i → ∀ y < 3, at2 m x y 0 = Q r x y) ∧
    (∀ x : ℕ, x < n + r → k ≤ x + s → ∀ y < 3, at2 m x y 0 = Q r x y)) (by omega) ?_ ?_) ?_
  · exact ⟨sh, fun x hx => hl' x (by omega), fun x hx1 hx2 => hr' x hx1 (by omega)⟩
  · rintro i m hi1 hi2 ⟨sh, hl', hr'⟩
    lift i to ℕ using (by omega)
    rw [pyGet_nat R _ (i - (k - p + r)) [] (by omega) (by rw [shR.1]; omega), ok_bind]
    obtain ⟨m1, g1, sh1, at1⟩ := assign_nat hasg sh (i : ℤ) i (R.getD (i - (k - p + r)) []) rfl
      (by omega) (shR.row (by omega))
    rw [g1]
    refine Returns.ok ⟨sh1, fun x hx y hy => ?_, fun x hx1 hx2 y hy => ?_⟩
    · rw [at1]
      split
      · next e =>
        rw [at2_get, hR _ (by omega) y hy]
        congr 1
        omega
      · exact hl' x (by omega) y hy
    · rw [at1, if_neg (by omega)]; exact hr' x hx1 hx2 y hy
  · rintro m ⟨sh, hl', hr'⟩
    refine ⟨sh, fun x hx y hy => ?_⟩
    by_cases h : x + s < k
    · exact hl' x (by omega) y hy
    · exact hr' x hx (by omega) y hy

/-- The control point part of `curve_knot_insertion`, lines 227-251, with any inner step: `Q t` are the control points
after `t` rounds. -/
theorem insertion_rows {P : List (List K)} {k r s n p : ℕ}
    (hP : Shape P n 3) (hpk : p ≤ k) (hk : k < n) (hr : r + s ≤ p) (step : ℤ → ℤ → List (List K) → Py (List (List K)))
    (comb : ℕ → ℕ → K → K → K)
    (hstep : ∀ t i : ℕ, t < r → k - p + t + 1 + i + s ≤ k → ∀ R, Shape R (p + 1) 3 →
      ∃ row : List K, step ((t : ℤ) + 1) i R = assignRow R i row ∧ row.length = 3 ∧
        ∀ y < 3, row.getD y 0 = comb t i (at2 R (i + 1) y 0) (at2 R i y 0))
    (Q : ℕ → ℕ → ℕ → K) (q0 : ∀ m y, at2 P m y 0 = Q 0 m y)
    (qleft : ∀ t m y, t ≤ r → m + p ≤ k + t → Q r m y = Q t m y)
    (qright : ∀ t m y, t ≤ r → k ≤ m + s → Q r (m + (r - t)) y = Q t m y)
    (qmid : ∀ t i y, t < r → k - p + t + 1 + i + s ≤ k → Q (t + 1) (k - p + t + 1 + i) y
      = comb t i (Q t (k - p + t + (i + 1)) y) (Q t (k - p + t + i) y)) :
    Returns (do
      let newP ← forZ 0 ((k : ℤ) - p + 1) (zeros2 (P.length + r) 3) fun i m => do
        let row ← pyGet P i
        assignRow m i row
      let newP ← forZ ((k : ℤ) - s) P.length newP fun i m => do
        let row ← pyGet P i
        assignRow m (i + r) row
      let R ← forZ 0 ((p : ℤ) - s + 1) (zeros2 (p + 1) 3) fun i m => do
        let row ← pyGet P ((k : ℤ) - p + i)
        assignRow m i row
      let (newP, R) ← forZ 1 ((r : ℤ) + 1) (newP, R) fun j (newP, R) => do
        let L : ℤ := k - p + j
        let R ← forZ 0 ((p : ℤ) - j - s + 1) R fun i R => step j i R
        let r0 ← pyGet R 0
        let newP ← assignRow newP L r0
        let r1 ← pyGet R ((p : ℤ) - j - s)
        let newP ← assignRow newP (k + r - j - s) r1
        .ok (newP, R)
      let L : ℤ := k - p + r
      forZ (L + 1) ((k : ℤ) - s) newP fun i m => do
        let row ← pyGet R (i - L)
        assignRow m i row) fun newP =>
      Shape newP (n + r) 3 ∧ ∀ m < n + r, ∀ y < 3,
        at2 newP m y 0 = Q r m y :=
  insertion_rows_any (asg := assignRow) (fun _ _ _ => rfl) hP hpk hk hr step comb hstep Q q0 qleft qright qmid

/-- The control point part of `curve_knot_insertion`, lines 227-251: `Q t` are the control points
after `t` rounds. -/
theorem insertion_ctrlpts {U : List K} {P : List (List K)} {k r s n p : ℕ} (u : K)
    (hl : U.length = n + p + 1) (hP : Shape P n 3) (hpk : p ≤ k) (hk : k < n)
    (hm : Monotone (knotFn U)) (hlt : knotFn U k < knotFn U (k + 1)) (hr : r + s ≤ p)
    (Q : ℕ → ℕ → ℕ → K) (q0 : ∀ m y, at2 P m y 0 = Q 0 m y)
    (qleft : ∀ t m y, t ≤ r → m + p ≤ k + t → Q r m y = Q t m y)
    (qright : ∀ t m y, t ≤ r → k ≤ m + s → Q r (m + (r - t)) y = Q t m y)
    (qmid : ∀ t i y, t < r → k - p + t + 1 + i + s ≤ k → Q (t + 1) (k - p + t + 1 + i) y
      = (u - knotFn U (k - p + t + 1 + i)) / (knotFn U (i + k + 1) - knotFn U (k - p + t + 1 + i))
          * Q t (k - p + t + (i + 1)) y
        + (1 - (u - knotFn U (k - p + t + 1 + i))
            / (knotFn U (i + k + 1) - knotFn U (k - p + t + 1 + i)))
          * Q t (k - p + t + i) y) :
    Returns (do
      let newP ← forZ 0 ((k : ℤ) - p + 1) (zeros2 (P.length + r) 3) fun i m => do
        let row ← pyGet P i
        assignRow m i row
      let newP ← forZ ((k : ℤ) - s) P.length newP fun i m => do
        let row ← pyGet P i
        assignRow m (i + r) row
      let R ← forZ 0 ((p : ℤ) - s + 1) (zeros2 (p + 1) 3) fun i m => do
        let row ← pyGet P ((k : ℤ) - p + i)
        assignRow m i row
      let (newP, R) ← forZ 1 ((r : ℤ) + 1) (newP, R) fun j (newP, R) => do
        let L : ℤ := k - p + j
        let R ← forZ 0 ((p : ℤ) - j - s + 1) R fun i R => do
          let a ← pyGet U (L + i)
          let b ← pyGet U (i + k + 1)
          let alpha ← pyDiv (u - a) (b - a)
          let x ← pyGet R (i + 1)
          let y ← pyGet R i
          assignRow R i (rowComb alpha x (1 - alpha) y)
        let r0 ← pyGet R 0
        let newP ← assignRow newP L r0
        let r1 ← pyGet R ((p : ℤ) - j - s)
        let newP ← assignRow newP (k + r - j - s) r1
        .ok (newP, R)
      let L : ℤ := k - p + r
      forZ (L + 1) ((k : ℤ) - s) newP fun i m => do
        let row ← pyGet R (i - L)
        assignRow m i row) fun newP =>
      Shape newP (n + r) 3 ∧ ∀ m < n + r, ∀ y < 3,
        at2 newP m y 0 = Q r m y := by
  refine insertion_rows hP hpk hk hr (fun j i R => do
      let a ← pyGet U ((k : ℤ) - p + j + i)
      let b ← pyGet U (i + k + 1)
      let alpha ← pyDiv (u - a) (b - a)
      let x ← pyGet R (i + 1)
      let y ← pyGet R i
      assignRow R i (rowComb alpha x (1 - alpha) y))
    (fun t i x y => (u - knotFn U (k - p + t + 1 + i)) / (knotFn U (i + k + 1) - knotFn U (k - p + t + 1 + i)) * x
      + (1 - (u - knotFn U (k - p + t + 1 + i)) / (knotFn U (i + k + 1) - knotFn U (k - p + t + 1 + i))) * y)
    (fun t i ht hi R shR => ?_) Q q0 qleft qright qmid
  have hne : knotFn U (i + k + 1) - knotFn U (k - p + t + 1 + i) ≠ 0 := by
    have e1 : knotFn U (k - p + t + 1 + i) ≤ knotFn U k := hm (by omega)
    have e2 : knotFn U (k + 1) ≤ knotFn U (i + k + 1) := hm (by omega)
    intro h; linarith
  have l1 := shR.row (i := i + 1) (by omega)
  have l0 := shR.row (i := i) (by omega)
  refine ⟨rowComb ((u - knotFn U (k - p + t + 1 + i)) / (knotFn U (i + k + 1) - knotFn U (k - p + t + 1 + i)))
      (R.getD (i + 1) [])
      (1 - (u - knotFn U (k - p + t + 1 + i)) / (knotFn U (i + k + 1) - knotFn U (k - p + t + 1 + i)))
      (R.getD i []), ?_, rowComb_length l1 l0, fun y hy => ?_⟩
  · rw [pyGet_knot U _ (k - p + t + 1 + i) (by push_cast [hpk]; ring) (by omega), ok_bind,
      pyGet_knot U _ (i + k + 1) (by push_cast; ring) (by omega), ok_bind, pyDiv_ok hne, ok_bind,
      pyGet_nat R _ (i + 1) [] (by push_cast; ring) (by rw [shR.1]; omega),
      ok_bind, pyGet_nat R _ i [] rfl (by rw [shR.1]; omega), ok_bind]
  · rw [rowComb_getD (by omega) (by omega), at2_row, at2_row]

theorem bind3_ok {α β γ δ : Type} (a : Py α) (f : α → Py β) (g : α → β → Py γ) (x : γ)
    (h : γ → Py δ) (e : (a >>= fun i => f i >>= g i) = .ok x) :
    (a >>= fun i => f i >>= fun j => g i j >>= h) = h x := by
  have : (a >>= fun i => f i >>= fun j => g i j >>= h)
      = ((a >>= fun i => f i >>= g i) >>= h) := by simp only [bind_assoc]
  rw [this, e]; rfl

theorem bind5_ok {α β γ δ ε ζ : Type} (a : Py α) (f : α → Py β) (g : α → β → Py γ)
    (g' : α → β → γ → Py δ) (g'' : α → β → γ → δ → Py ε) (x : ε) (h : ε → Py ζ)
    (e : (a >>= fun i => f i >>= fun j => g i j >>= fun k => g' i j k >>= g'' i j k) = .ok x) :
    (a >>= fun i => f i >>= fun j => g i j >>= fun k => g' i j k >>= fun l => g'' i j k l >>= h)
      = h x := by
  have : (a >>= fun i => f i >>= fun j => g i j >>= fun k => g' i j k >>= fun l => g'' i j k l >>= h)
      = ((a >>= fun i => f i >>= fun j => g i j >>= fun k => g' i j k >>= g'' i j k) >>= h) := by
    simp only [bind_assoc]
  rw [this, e]; rfl

/-- The knot and control point parts put together. -/
theorem curveKnotInsertion_returns {U : List K} {P : List (List K)} {k r s n p : ℕ} {u : K}
    (hl : U.length = n + p + 1) (hP : Shape P n 3) (hpk : p ≤ k) (hk : k < n)
    (hfs : findSpan n p u U = .ok (k : ℤ)) (hs : findMultiplicity u U = s)
    (hm : Monotone (knotFn U)) (hlt : knotFn U k < knotFn U (k + 1)) (hr : r + s ≤ p)
    (Q : ℕ → ℕ → ℕ → K) (q0 : ∀ m y, at2 P m y 0 = Q 0 m y)
    (qleft : ∀ t m y, t ≤ r → m + p ≤ k + t → Q r m y = Q t m y)
    (qright : ∀ t m y, t ≤ r → k ≤ m + s → Q r (m + (r - t)) y = Q t m y)
    (qmid : ∀ t i y, t < r → k - p + t + 1 + i + s ≤ k → Q (t + 1) (k - p + t + 1 + i) y
      = (u - knotFn U (k - p + t + 1 + i)) / (knotFn U (i + k + 1) - knotFn U (k - p + t + 1 + i))
          * Q t (k - p + t + (i + 1)) y
        + (1 - (u - knotFn U (k - p + t + 1 + i))
            / (knotFn U (i + k + 1) - knotFn U (k - p + t + 1 + i)))
          * Q t (k - p + t + i) y) :
    Returns (curveKnotInsertion p U P u r) fun res =>
      res.1.length = n + p + 1 + r ∧ knotFn res.1 = insKnots (knotFn U) k u r ∧
      Shape res.2 (n + r) 3 ∧ ∀ m < n + r, ∀ y < 3, at2 res.2 m y 0 = Q r m y := by
  obtain ⟨kv, hkv, lkv, vkv⟩ := insertion_knots (r := r) u hl hk
  obtain ⟨newP, hnew, shP, vP⟩ := insertion_ctrlpts u hl hP hpk hk hm hlt hr Q q0 qleft qright qmid
  unfold curveKnotInsertion
  rw [hP.1, hfs, ok_bind, hs]
  rw [hP.1] at hnew
  simp only at hkv hnew ⊢
  refine ⟨(kv, newP), ?_, lkv, knotFn_of_getD hl hk lkv vkv, shP, vP⟩
  rw [bind3_ok _ _ _ _ _ hkv, bind5_ok _ _ _ _ _ _ _ hnew]

end PySpline
