import Verif.Lemmas.Fitting
import Verif.Props.Insertion
import Verif.Props.Curve

/-!
# One round of knot insertion at the midpoints of all spans
-/

set_option linter.unusedSectionVars false

namespace PySpline

open Spec Finset

section
variable {K : Type} [Field K] [LinearOrder K]

theorem assignRow_length {m m' : List (List K)} {i : ℤ} {v : List K} (h : assignRow m i v = .ok m') :
    m'.length = m.length := by
  unfold assignRow at h
  obtain ⟨row, -, h⟩ := bind_eq_ok h
  split at h
  · exact pySet_length h
  split at h
  · exact pySet_length h
  · cases h

/-- Whenever `curve_knot_insertion` returns, there are `r` more knots and control points. -/
theorem curveKnotInsertion_length {p r : ℕ} {U U' : List K} {P P' : List (List K)} {u : K}
    (h : curveKnotInsertion p U P u r = .ok (U', P')) :
    U'.length = U.length + r ∧ P'.length = P.length + r := by
  unfold curveKnotInsertion at h
  obtain ⟨k, -, h⟩ := bind_eq_ok h
  dsimp only at h
  obtain ⟨kv1, h1, h⟩ := bind_eq_ok h
  obtain ⟨kv2, h2, h⟩ := bind_eq_ok h
  obtain ⟨kv3, h3, h⟩ := bind_eq_ok h
  obtain ⟨P1, g1, h⟩ := bind_eq_ok h
  obtain ⟨P2, g2, h⟩ := bind_eq_ok h
  obtain ⟨R, -, h⟩ := bind_eq_ok h
  obtain ⟨⟨P3, R'⟩, g3, h⟩ := bind_eq_ok h
  dsimp only at h
  obtain ⟨P4, g4, h⟩ := bind_eq_ok h
  cases h
  have l1 : kv1.length = U.length + r := forZ_ok (fun kv => kv.length = U.length + r) h1
    (by simp [zeros]) fun i s s' hs h => by
      obtain ⟨x, -, h⟩ := bind_eq_ok h
      rw [pySet_length h, hs]
  have l2 : kv2.length = U.length + r := forZ_ok (fun kv => kv.length = U.length + r) h2
    l1 fun i s s' hs h => by rw [pySet_length h, hs]
  have l3 : U'.length = U.length + r := forZ_ok (fun kv => kv.length = U.length + r) h3
    l2 fun i s s' hs h => by
      obtain ⟨x, -, h⟩ := bind_eq_ok h
      rw [pySet_length h, hs]
  have m1 : P1.length = P.length + r := forZ_ok (fun m => m.length = P.length + r) g1
    (by simp [zeros2]) fun i s s' hs h => by
      obtain ⟨x, -, h⟩ := bind_eq_ok h
      rw [assignRow_length h, hs]
  have m2 : P2.length = P.length + r := forZ_ok (fun m => m.length = P.length + r) g2
    m1 fun i s s' hs h => by
      obtain ⟨x, -, h⟩ := bind_eq_ok h
      rw [assignRow_length h, hs]
  have m3 : P3.length = P.length + r :=
    forZ_ok (fun st : List (List K) × List (List K) => st.1.length = P.length + r) g3
    m2 fun i s s' hs h => by
      obtain ⟨R1, -, h⟩ := bind_eq_ok h
      obtain ⟨r0, -, h⟩ := bind_eq_ok h
      obtain ⟨A, hA, h⟩ := bind_eq_ok h
      obtain ⟨r1, -, h⟩ := bind_eq_ok h
      obtain ⟨B, hB, h⟩ := bind_eq_ok h
      cases h
      show B.length = _
      rw [assignRow_length hB, assignRow_length hA, hs]
  have m4 : P'.length = P.length + r := forZ_ok (fun m => m.length = P.length + r) g4
    m3 fun i s s' hs h => by
      obtain ⟨x, -, h⟩ := bind_eq_ok h
      rw [assignRow_length h, hs]
  exact ⟨l3, m4⟩

theorem insertKnot_length {c c' : Curve K} {u : K} (h : c.insertKnot u = .ok c') :
    c'.degree = c.degree ∧ c'.kv.length = c.kv.length + 1 ∧
      c'.ctrlpts.length = c.ctrlpts.length + 1 := by
  unfold Curve.insertKnot at h
  split at h
  · cases h
  obtain ⟨⟨kv, pts⟩, hi, h⟩ := bind_eq_ok h
  cases h
  exact ⟨rfl, curveKnotInsertion_length hi⟩

theorem insertKnots_length (l : List K) : ∀ {c c' : Curve K},
    forL l c (fun u c => c.insertKnot u) = .ok c' →
    c'.degree = c.degree ∧ c'.kv.length = c.kv.length + l.length ∧
      c'.ctrlpts.length = c.ctrlpts.length + l.length := by
  induction l with
  | nil => intro c c' h; cases h; exact ⟨rfl, rfl, rfl⟩
  | cons u us ih =>
    intro c c' h
    unfold forL at h
    rw [List.foldlM_cons] at h
    obtain ⟨c1, h1, h⟩ := bind_eq_ok h
    obtain ⟨a, b, d⟩ := ih h
    obtain ⟨a', b', d'⟩ := insertKnot_length h1
    refine ⟨by rw [a, a'], ?_, ?_⟩ <;> simp only [List.length_cons] <;> omega

theorem midKnots_length {c : Curve K} {ks : List K} (h : midKnots c = .ok ks) :
    (ks.length : ℤ) = (c.kv.length : ℤ) - c.degree - 1 - c.degree := by
  unfold midKnots at h
  dsimp only at h
  split at h
  · cases h
  obtain ⟨⟨ks', _⟩, hl, h⟩ := bind_eq_ok h
  cases h
  have := forZ_ok (fun st : List K × ℕ =>
    st.1.length = ((c.kv.length : ℤ) - c.degree - 1 - c.degree).toNat) hl (by simp [zeros])
    fun i s s' hs h => by
      obtain ⟨a, -, h⟩ := bind_eq_ok h
      obtain ⟨b, -, h⟩ := bind_eq_ok h
      obtain ⟨d, hd, h⟩ := bind_eq_ok h
      cases h
      show d.length = _
      rw [pySet_length hd, hs]
  have h2 : ks'.length = ((c.kv.length : ℤ) - c.degree - 1 - c.degree).toNat := this
  show (ks'.length : ℤ) = _
  omega

theorem forL_map_range {α σ : Type} (m : ℕ) (g : ℕ → α) (s : σ) (f : α → σ → Py σ) :
    forL ((List.range m).map g) s f = forN 0 m s fun i s => f (g i) s := by
  unfold forL forN
  rw [List.foldlM_map, List.range_eq_range', Nat.sub_zero]

/-- The midpoint of a span. -/
def midFn (V : ℕ → K) (i : ℕ) : K := V i + (V (i + 1) - V i) / 2

/-- The knots after the midpoints of the first `j` spans have been inserted. -/
def refineFn (V : ℕ → K) (p j : ℕ) : ℕ → K := fun i =>
  if i ≤ p then V i
  else if i ≤ p + 2 * j then
    (if (i - p) % 2 = 0 then V (p + (i - p) / 2) else midFn V (p + (i - p) / 2))
  else V (i - j)

theorem refineFn_zero (V : ℕ → K) (p : ℕ) : refineFn V p 0 = V := by
  funext i
  unfold refineFn
  split
  · rfl
  · rw [if_neg (by omega)]; rfl

theorem refineFn_le (V : ℕ → K) (p j : ℕ) {i : ℕ} (h : i ≤ p) : refineFn V p j i = V i := by
  unfold refineFn; rw [if_pos h]

theorem refineFn_gt (V : ℕ → K) (p j : ℕ) {i : ℕ} (h : p + 2 * j ≤ i) :
    refineFn V p j i = V (i - j) := by
  unfold refineFn
  by_cases h1 : i ≤ p
  · rw [if_pos h1, show j = 0 by omega]; rfl
  · rw [if_neg h1]
    by_cases h2 : i ≤ p + 2 * j
    · rw [if_pos h2, if_pos (by omega), show p + (i - p) / 2 = i - j by omega]
    · rw [if_neg h2]

theorem refineFn_even (V : ℕ → K) {p j t : ℕ} (h : t ≤ j) :
    refineFn V p j (p + 2 * t) = V (p + t) := by
  unfold refineFn
  by_cases h1 : p + 2 * t ≤ p
  · rw [if_pos h1, show t = 0 by omega]
  · rw [if_neg h1, if_pos (by omega), if_pos (by omega)]
    congr 1; omega

theorem refineFn_odd (V : ℕ → K) {p j t : ℕ} (h : t < j) :
    refineFn V p j (p + 2 * t + 1) = midFn V (p + t) := by
  unfold refineFn
  rw [if_neg (by omega), if_pos (by omega), if_neg (by omega)]
  congr 1; omega

theorem refineFn_succ (V : ℕ → K) (p j : ℕ) :
    insKnots (refineFn V p j) (p + 2 * j) (midFn V (p + j)) 1 = refineFn V p (j + 1) := by
  funext i
  unfold insKnots
  by_cases h1 : i ≤ p + 2 * j
  · rw [if_pos h1]
    unfold refineFn
    split
    · rfl
    · rw [if_pos (show i ≤ p + 2 * (j + 1) by omega)]
  · rw [if_neg h1]
    by_cases h2 : i ≤ p + 2 * j + 1
    · rw [if_pos h2, show i = p + 2 * j + 1 by omega, refineFn_odd V (by omega)]
    · rw [if_neg h2, refineFn_gt V p j (by omega), refineFn_gt V p (j + 1) (by omega)]
      congr 1; omega

end

section
variable {K : Type} [Field K] [LinearOrder K] [IsStrictOrderedRing K]

/-- A clamped curve on `[0, 1]` whose knot spans have length at least `δ`. -/
structure Spaced (p n : ℕ) (δ : K) (c : Curve K) : Prop where
  deg : c.degree = p
  pts : Shape c.ctrlpts n 3
  clamped : Clamped p n c.kv
  zero : knotFn c.kv 0 = 0
  one : knotFn c.kv (n + p) = 1
  gap : ∀ i, p ≤ i → i < n → δ ≤ knotFn c.kv (i + 1) - knotFn c.kv i

theorem midKnots_eq {p n : ℕ} {δ : K} {c : Curve K} (h : Spaced p n δ c) :
    midKnots c = .ok ((List.range (n - p)).map fun j => midFn (knotFn c.kv) (p + j)) := by
  have hlen := h.clamped.len
  have hsz := h.clamped.size
  unfold midKnots
  dsimp only
  rw [h.deg, if_neg (by omega)]
  have e : ((c.kv.length : ℤ) - p - 1 - p).toNat = n - p := by omega
  rw [e, forZ_eq_forN p, show ((c.kv.length : ℤ) - p - 1).toNat = n by omega]
  refine Returns.eq_ok ?_
  refine Returns.bind (Returns.forN (fun k (st : List K × ℕ) => st.1.length = n - p ∧ st.2 = k - p ∧
    ∀ j < k - p, st.1.getD j 0 = midFn (knotFn c.kv) (p + j)) (by omega) ?_ ?_) ?_
  · exact ⟨by simp [zeros], by omega, fun j hj => absurd hj (by omega)⟩
  · rintro k ⟨ks, idx⟩ hk1 hk2 ⟨h1, h2, h3⟩
    dsimp only at h1 h2 h3 ⊢
    subst h2
    rw [pyGet_knot c.kv _ k rfl (by omega), ok_bind, pyGet_knot c.kv _ (k + 1) (by push_cast; ring) (by omega),
      ok_bind, pySet_nat _ _ (k - p) _ rfl (by omega), ok_bind]
    refine Returns.ok ⟨by simp [h1], by omega, fun j hj => ?_⟩
    rw [getD_set _ _ _ _ _ (by omega)]
    by_cases e : j = k - p
    · rw [if_pos e]
      unfold midFn
      rw [show p + j = k by omega]
    · rw [if_neg e]; exact h3 j (by omega)
  · rintro ⟨ks, idx⟩ ⟨h1, -, h3⟩
    refine Returns.ok ?_
    dsimp only at h1 h3 ⊢
    refine List.ext_getElem (by simp [h1]) fun i g1 g2 => ?_
    have := h3 i (by omega)
    rw [List.getD_eq_getElem?_getD, List.getElem?_eq_getElem g1] at this
    simpa using this

/-- Inserting the midpoints of the first spans, one after the other. -/
theorem insertMids {p n : ℕ} {δ : K} {c : Curve K} (h : Spaced p n δ c) (hp : 1 ≤ p)
    (hδ : 2 * (1 / 10 ^ 8 + 1 / 10 ^ 5) < δ) :
    Returns (forL ((List.range (n - p)).map fun j => midFn (knotFn c.kv) (p + j)) c
      fun u c => c.insertKnot u) fun c' => c'.degree = p ∧ Shape c'.ctrlpts (n + (n - p)) 3 ∧
        Clamped p (n + (n - p)) c'.kv ∧ knotFn c'.kv = refineFn (knotFn c.kv) p (n - p) ∧
        (∀ y < 3, ∀ x, curve (knotFn c'.kv) p (n + (n - p)) (coord c'.ctrlpts y) x
          = curve (knotFn c.kv) p n (coord c.ctrlpts y) x) ∧
        c'.ctrlpts.getD 0 [] = c.ctrlpts.getD 0 [] ∧
        c'.ctrlpts.getD (n + (n - p) - 1) [] = c.ctrlpts.getD (n - 1) [] := by
  have hsz := h.clamped.size
  have hm := monotone_knotFn h.clamped.mono
  set V := knotFn c.kv with hV
  have hV0 : ∀ i, 0 ≤ V i := fun i => by rw [← h.zero]; exact hm (Nat.zero_le i)
  have hn1 : V n = 1 := (h.clamped.right n le_rfl (by omega)).trans h.one
  have hV1 : ∀ i, V i ≤ 1 := fun i => by
    by_cases hi : i ≤ n + p
    · rw [← h.one]; exact hm hi
    · have : V i = V (n + p) := by
        rw [hV]; unfold knotFn
        have hl := h.clamped.len
        rw [List.getLastD_eq_getLast?, List.getLast?_eq_getElem?, hl, List.getD_eq_getElem?_getD,
          List.getD_eq_getElem?_getD, List.getElem?_eq_none (by omega)]
        rw [show n + p + 1 - 1 = n + p by omega, List.getElem?_eq_getElem (by omega)]
        rfl
      exact (this.trans h.one).le
  rw [forL_map_range]
  refine Returns.mono (Returns.forN (fun j (c' : Curve K) => c'.degree = p ∧ Shape c'.ctrlpts (n + j) 3 ∧
        Clamped p (n + j) c'.kv ∧ knotFn c'.kv = refineFn V p j ∧
        (∀ y < 3, ∀ x, curve (knotFn c'.kv) p (n + j) (coord c'.ctrlpts y) x
          = curve V p n (coord c.ctrlpts y) x) ∧
        c'.ctrlpts.getD 0 [] = c.ctrlpts.getD 0 [] ∧
        c'.ctrlpts.getD (n + j - 1) [] = c.ctrlpts.getD (n - 1) []) (Nat.zero_le _) ?_ ?_) fun c' hc' => hc'
  · exact ⟨h.deg, h.pts, h.clamped, (refineFn_zero V p).symm, fun _ _ _ => rfl, rfl, rfl⟩
  rintro j c' - hj ⟨h1, h2, h3, h4, h5, h6, h7⟩
  have hm' := monotone_knotFn h3.mono
  set u := midFn V (p + j) with hu
  have hk0 : knotFn c'.kv (p + 2 * j) = V (p + j) := by rw [h4, refineFn_even V le_rfl]
  have hk1 : knotFn c'.kv (p + 2 * j + 1) = V (p + j + 1) := by
    rw [h4, refineFn_gt V p j (by omega)]; congr 1; omega
  have hgap := h.gap (p + j) (by omega) (by omega)
  rw [← hV] at hgap
  have hu1 : (1 / 10 ^ 8 + 1 / 10 ^ 5 : K) < u - V (p + j) := by
    rw [hu]; unfold midFn; linarith
  have hu2 : (1 / 10 ^ 8 + 1 / 10 ^ 5 : K) < V (p + j + 1) - u := by
    rw [hu]; unfold midFn; linarith
  have ht0 : (0 : K) < 1 / 10 ^ 8 := by positivity
  have ht1 : (0 : K) < 1 / 10 ^ 5 := by positivity
  have ht2 : (1 / 10 ^ 6 : K) < 1 / 10 ^ 5 := by norm_num
  have hfar : ∀ x ∈ c'.kv, ¬ |u - x| ≤ 1 / 10 ^ 8 + 1 / 10 ^ 5 * |x| := by
    intro x hx hle
    obtain ⟨i, hi, rfl⟩ := List.getElem_of_mem hx
    rw [← knotFn_eq hi] at hle
    have hx01 : 0 ≤ knotFn c'.kv i ∧ knotFn c'.kv i ≤ 1 := by
      rw [h4]; unfold refineFn midFn
      split
      · exact ⟨hV0 _, hV1 _⟩
      split
      · split
        · exact ⟨hV0 _, hV1 _⟩
        · have a := hV0 (p + (i - p) / 2)
          have b := hV1 (p + (i - p) / 2 + 1)
          have d := hm (Nat.le_succ (p + (i - p) / 2))
          simp only [Nat.succ_eq_add_one] at d
          exact ⟨by linarith, by linarith⟩
      · exact ⟨hV0 _, hV1 _⟩
    have hrhs : (1 / 10 ^ 8 + 1 / 10 ^ 5 * |knotFn c'.kv i| : K) ≤ 1 / 10 ^ 8 + 1 / 10 ^ 5 := by
      rw [abs_of_nonneg hx01.1]
      have := mul_le_mul_of_nonneg_left hx01.2 ht1.le
      linarith
    by_cases hik : i ≤ p + 2 * j
    · have a := hm' hik
      rw [hk0] at a
      have := le_abs_self (u - knotFn c'.kv i)
      linarith
    · have a : knotFn c'.kv (p + 2 * j + 1) ≤ knotFn c'.kv i := hm' (by omega)
      rw [hk1] at a
      have := neg_le_abs (u - knotFn c'.kv i)
      linarith
  have hnm : NoNearMiss u c'.kv := fun x hx hle => absurd hle (hfar x hx)
  have hcount : c'.kv.count u = 0 := by
    rw [List.count_eq_zero]
    intro hmem
    refine hfar u hmem ?_
    rw [sub_self, abs_zero]
    positivity
  have hlo : knotFn c'.kv p ≤ u := by
    have : knotFn c'.kv p ≤ knotFn c'.kv (p + 2 * j) := hm' (by omega)
    rw [hk0] at this; linarith
  have hend1 : knotFn c'.kv (n + j) = 1 := by
    rw [h4, refineFn_gt V p j (by omega), Nat.add_sub_cancel, hn1]
  have hu01 : 0 ≤ u ∧ u ≤ 1 := by
    have a := hV0 (p + j)
    have b := hV1 (p + j + 1)
    exact ⟨by linarith, by linarith⟩
  obtain ⟨m, hfs, hpm, hmn, hb⟩ := find_span_on_domain h3.toKnotVector hlo (by rw [hend1]; exact hu01.2)
  have hmk : m = p + 2 * j := by
    rcases hb with ⟨b1, b2⟩ | ⟨b1, -⟩
    · by_contra hne
      rcases Nat.lt_or_gt_of_ne hne with hlt | hgt
      · have : knotFn c'.kv (m + 1) ≤ knotFn c'.kv (p + 2 * j) := hm' (by omega)
        rw [hk0] at this; linarith
      · have : knotFn c'.kv (p + 2 * j + 1) ≤ knotFn c'.kv m := hm' (by omega)
        rw [hk1] at this; linarith
    · exfalso
      unfold nearEnd isclose atolDefault at b1
      rw [hend1] at b1
      have b2 := of_decide_eq_true b1
      rw [abs_one, mul_one] at b2
      have b3 := neg_le_abs (u - 1)
      have b4 := hV1 (p + j + 1)
      linarith
  subst hmk
  have hlt1 : knotFn c'.kv (p + 2 * j) ≤ u := by rw [hk0]; linarith
  have hlt2 : u < knotFn c'.kv (p + 2 * j + 1) := by rw [hk1]; linarith
  have hr : 1 + c'.kv.count u ≤ p := by omega
  obtain ⟨-, ⟨U', P'⟩, hret, -, hfn, -, -⟩ :=
    insertion_setup h3.toKnotVector h2 hpm hmn hfs hlt1 hlt2 hnm hr
  obtain ⟨U'', P'', hret', -, hsh, -, hcl⟩ :=
    knot_insertion_preserves_curve h3.toKnotVector h2 hpm hmn hfs hlt1 hlt2 hnm hr
  rw [hret] at hret'
  cases hret'
  obtain ⟨-, cv1, cv2, -⟩ := knot_insertion_convex h3.toKnotVector h2 hpm hmn hfs hlt1 hlt2 hnm hr hret
  unfold Curve.insertKnot
  rw [(validateKnot_iff u).2 hu01, if_neg (by simp), h1, hret, ok_bind]
  dsimp only at hfn
  refine Returns.ok ⟨rfl, hsh, (hcl h3).1, ?_, fun y hy x => ?_, ?_, ?_⟩
  · rw [hfn, h4, refineFn_succ]
  · rw [← h5 y hy x]; exact (hcl h3).2 y hy x
  · rw [cv1 0 (by omega), h6]
  · have := cv2 (n + j - 1) (by omega) (by omega)
    rw [show n + j - 1 + 1 = n + (j + 1) - 1 by omega] at this
    rw [this, h7]

/-- One round of midpoint insertion: the number of spans doubles, the spans are halved, the curve
and its end points stay. -/
theorem insertRound {p n : ℕ} {δ : K} {c : Curve K} (h : Spaced p n δ c) (hp : 1 ≤ p)
    (hδ : 2 * (1 / 10 ^ 8 + 1 / 10 ^ 5) < δ) :
    Returns (do let ks ← midKnots c
                forL ks c fun u c => c.insertKnot u) fun c' =>
        Spaced p (p + 2 * (n - p)) (δ / 2) c' ∧
        (∀ t, t ≤ n - p → knotFn c'.kv (p + 2 * t) = knotFn c.kv (p + t)) ∧
        (∀ t, t < n - p → knotFn c'.kv (p + 2 * t + 1) = (knotFn c.kv (p + t) + knotFn c.kv (p + t + 1)) / 2) ∧
        (∀ y < 3, ∀ x, curve (knotFn c'.kv) p (p + 2 * (n - p)) (coord c'.ctrlpts y) x
          = curve (knotFn c.kv) p n (coord c.ctrlpts y) x) ∧
        c'.ctrlpts.getD 0 [] = c.ctrlpts.getD 0 [] ∧
        c'.ctrlpts.getD (p + 2 * (n - p) - 1) [] = c.ctrlpts.getD (n - 1) [] := by
  have hsz := h.clamped.size
  rw [midKnots_eq h, ok_bind]
  refine (insertMids h hp hδ).mono fun c' ⟨h1, h2, h3, h4, h5, h6, h7⟩ => ?_
  have e : n + (n - p) = p + 2 * (n - p) := by omega
  rw [e] at h2 h3 h5 h7
  have ev : ∀ t, t ≤ n - p → knotFn c'.kv (p + 2 * t) = knotFn c.kv (p + t) := fun t ht => by
    rw [h4, refineFn_even _ ht]
  have od : ∀ t, t < n - p → knotFn c'.kv (p + 2 * t + 1)
      = (knotFn c.kv (p + t) + knotFn c.kv (p + t + 1)) / 2 := fun t ht => by
    rw [h4, refineFn_odd _ ht]; unfold midFn; ring
  refine ⟨⟨h1, h2, h3, ?_, ?_, ?_⟩, ev, od, h5, h6, h7⟩
  · rw [h4, refineFn_le _ _ _ (by omega), h.zero]
  · rw [← h3.right (p + 2 * (n - p)) le_rfl (by omega), ev (n - p) le_rfl, ← h.one,
      ← h.clamped.right n le_rfl (by omega)]
    congr 1; omega
  · intro i hi1 hi2
    obtain ⟨t, ht⟩ : ∃ t, i = p + 2 * t ∨ i = p + 2 * t + 1 := ⟨(i - p) / 2, by omega⟩
    have hg := h.gap (p + t) (by omega) (by omega)
    rcases ht with rfl | rfl
    · rw [ev t (by omega), od t (by omega)]; linarith
    · rw [od t (by omega), show p + 2 * t + 1 + 1 = p + 2 * (t + 1) by ring, ev (t + 1) (by omega),
        ← add_assoc]
      linarith

end

end PySpline
