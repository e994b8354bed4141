import Verif.Lemmas.Insertion
import Verif.Lemmas.KnotValues
import Verif.Props.Curve
import Mathlib.Order.Monotone.Basic

/-!
# Refinement of splines by knot insertion

Inserting every knot `p` times turns values of the spline into coefficients; no insertion creates sign
changes or destroys monotonicity.
-/

set_option linter.unusedSectionVars false

namespace PySpline

open Spec Finset

variable {K : Type} [Field K] [LinearOrder K] [IsStrictOrderedRing K]

/-- The sequence `c 0, ..., c (n-1)` contains numbers with the signs of `s 0, ..., s m`, in this order. -/
def HasSigns (c : ℕ → K) (n : ℕ) (s : ℕ → K) (m : ℕ) : Prop :=
  ∃ i : ℕ → ℕ, (∀ j < m, i j < i (j + 1)) ∧ ∀ j ≤ m, i j < n ∧ 0 < c (i j) * s j

/-- `(W, n', d)` describes the same spline as `(V, n, c)`, with more knots. -/
structure Refines (p : ℕ) (V : ℕ → K) (n : ℕ) (c : ℕ → K) (W : ℕ → K) (n' : ℕ) (d : ℕ → K) : Prop where
  mono : Monotone W
  lt : p < n'
  left : W p = V p
  right : W n' = V n
  eq : ∀ x, spline W p n' d x = spline V p n c x
  last : d (n' - 1) = c (n - 1)
  signs : ∀ (m : ℕ) (s : ℕ → K), (∀ j < m, s j * s (j + 1) < 0) → HasSigns d n' s m → HasSigns c n s m
  monotone : (∀ i j, i ≤ j → j < n → c i ≤ c j) → ∀ i j, i ≤ j → j < n' → d i ≤ d j

variable {p : ℕ} {V : ℕ → K} {n : ℕ} {c : ℕ → K}

theorem Refines.refl (hV : Monotone V) (h : p < n) : Refines p V n c V n c :=
  ⟨hV, h, rfl, rfl, fun _ => rfl, rfl, fun _ _ _ h => h, fun h => h⟩

theorem Refines.trans {W X : ℕ → K} {n' n'' : ℕ} {d e : ℕ → K} (h : Refines p V n c W n' d)
    (h' : Refines p W n' d X n'' e) : Refines p V n c X n'' e :=
  ⟨h'.mono, h'.lt, h'.left.trans h.left, h'.right.trans h.right, fun x => (h'.eq x).trans (h.eq x),
    h'.last.trans h.last, fun m s hs hx => h.signs m s hs (h'.signs m s hs hx),
    fun hc => h'.monotone (h.monotone hc)⟩

theorem boehmA_mem (hV : Monotone V) {k : ℕ} {u : K} (h1 : V k ≤ u) (h2 : u < V (k + 1)) (i : ℕ) :
    0 ≤ boehmA V p k u i ∧ boehmA V p k u i ≤ 1 := by
  unfold boehmA
  split
  · exact ⟨zero_le_one, le_rfl⟩
  split
  · exact ⟨le_rfl, zero_le_one⟩
  have a : V i ≤ u := (hV (by omega)).trans h1
  have b : u < V (i + p) := h2.trans_le (hV (by omega))
  exact ⟨div_nonneg (sub_nonneg.2 a) (by linarith), (div_le_one (by linarith)).2 (by linarith)⟩

theorem Refines.step (hV : Monotone V) {k : ℕ} {u : K} (h1 : V k ≤ u) (h2 : u < V (k + 1)) (hp : p ≤ k)
    (hn : k < n) : Refines p V n c (insKnots V k u 1) (n + 1) (boehm V p k u c) where
  mono := insKnots_mono hV h1 h2.le 1
  lt := by omega
  left := ins_le hp
  right := by rw [ins_gt (by omega)]; rfl
  eq := fun x => spline_boehm hV h1 h2 hp hn c x
  last := by
    unfold boehm boehmA
    rw [Nat.add_sub_cancel, if_neg (by omega), if_pos hn]
    ring
  signs := by
    rintro m s hs ⟨i, hi, hc⟩
    have key : ∀ j, ∃ l, j ≤ m → (l = i j ∨ l + 1 = i j) ∧ l < n ∧ 0 < c l * s j := by
      intro j
      by_cases hj : j ≤ m
      swap
      · exact ⟨0, fun h => absurd h hj⟩
      obtain ⟨a, b⟩ := hc j hj
      obtain ⟨e0, e1⟩ := boehmA_mem (p := p) hV h1 h2 (i j)
      unfold boehm at b
      by_cases hpos : 0 < boehmA V p k u (i j) * (c (i j) * s j)
      · have h3 : 0 < c (i j) * s j := pos_of_mul_pos_right hpos e0
        refine ⟨i j, fun _ => ⟨.inl rfl, ?_, h3⟩⟩
        by_contra hcon
        have : boehmA V p k u (i j) = 0 := by
          unfold boehmA
          rw [if_neg (by omega), if_pos (by omega)]
        rw [this, zero_mul] at hpos
        exact lt_irrefl _ hpos
      · have h3 : 0 < (1 - boehmA V p k u (i j)) * (c (i j - 1) * s j) := by nlinarith
        have h4 : 0 < c (i j - 1) * s j := pos_of_mul_pos_right h3 (by linarith)
        refine ⟨i j - 1, fun _ => ⟨?_, by omega, h4⟩⟩
        by_contra hcon
        have : boehmA V p k u (i j) = 1 := by
          unfold boehmA
          rw [if_pos (by omega)]
        rw [this, sub_self, zero_mul] at h3
        exact lt_irrefl _ h3
    choose l hl using key
    refine ⟨l, fun j hj => ?_, fun j hj => (hl j hj).2⟩
    obtain ⟨a1, -, a3⟩ := hl j (by omega)
    obtain ⟨b1, -, b3⟩ := hl (j + 1) hj
    have := hi j hj
    have hne : l j ≠ l (j + 1) := by
      intro h
      rw [← h] at b3
      have h5 := mul_pos a3 b3
      have h6 := hs j hj
      nlinarith [mul_self_nonneg (c (l j))]
    omega
  monotone := by
    intro hc
    -- each new coefficient lies between its two parents
    have lo : ∀ i, i ≤ n → c (i - 1) ≤ boehm V p k u c i := by
      intro i hi
      obtain ⟨e0, e1⟩ := boehmA_mem (p := p) hV h1 h2 i
      unfold boehm
      rcases hi.eq_or_lt with rfl | hi
      · have : boehmA V p k u i = 0 := by
          unfold boehmA
          rw [if_neg (by omega), if_pos hn]
        rw [this]; linarith
      · nlinarith [hc (i - 1) i (by omega) hi]
    have hi' : ∀ i, i < n → boehm V p k u c i ≤ c i := by
      intro i hi
      obtain ⟨e0, e1⟩ := boehmA_mem (p := p) hV h1 h2 i
      unfold boehm
      nlinarith [hc (i - 1) i (by omega) hi]
    intro i j hij hj
    rcases hij.eq_or_lt with rfl | hij
    · exact le_rfl
    · exact (hi' i (by omega)).trans ((hc i (j - 1) (by omega) (by omega)).trans (lo j (by omega)))

theorem Refines.iter (hV : Monotone V) {k : ℕ} {u : K} (h1 : V k ≤ u) (h2 : u < V (k + 1)) (hp : p ≤ k)
    (hn : k < n) (r : ℕ) : Refines p V n c (insKnots V k u r) (n + r) (boehmIter V p k u c r) := by
  induction r with
  | zero => rw [insKnots_zero]; exact .refl hV (by omega)
  | succ r ih =>
    refine ih.trans ?_
    rw [← insKnots_succ]
    refine Refines.step (n := n + r) (insKnots_mono hV h1 h2.le r) ?_ ?_ (by omega) (by omega)
    · unfold insKnots
      by_cases h : k + r ≤ k
      · rw [if_pos h, show k + r = k by omega]; exact h1
      · rw [if_neg h, if_pos le_rfl]
    · unfold insKnots
      rw [if_neg (by omega), if_neg (by omega), show k + r + 1 - r = k + 1 by omega]
      exact h2

/-- At a knot of multiplicity at least `p` only one basis function does not vanish. -/
theorem N_full {W : ℕ → K} (hW : Monotone W) {k : ℕ} {t : K} (h : ∀ j < p, W (k - j) = t) (h0 : W k ≤ t)
    (h1 : t < W (k + 1)) : ∀ q ≤ p, q ≤ k → ∀ i, N W q i t = if i + q = k then 1 else 0 := by
  intro q
  induction q with
  | zero =>
    intro _ _ i
    rcases lt_trichotomy i k with hl | hl | hl
    · rw [if_neg (by omega), N_zero_of_not_support hW (.inr ((hW (by omega)).trans h0))]
    · subst hl
      unfold N
      rw [if_pos ⟨h0, h1⟩, if_pos (Nat.add_zero i)]
    · rw [if_neg (by omega), N_zero_of_not_support hW (.inl (h1.trans_le (hW (by omega))))]
  | succ q ih =>
    intro hq hk i
    rcases lt_trichotomy (i + (q + 1)) k with hl | hl | hl
    · rw [if_neg (by omega), N_zero_of_not_support hW (.inr ((hW (by omega)).trans h0))]
    · unfold N
      rw [ih (by omega) (by omega), ih (by omega) (by omega), if_neg (by omega), if_pos (by omega),
        if_pos hl]
      have e : W (i + 1) = t := by
        have := h q (by omega)
        rwa [show k - q = i + 1 by omega] at this
      have e2 : W (i + q + 2) = W (k + 1) := by congr 1; omega
      rw [e, e2, div_self (by linarith)]
      ring
    · by_cases hi : k < i
      · rw [if_neg (by omega), N_zero_of_not_support hW (.inl (h1.trans_le (hW (by omega))))]
      unfold N
      rw [ih (by omega) (by omega) (i + 1), if_neg (by omega), if_neg (by omega)]
      have e : W i = t := by
        have := h (k - i) (by omega)
        rwa [show k - (k - i) = i by omega] at this
      rw [e]
      simp

theorem spline_full {W : ℕ → K} (hW : Monotone W) {k n : ℕ} {d : ℕ → K} {t : K} (hp : p ≤ k) (hn : k < n + p)
    (h : ∀ j < p, W (k - j) = t) (h0 : W k ≤ t) (h1 : t < W (k + 1)) : spline W p n d t = d (k - p) := by
  unfold spline
  rw [Finset.sum_eq_single (k - p)]
  · rw [N_full hW h h0 h1 p le_rfl hp, if_pos (by omega), mul_one]
  · intro i _ hi
    rw [N_full hW h h0 h1 p le_rfl hp, if_neg (by omega), mul_zero]
  · intro hc
    exact absurd (Finset.mem_range.2 (by omega)) hc

/-- `t` is a knot of multiplicity at least `p`, and `k` is its last index. -/
def FullAt (p : ℕ) (W : ℕ → K) (n k : ℕ) (t : K) : Prop :=
  p ≤ k ∧ k < n ∧ (∀ j < p, W (k - j) = t) ∧ t < W (k + 1)

/-- Every finite set of parameters can be made knots of multiplicity at least `p`. -/
theorem exists_refinement (hV : Monotone V) (hp : 1 ≤ p) (hn : p < n) (t : ℕ → K) (m : ℕ)
    (ht : ∀ j < m, V p ≤ t j ∧ t j < V n) (hinj : ∀ j < m, ∀ l < m, j ≠ l → t j ≠ t l) :
    ∃ W n' d, Refines p V n c W n' d ∧ ∀ j < m, ∃ k, FullAt p W n' k (t j) := by
  induction m with
  | zero => exact ⟨V, n, c, .refl hV hn, by simp⟩
  | succ m ih =>
    obtain ⟨W, n', d, hW, hk⟩ := ih (fun j hj => ht j (by omega)) fun j hj l hl => hinj j (by omega) l (by omega)
    obtain ⟨a, b⟩ := ht m (by omega)
    obtain ⟨k, k1, k2, k3, k4⟩ := exists_span (V := W) (u := t m) (by rw [hW.left]; exact a) (by rw [hW.right]; exact b) hW.lt.le
    refine ⟨_, _, _, hW.trans (Refines.iter hW.mono k3 k4 k1 k2 p), fun j hj => ?_⟩
    rcases Nat.lt_succ_iff_lt_or_eq.1 hj with hj' | rfl
    · obtain ⟨l, l1, l2, l3, l4⟩ := hk j hj'
      have hne := hinj j hj m (by omega) (by omega)
      have hl : W l = t j := l3 0 hp
      rcases lt_trichotomy l k with h | h | h
      · refine ⟨l, l1, by omega, fun i hi => ?_, ?_⟩
        · unfold insKnots
          rw [if_pos (by omega)]; exact l3 i hi
        · unfold insKnots
          rw [if_pos (by omega)]; exact l4
      · subst h
        refine ⟨l, l1, by omega, fun i hi => ?_, ?_⟩
        · unfold insKnots
          rw [if_pos (by omega)]; exact l3 i hi
        · unfold insKnots
          rw [if_neg (by omega), if_pos (by omega)]
          exact lt_of_le_of_ne (hl ▸ k3) hne
      · refine ⟨l + p, by omega, by omega, fun i hi => ?_, ?_⟩
        · have hlk : k < l - i := by
            by_contra hc
            have e1 := l3 i hi
            have e2 := hW.mono (by omega : l - i ≤ k)
            have e3 := hW.mono (by omega : k + 1 ≤ l)
            rw [e1] at e2
            rw [hl] at e3
            exact absurd (e2.trans_lt (k3.trans_lt (k4.trans_le e3))) (lt_irrefl _)
          unfold insKnots
          rw [if_neg (by omega), if_neg (by omega), show l + p - i - p = l - i by omega]
          exact l3 i hi
        · unfold insKnots
          rw [if_neg (by omega), if_neg (by omega), show l + p + 1 - p = l + 1 by omega]
          exact l4
    · refine ⟨k + p, by omega, by omega, fun i hi => ?_, ?_⟩
      · unfold insKnots
        rw [if_neg (by omega), if_pos (by omega)]
      · unfold insKnots
        rw [if_neg (by omega), if_neg (by omega), show k + p + 1 - p = k + 1 by omega]
        exact k4

/-- Values of the spline, closed at the right end, are coefficients of a refinement in the same order. -/
theorem exists_values {U : List K} (hU : Clamped p n U) (hp : 1 ≤ p) (c : ℕ → K) (t : ℕ → K) (m : ℕ)
    (ht : ∀ j < m, t j < t (j + 1)) (h0 : knotFn U 0 ≤ t 0) (h1 : t m ≤ knotFn U (n + p)) :
    ∃ W n' d, Refines p (knotFn U) n c W n' d ∧ ∃ i : ℕ → ℕ, (∀ j < m, i j < i (j + 1)) ∧
      ∀ j ≤ m, i j < n' ∧ d (i j) = curve (knotFn U) p n c (t j) := by
  have hV := monotone_knotFn hU.mono
  have hn := hU.right n le_rfl (by omega)
  have hmono : ∀ j l, j < l → l ≤ m → t j < t l := by
    intro j l hjl hl
    induction l with
    | zero => omega
    | succ l ih =>
      rcases Nat.lt_succ_iff_lt_or_eq.1 hjl with h | rfl
      · exact (ih h (by omega)).trans (ht l (by omega))
      · exact ht j (by omega)
  have hlo : ∀ j ≤ m, knotFn U p ≤ t j := by
    intro j hj
    rw [hU.left p le_rfl]
    rcases Nat.eq_zero_or_pos j with rfl | h
    · exact h0
    · exact h0.trans (hmono 0 j h hj).le
  have hcurve : ∀ j, t j ≠ knotFn U (n + p) → curve (knotFn U) p n c (t j) = spline (knotFn U) p n c (t j) := by
    intro j hj
    unfold curve spline Nclosed
    simp only [if_neg hj]
  -- the parameters below the right end
  obtain ⟨m', hm', hlt, hend⟩ : ∃ m', m ≤ m' ∧ (∀ j < m', j ≤ m → t j < knotFn U (n + p)) ∧
      (m' ≤ m → m' = m ∧ t m = knotFn U (n + p)) := by
    rcases h1.eq_or_lt with h | h
    · exact ⟨m, le_rfl, fun j hj hjm => h ▸ hmono j m hj le_rfl, fun _ => ⟨rfl, h⟩⟩
    · refine ⟨m + 1, by omega, fun j hj hjm => ?_, fun h => by omega⟩
      rcases hjm.eq_or_lt with rfl | hj'
      · exact h
      · exact (hmono j m hj' le_rfl).trans h
  obtain ⟨W, n', d, hW, hk⟩ := exists_refinement (c := c) hV hp hU.size t (min m' (m + 1))
    (fun j hj => ⟨hlo j (by omega), by rw [hn]; exact hlt j (by omega) (by omega)⟩)
    (fun j hj l hl hne => by
      rcases lt_or_gt_of_ne hne with h | h
      · exact (hmono j l h (by omega)).ne
      · exact (hmono l j h (by omega)).ne')
  have hk' : ∀ j, ∃ k, j < min m' (m + 1) → FullAt p W n' k (t j) := fun j => by
    by_cases h : j < min m' (m + 1)
    · obtain ⟨k, h'⟩ := hk j h
      exact ⟨k, fun _ => h'⟩
    · exact ⟨0, fun h' => absurd h' h⟩
  choose k hk using hk'
  have hWlt := hW.lt
  refine ⟨W, n', d, hW, fun j => if j < min m' (m + 1) then k j - p else n' - 1, fun j hj => ?_, fun j hj => ?_⟩
  · obtain ⟨a1, a2, a3, a4⟩ := hk j (by omega)
    dsimp only
    rw [if_pos (by omega)]
    split
    · next h =>
      obtain ⟨b1, b2, b3, b4⟩ := hk (j + 1) h
      have : k j < k (j + 1) := by
        by_contra hc
        have := hW.mono (not_lt.1 hc)
        have e1 : W (k j) = t j := a3 0 hp
        have e2 : W (k (j + 1)) = t (j + 1) := b3 0 hp
        rw [e1, e2] at this
        exact absurd (ht j hj) (not_lt.2 this)
      omega
    · omega
  · dsimp only
    split
    · next h =>
      obtain ⟨a1, a2, a3, a4⟩ := hk j h
      refine ⟨by omega, ?_⟩
      rw [hcurve j (hlt j (by omega) hj).ne, ← hW.eq, spline_full hW.mono a1 (by omega) a3 (a3 0 hp).le a4]
    · next h =>
      obtain ⟨e, e'⟩ := hend (by omega)
      have : j = m := by omega
      refine ⟨by omega, ?_⟩
      rw [hW.last, this, e', curve_last hU c]

/-- Variation diminution. -/
theorem curve_signs {U : List K} (hU : Clamped p n U) (hp : 1 ≤ p) (c : ℕ → K) (t : ℕ → K) (m : ℕ)
    (ht : ∀ j < m, t j < t (j + 1)) (h0 : knotFn U 0 ≤ t 0) (h1 : t m ≤ knotFn U (n + p))
    (hne : curve (knotFn U) p n c (t 0) ≠ 0)
    (hs : ∀ j < m, curve (knotFn U) p n c (t j) * curve (knotFn U) p n c (t (j + 1)) < 0) :
    HasSigns c n (fun j => curve (knotFn U) p n c (t j)) m := by
  obtain ⟨W, n', d, hW, i, hi, hd⟩ := exists_values hU hp c t m ht h0 h1
  refine hW.signs m _ hs ⟨i, hi, fun j hj => ⟨(hd j hj).1, ?_⟩⟩
  rw [(hd j hj).2]
  refine mul_self_pos.2 ?_
  rcases Nat.eq_zero_or_pos j with rfl | h
  · exact hne
  · have := hs (j - 1) (by omega)
    rw [show j - 1 + 1 = j by omega] at this
    intro h0
    rw [h0, mul_zero] at this
    exact lt_irrefl _ this

/-- Monotone coefficients give a monotone function. -/
theorem curve_monotone {U : List K} (hU : Clamped p n U) (hp : 1 ≤ p) {c : ℕ → K}
    (hc : ∀ i j, i ≤ j → j < n → c i ≤ c j) {s t : K} (h0 : knotFn U 0 ≤ s) (hst : s ≤ t)
    (h1 : t ≤ knotFn U (n + p)) : curve (knotFn U) p n c s ≤ curve (knotFn U) p n c t := by
  rcases hst.eq_or_lt with rfl | hst
  · exact le_rfl
  obtain ⟨W, n', d, hW, i, hi, hd⟩ := exists_values hU hp c (fun j => if j = 0 then s else t) 1
    (fun j hj => by simpa [show j = 0 by omega] using hst) (by simpa using h0) (by simpa using h1)
  have e0 := hd 0 (by omega)
  have e1 := hd 1 le_rfl
  simp only [if_true, one_ne_zero, if_false] at e0 e1
  rw [← e0.2, ← e1.2]
  exact hW.monotone hc _ _ (hi 0 (by omega)).le e1.1

end PySpline
