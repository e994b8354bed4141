import Verif.Lemmas.Smooth
import Verif.Props.Ders
import Verif.Props.Surface

/-!
# Auxiliary lemmas for `Props/Smooth.lean`
-/

set_option linter.unusedSectionVars false

namespace PySpline

open Polynomial Spec Set Filter Topology

theorem knotFn_last_le {U : List ℝ} (hU : U.Pairwise (· ≤ ·)) {i j : ℕ} (hi : U.length ≤ i) :
    knotFn U j ≤ knotFn U i := by
  rcases le_total j i with h | h
  · exact monotone_knotFn hU h
  · unfold knotFn
    simp [List.getD_eq_getElem?_getD, hi, hi.trans h]

/-- If `m` consecutive knots, none of them beyond the array, are `u`, then `u` occurs `m` times. -/
theorem le_count {U : List ℝ} {u : ℝ} {k m : ℕ} (hlen : k + m ≤ U.length) (h : ∀ j < m, knotFn U (k + j) = u) :
    m ≤ U.count u := by
  rw [← List.replicate_sublist_iff]
  have : List.replicate m u = (U.drop k).take m := by
    refine List.ext_getElem (by simp; omega) fun j h1 h2 => ?_
    simp only [List.length_replicate] at h1
    rw [List.getElem_replicate, List.getElem_take, List.getElem_drop, ← knotFn_eq, h j h1]
  rw [this]
  exact (List.take_sublist _ _).trans (List.drop_sublist _ _)

theorem around_count {U : List ℝ} (hU : U.Pairwise (· ≤ ·)) {u : ℝ} {k m : ℕ} (h : Around (knotFn U) u k m) :
    m ≤ U.count u := by
  refine le_count (k := k + 1) ?_ h.eq
  by_contra hc
  rcases Nat.eq_zero_or_pos m with rfl | hm
  · have h1 : U.length ≤ k := by omega
    have := knotFn_last_le hU (j := k + 0 + 1) h1
    exact absurd (h.lt.trans h.gt) (not_lt.2 this)
  · have h1 : U.length ≤ k + 1 + (m - 1) := by omega
    have h2 := knotFn_last_le hU (j := k + m + 1) h1
    rw [h.eq (m - 1) (by omega)] at h2
    exact absurd h.gt (not_lt.2 h2)

theorem multAtMost_of_count {U : List ℝ} (hU : U.Pairwise (· ≤ ·)) {a b : ℝ} {m n : ℕ}
    (hb : b ≤ knotFn U n) (h : ∀ x ∈ Ioo a b, U.count x ≤ m) : MultAtMost (knotFn U) a b m := by
  intro i h1 h2
  by_contra hc
  have e : knotFn U i = knotFn U (i + m) := le_antisymm (monotone_knotFn hU (by omega)) (not_lt.1 hc)
  have hlen : i + (m + 1) ≤ U.length := by
    by_contra hl
    have h3 := knotFn_last_le hU (i := i + m) (j := n) (by omega)
    rw [← e] at h3
    linarith
  have := le_count (u := knotFn U i) hlen fun j hj => le_antisymm
    ((monotone_knotFn hU (by omega)).trans e.ge) (monotone_knotFn hU (by omega))
  have := h (knotFn U i) ⟨h1, h2⟩
  omega

/-- The derivatives at `u` of the piece on a span containing `u` are those of the function. -/
theorem piece_derivs {U : List ℝ} (hU : U.Pairwise (· ≤ ·)) {k p n m : ℕ} {u : ℝ}
    (hs : knotFn U k < knotFn U (k + 1)) (h1 : knotFn U k ≤ u) (h2 : u ≤ knotFn U (k + 1))
    (h0 : knotFn U 0 < u) (hn : u < knotFn U n) (hc : U.count u = 0 ∨ m + U.count u ≤ p) (i : ℕ) :
    ContDiffAt ℝ m (N (knotFn U) p i) u ∧
      iteratedDeriv m (N (knotFn U) p i) u = (Spec.deriv m (piece (knotFn U) k p i)).eval u := by
  have hV := monotone_knotFn hU
  obtain ⟨k', m', -, ha⟩ := exists_around hV h0 hn
  have hcount := around_count hU ha
  obtain ⟨e0, e1, e2⟩ := ha.derivs hV m p (by omega) i
  refine ⟨e0, ?_⟩
  rcases h1.eq_or_lt with h | h
  · have : k = k' + m' := by
      rcases lt_trichotomy k (k' + m') with hl | hl | hl
      · have := hV (by omega : k + 1 ≤ k' + m')
        have := ha.le
        rw [h] at hs
        linarith
      · exact hl
      · have := hV (by omega : k' + m' + 1 ≤ k)
        have := ha.gt
        linarith
    rw [e2, this]
  · have : k = k' := by
      rcases lt_trichotomy k k' with hl | hl | hl
      · have := hV (by omega : k + 1 ≤ k')
        have := ha.lt
        linarith
      · exact hl
      · have := hV (by omega : k' + 1 ≤ k)
        have := ha.ge
        linarith
    rw [e1, this]

section
variable {p n : ℕ} {U : List ℝ}

theorem curve_eventuallyEq (c : ℕ → ℝ) {u : ℝ} (hu : u ≠ knotFn U (n + p)) :
    curve (knotFn U) p n c =ᶠ[𝓝 u] spline (knotFn U) p n c := by
  filter_upwards [isOpen_ne.mem_nhds hu] with t ht
  unfold curve spline
  refine Finset.sum_congr rfl fun i _ => ?_
  rw [Nclosed, if_neg ht]

theorem Nclosed_continuousOn (hU : Clamped p n U) (hfirst : knotFn U p < knotFn U (p + 1))
    (hlast : knotFn U (n - 1) < knotFn U n) (hmult : MultAtMost (knotFn U) (knotFn U 0) (knotFn U (n + p)) p)
    {i : ℕ} (hi : i < n) : ContinuousOn (Nclosed (knotFn U) p n i) (Icc (knotFn U 0) (knotFn U (n + p))) := by
  have hV := monotone_knotFn hU.mono
  have hsz := hU.size
  have hlen := hU.len
  have hn := hU.right n le_rfl (by omega)
  intro u hu
  rcases hu.2.eq_or_lt with rfl | h2
  · -- the right end
    have hv : Nclosed (knotFn U) p n i (knotFn U (n + p)) = (piece (knotFn U) (n - 1) p i).eval (knotFn U (n + p)) := by
      rw [piece_at_right_end (m := p + 1) (fun j hj => by
        rw [show n - 1 + 1 + j = n + j by omega]; exact hU.right (n + j) (by omega) (by omega))
        (by rw [← hn]; exact hlast) p (by omega)]
      unfold Nclosed
      rw [if_pos rfl]
      by_cases h : i = n - 1
      · rw [if_pos (by omega), if_pos h]
      · rw [if_neg (by omega), if_neg h]
    have he : Nclosed (knotFn U) p n i =ᶠ[𝓝[≤] (knotFn U (n + p))] fun t => (piece (knotFn U) (n - 1) p i).eval t := by
      rw [← Iio_insert, nhdsWithin_insert, EventuallyEq, eventually_sup]
      refine ⟨eventually_pure.2 hv, ?_⟩
      have h3 := N_eventuallyEq_left hV (k := n - 1) (u := knotFn U (n + p)) (by rw [← hn]; exact hlast)
        (by rw [show n - 1 + 1 = n by omega, hn]) p i
      filter_upwards [h3, self_mem_nhdsWithin] with t ht ht'
      rw [← ht, Nclosed, if_neg (ne_of_lt ht')]
    exact (((piece (knotFn U) (n - 1) p i).differentiable.continuous.continuousWithinAt).congr_of_eventuallyEq
      he hv).mono fun t ht => ht.2
  · have hne : ∀ᶠ t in 𝓝 u, Nclosed (knotFn U) p n i t = N (knotFn U) p i t := by
      filter_upwards [isOpen_ne.mem_nhds h2.ne] with t ht
      rw [Nclosed, if_neg ht]
    rcases hu.1.eq_or_lt with rfl | h1
    · -- the left end
      have hp0 := hU.left p le_rfl
      have h3 := N_eventuallyEq_right hV (k := p) (u := knotFn U 0) hp0.le (by rw [← hp0]; exact hfirst) p i
      have h4 : Nclosed (knotFn U) p n i =ᶠ[𝓝[≥] (knotFn U 0)] fun t => (piece (knotFn U) p p i).eval t := by
        filter_upwards [h3, hne.filter_mono nhdsWithin_le_nhds] with t a b
        rw [b, a]
      exact (((piece (knotFn U) p p i).differentiable.continuous.continuousWithinAt).congr_of_eventuallyEq h4
        (h4.self_of_nhdsWithin self_mem_Ici)).mono fun t ht => ht.1
    · obtain ⟨k', m', -, hm', ha⟩ := hmult.around hV le_rfl le_rfl ⟨h1, h2⟩
      exact ((ha.continuousAt hV hm' i).congr (hne.mono fun t ht => ht.symm)).continuousWithinAt

end

theorem Nclosed_derivs {U : List ℝ} (hU : U.Pairwise (· ≤ ·)) {k p n m : ℕ} {u : ℝ}
    (hs : knotFn U k < knotFn U (k + 1)) (h1 : knotFn U k ≤ u) (h2 : u ≤ knotFn U (k + 1))
    (h0 : knotFn U 0 < u) (hn : u < knotFn U (n + p)) (hc : U.count u = 0 ∨ m + U.count u ≤ p) (i : ℕ) :
    ContDiffAt ℝ m (Nclosed (knotFn U) p n i) u ∧
      iteratedDeriv m (Nclosed (knotFn U) p n i) u = (Spec.deriv m (piece (knotFn U) k p i)).eval u := by
  have he : Nclosed (knotFn U) p n i =ᶠ[𝓝 u] N (knotFn U) p i := by
    filter_upwards [isOpen_ne.mem_nhds hn.ne] with t ht
    rw [Nclosed, if_neg ht]
  obtain ⟨c, e⟩ := piece_derivs hU hs h1 h2 h0 hn hc i
  exact ⟨c.congr_of_eventuallyEq he, by rw [he.iteratedDeriv_eq, e]⟩

end PySpline
