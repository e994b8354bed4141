import Verif.Lemmas.KnotsAux
import Verif.Lemmas.KnotUtil
import Verif.Props.OneBasis

/-!
# C05–C09: `normalize`, `check_knot_vector`, `generate_uniform`, `find_multiplicity`
-/

set_option linter.unusedSectionVars false

namespace PySpline

open Spec

variable {K : Type} [Field K] [LinearOrder K] [IsStrictOrderedRing K]

/-- **C05.** `normalize` on an array with two different entries: the affine map onto `[0,1]`. -/
theorem normalize_affine {U : List K} {x y : K} (hx : x ∈ U) (hy : y ∈ U) (hxy : x ≠ y) :
    ∃ lo hi : K, lo ∈ U ∧ hi ∈ U ∧ lo < hi ∧ (∀ z ∈ U, lo ≤ z ∧ z ≤ hi) ∧
      ∃ W, normalize U = .ok W ∧ W = U.map (fun z => (z - lo) / (hi - lo)) ∧
        W.length = U.length ∧ (∀ z ∈ W, 0 ≤ z ∧ z ≤ 1) ∧ (0 : K) ∈ W ∧ (1 : K) ∈ W ∧
        normalize W = .ok W ∧
        ∀ i j, i < U.length → j < U.length →
          ((knotFn W i ≤ knotFn W j ↔ knotFn U i ≤ knotFn U j) ∧
           (knotFn W i - knotFn W j) * (hi - lo) = knotFn U i - knotFn U j) := by
  obtain ⟨lo, hi, h1, h2, hb⟩ := exists_min_max (List.ne_nil_of_mem hx)
  have hlt : lo < hi := by
    refine lt_of_le_of_ne (hb hi h2).1 fun e => hxy ?_
    have a := hb x hx; have b := hb y hy
    rw [← e] at a b
    rw [le_antisymm a.2 a.1, le_antisymm b.2 b.1]
  have hd : (0 : K) < hi - lo := sub_pos.2 hlt
  have hne : hi - lo ≠ 0 := hd.ne'
  have b01 : ∀ z ∈ U.map (fun z => (z - lo) / (hi - lo)), 0 ≤ z ∧ z ≤ 1 := by
    intro z hz
    obtain ⟨t, ht, rfl⟩ := List.mem_map.1 hz
    have := hb t ht
    exact ⟨div_nonneg (sub_nonneg.2 this.1) hd.le, (div_le_one hd).2 (by linarith)⟩
  have m0 : (0 : K) ∈ U.map (fun z => (z - lo) / (hi - lo)) :=
    List.mem_map.2 ⟨lo, h1, by simp⟩
  have m1 : (1 : K) ∈ U.map (fun z => (z - lo) / (hi - lo)) :=
    List.mem_map.2 ⟨hi, h2, div_self hne⟩
  refine ⟨lo, hi, h1, h2, hlt, hb, _, normalize_eq h1 h2 hb hlt, rfl, by simp, b01, m0, m1, ?_, ?_⟩
  · rw [normalize_eq m0 m1 b01 zero_lt_one]
    simp
  · intro i j hi' hj'
    have e : ∀ i, i < U.length →
        knotFn (U.map fun z => (z - lo) / (hi - lo)) i = (knotFn U i - lo) / (hi - lo) := by
      intro i hi
      rw [knotFn_eq (by simpa using hi), knotFn_eq hi, List.getElem_map]
    rw [e i hi', e j hj']
    refine ⟨?_, by field_simp; ring⟩
    rw [div_le_div_iff_of_pos_right hd]
    constructor <;> intro h <;> linarith

/-- **C05**, constant and empty arrays. -/
theorem normalize_degenerate :
    (∀ U : List K, U ≠ [] → (∀ x ∈ U, ∀ y ∈ U, x = y) → normalize U = .error .nonfinite) ∧
    normalize ([] : List K) = .error .valueError :=
  ⟨fun _ => normalize_const, rfl⟩

/-- What `check_knot_vector` is meant to accept: a normalized array `W` of the right length,
non-decreasing, whose first `p+1` entries are `0` and whose last `p+1` entries are `1`, up to the
tolerances of numpy's `allclose`. -/
structure ClampedUpToTol (p n : ℕ) (W : List K) : Prop where
  len : W.length = n + p + 1
  mono : W.Pairwise (· ≤ ·)
  left : ∀ i ≤ p, |knotFn W i| ≤ 1 / 10 ^ 8 + 1 / 10 ^ 5 * |knotFn W i|
  right : ∀ i, n ≤ i → i ≤ n + p → |1 - knotFn W i| ≤ 1 / 10 ^ 8 + 1 / 10 ^ 5 * |knotFn W i|

theorem checkNormalized_iff {p n : ℕ} {W : List K} (h01 : ∀ z ∈ W, 0 ≤ z ∧ z ≤ 1) :
    ∃ b, checkNormalized p W n = .ok b ∧ (b = true ↔ ClampedUpToTol p n W) := by
  unfold checkNormalized
  by_cases hl : W.length ≠ n + p + 1
  · rw [if_pos hl]
    exact ⟨false, rfl, by simp; intro h; exact hl h.len⟩
  rw [if_neg hl]
  have hl : W.length = n + p + 1 := not_not.1 hl
  have hslice : pySlice W 0 ((p : ℤ) + 1) = W.take (p + 1) := by
    unfold pySlice clipBound
    have e : ((p : ℤ) + 1).toNat = p + 1 := by omega
    simp [e, hl]
    rw [if_neg (by omega)]
    omega
  rw [hslice]
  have hall : (W.take (p + 1)).all (fun b => iscloseD 0 b) = true ↔
      ∀ i ≤ p, |knotFn W i| ≤ 1 / 10 ^ 8 + 1 / 10 ^ 5 * |knotFn W i| := by
    rw [List.all_eq_true]
    constructor
    · intro h i hi
      have hlt : i < W.length := by omega
      have := h W[i] (by
        rw [List.mem_take_iff_getElem]
        exact ⟨i, by omega, rfl⟩)
      rw [iscloseD_iff] at this
      rw [knotFn_eq hlt]
      simpa using this
    · intro h x hx
      obtain ⟨i, hi, rfl⟩ := List.mem_take_iff_getElem.1 hx
      have := h i (by omega)
      rw [knotFn_eq (by omega)] at this
      rw [iscloseD_iff]
      simpa using this
  by_cases h1 : (W.take (p + 1)).all (fun b => iscloseD 0 b) = true
  swap
  · rw [if_pos h1]
    exact ⟨false, rfl, by simp; intro h; exact h1 (hall.2 h.left)⟩
  rw [if_neg (not_not.2 h1)]
  have hget : pyGet W (-1 * ((p : ℤ) + 1)) = .ok (knotFn W n) := by
    unfold pyGet pyIdx
    rw [if_neg (by omega), if_pos (by constructor <;> omega), ok_bind,
      show (-1 * ((p : ℤ) + 1) + W.length).toNat = n by omega,
      List.getElem?_eq_getElem (by omega), knotFn_eq (by omega)]
  rw [hget, ok_bind]
  by_cases h2 : iscloseD 1 (knotFn W n) = true
  swap
  · rw [if_pos h2]
    rw [iscloseD_iff] at h2
    exact ⟨false, rfl, by simp; intro h; exact h2 (h.right n le_rfl (by omega))⟩
  rw [if_neg (not_not.2 h2), pyGet_knot W 0 0 rfl (by omega), ok_bind]
  refine ⟨_, rfl, ?_⟩
  obtain ⟨a, l, rfl⟩ : ∃ a l, W = a :: l := by
    cases W with
    | nil => simp at hl
    | cons a l => exact ⟨a, l, rfl⟩
  have e0 : knotFn (a :: l) 0 = a := rfl
  rw [e0, increasingFrom_head]
  refine ⟨fun hm => ⟨hl, hm, hall.1 h1, ?_⟩, fun h => h.mono⟩
  intro i hi1 hi2
  rw [iscloseD_iff] at h2
  have hmono := monotone_knotFn hm hi1
  have bn := h01 (knotFn (a :: l) n) (by rw [knotFn_eq (by omega)]; exact List.getElem_mem _)
  have bi := h01 (knotFn (a :: l) i) (by rw [knotFn_eq (by omega)]; exact List.getElem_mem _)
  rw [abs_of_nonneg (by linarith), abs_of_nonneg bn.1] at h2
  rw [abs_of_nonneg (by linarith), abs_of_nonneg bi.1]
  have : (1 : K) / 10 ^ 5 * knotFn (a :: l) n ≤ 1 / 10 ^ 5 * knotFn (a :: l) i :=
    mul_le_mul_of_nonneg_left hmono (by positivity)
  linarith

/-- **C06.** On a non-empty array `check_knot_vector` always returns, and returns `True` exactly
when the knots are not all equal and the normalized knots are clamped up to tolerance. -/
theorem check_knot_vector_iff (p n : ℕ) {U : List K} (hne : U ≠ []) :
    ∃ b, checkKnotVector p U n = .ok b ∧
      (b = true ↔ ∃ W, normalize U = .ok W ∧ ClampedUpToTol p n W) := by
  unfold checkKnotVector
  by_cases hc : ∀ x ∈ U, ∀ y ∈ U, x = y
  · rw [normalize_const hne hc]
    exact ⟨false, rfl, by simp⟩
  · push Not at hc
    obtain ⟨x, hx, y, hy, hxy⟩ := hc
    obtain ⟨lo, hi, -, -, -, -, W, hW, -, -, h01, -⟩ := normalize_affine hx hy hxy
    rw [hW]
    obtain ⟨b, h1, h2⟩ := checkNormalized_iff (p := p) (n := n) h01
    refine ⟨b, h1, h2.trans ⟨fun h => ⟨W, rfl, h⟩, ?_⟩⟩
    rintro ⟨W', e, h⟩
    cases e
    exact h

/-- Every clamped knot vector (in the exact sense of the specification) is accepted. -/
theorem check_knot_vector_accepts_clamped {p n : ℕ} {U : List K} (hU : Clamped p n U)
    (hne : knotFn U 0 ≠ knotFn U (n + p)) : checkKnotVector p U n = .ok true := by
  have hlen := hU.len
  have hV := monotone_knotFn hU.mono
  have h0 : knotFn U 0 ∈ U := by rw [knotFn_eq (by omega)]; exact List.getElem_mem _
  have h1 : knotFn U (n + p) ∈ U := by rw [knotFn_eq (by omega)]; exact List.getElem_mem _
  have hb : ∀ x ∈ U, knotFn U 0 ≤ x ∧ x ≤ knotFn U (n + p) := by
    intro x hx
    obtain ⟨i, hi, rfl⟩ := List.mem_iff_getElem.1 hx
    rw [← knotFn_eq hi]
    exact ⟨hV (by omega), hV (by omega)⟩
  have hlt := lt_of_le_of_ne (hV (by omega : 0 ≤ n + p)) hne
  obtain ⟨b, hb1, hb2⟩ := check_knot_vector_iff p n (List.ne_nil_of_mem h0)
  rw [hb1]
  congr 1
  have hd : (0 : K) < knotFn U (n + p) - knotFn U 0 := sub_pos.2 hlt
  refine hb2.2 ⟨_, normalize_eq h0 h1 hb hlt, ?_⟩
  have e : ∀ i, i < U.length →
      knotFn (U.map fun z => (z - knotFn U 0) / (knotFn U (n + p) - knotFn U 0)) i
        = (knotFn U i - knotFn U 0) / (knotFn U (n + p) - knotFn U 0) := by
    intro i hi
    rw [knotFn_eq (by simpa using hi), List.getElem_map, ← knotFn_eq hi]
  refine ⟨by simp [hlen], ?_, ?_, ?_⟩
  · rw [List.pairwise_map]
    exact hU.mono.imp fun h => (div_le_div_iff_of_pos_right hd).2 (by linarith)
  · intro i hi
    rw [e i (by omega), hU.left i hi]
    simp
  · intro i h1 h2
    rw [e i (by omega), hU.right i h1 h2, div_self hd.ne']
    simp
    positivity

/-- **C07.** `check_knot_vector` gives the same verdict after an increasing affine change of the
knots (for every array, also empty or constant ones). -/
theorem check_knot_vector_affine (p n : ℕ) (U : List K) {a b : K} (ha : 0 < a) :
    checkKnotVector p (U.map fun x => a * x + b) n = checkKnotVector p U n := by
  have key : normalize (U.map fun x => a * x + b) = normalize U := by
    by_cases hne : U = []
    · subst hne; rfl
    obtain ⟨lo, hi, h1, h2, hb⟩ := exists_min_max hne
    by_cases hlt : lo < hi
    · have hb' : ∀ x ∈ U.map (fun x => a * x + b), a * lo + b ≤ x ∧ x ≤ a * hi + b := by
        intro x hx
        obtain ⟨t, ht, rfl⟩ := List.mem_map.1 hx
        have h3 := mul_le_mul_of_nonneg_left (hb t ht).1 ha.le
        have h4 := mul_le_mul_of_nonneg_left (hb t ht).2 ha.le
        exact ⟨by linarith, by linarith⟩
      have hlt' : a * lo + b < a * hi + b := by
        have := mul_lt_mul_of_pos_left hlt ha; linarith
      rw [normalize_eq h1 h2 hb hlt, normalize_eq (List.mem_map.2 ⟨lo, h1, rfl⟩)
        (List.mem_map.2 ⟨hi, h2, rfl⟩) hb' hlt', List.map_map]
      congr 1
      refine List.map_congr_left fun x _ => ?_
      simp only [Function.comp]
      have e : a * x + b - (a * lo + b) = a * (x - lo) := by ring
      have e' : a * hi + b - (a * lo + b) = a * (hi - lo) := by ring
      rw [e, e', mul_div_mul_left _ _ ha.ne']
    · have hc : ∀ x ∈ U, x = lo := fun x hx =>
        le_antisymm ((hb x hx).2.trans (not_lt.1 hlt)) (hb x hx).1
      rw [normalize_const hne fun x hx y hy => by rw [hc x hx, hc y hy],
        normalize_const (by simpa using hne)]
      intro x hx y hy
      obtain ⟨s, hs, rfl⟩ := List.mem_map.1 hx
      obtain ⟨t, ht, rfl⟩ := List.mem_map.1 hy
      rw [hc s hs, hc t ht]
  unfold checkKnotVector
  rw [key]

/-- **C08.** For more control points than the degree, `generate_uniform` returns a clamped knot
vector on `[0,1]` with equal interior steps, and `check_knot_vector` accepts it. -/
theorem generate_uniform_valid {p n : ℕ} (h : p < n) :
    ∃ U : List K, generateUniform p n = .ok U ∧ Clamped p n U ∧ DistinctInterior p n U ∧
      knotFn U 0 = 0 ∧ knotFn U (n + p) = 1 ∧
      (∀ i, p ≤ i → i < n → knotFn U (i + 1) - knotFn U i = 1 / ((n : K) - p)) ∧
      checkKnotVector p U n = .ok true := by
  refine ⟨_, generateUniform_eq h, ?_⟩
  set U : List K := zeros p ++ (List.range (n - p + 1)).map (fun (i : ℕ) => (i : K) * (1 / ((n : K) - p)))
      ++ ones p with hUdef
  have hk := fun i hi => generateUniform_knot (K := K) (i := i) h (generateUniform_eq h) hi
  rw [← hUdef] at hk
  have hlen : U.length = n + p + 1 := (hk 0 (by omega)).1
  have hpn : (0 : K) < (n : K) - p := by
    have : (p : K) < n := by exact_mod_cast h
    linarith
  have hstep : ∀ i, p ≤ i → i < n → knotFn U (i + 1) - knotFn U i = 1 / ((n : K) - p) := by
    intro i h1 h2
    rw [(hk i (by omega)).2, (hk (i + 1) (by omega)).2, if_neg (by omega : ¬ i + 1 ≤ p)]
    by_cases h3 : i = p
    · subst h3
      rw [if_pos le_rfl]
      by_cases h4 : i + 1 < n
      · rw [if_pos h4]; push_cast; ring
      · have e : n = i + 1 := by omega
        rw [if_neg h4, e]; push_cast; field_simp; ring
    · rw [if_neg (by omega : ¬ i ≤ p), if_pos h2]
      by_cases h4 : i + 1 < n
      · rw [if_pos h4]; push_cast; ring
      · have e : n = i + 1 := by omega
        rw [if_neg h4]
        rw [e] at hpn ⊢
        push_cast at hpn ⊢
        field_simp
        ring
  have hdist : DistinctInterior p n U := by
    intro i h1 h2
    have := hstep i h1 h2
    have : (0 : K) < 1 / ((n : K) - p) := one_div_pos.2 hpn
    linarith [hstep i h1 h2]
  have hleft : ∀ i ≤ p, knotFn U i = 0 := fun i hi => by
    rw [(hk i (by omega)).2, if_pos hi]
  have hright : ∀ i, n ≤ i → i ≤ n + p → knotFn U i = 1 := fun i h1 h2 => by
    rw [(hk i h2).2, if_neg (by omega), if_neg (by omega)]
  have hmono : U.Pairwise (· ≤ ·) := by
    rw [List.pairwise_iff_getElem]
    intro i j hi hj hij
    rw [← knotFn_eq hi, ← knotFn_eq hj]
    have step : ∀ i, i + 1 ≤ n + p → knotFn U i ≤ knotFn U (i + 1) := by
      intro i hi
      by_cases h1 : i < p
      · rw [hleft i (by omega), hleft (i + 1) (by omega)]
      · by_cases h2 : i < n
        · exact (hdist i (by omega) h2).le
        · rw [hright i (by omega) (by omega), hright (i + 1) (by omega) (by omega)]
    have : ∀ d, i + d ≤ n + p → knotFn U i ≤ knotFn U (i + d) := by
      intro d
      induction d with
      | zero => intro _; exact le_rfl
      | succ d ih => intro hd; exact (ih (by omega)).trans (step (i + d) (by omega))
    have := this (j - i) (by omega)
    rwa [show i + (j - i) = j by omega] at this
  have hcl : Clamped p n U := by
    refine ⟨⟨hlen, hmono, h⟩, ?_, ?_⟩
    · intro i hi; rw [hleft i hi, hleft 0 (by omega)]
    · intro i h1 h2; rw [hright i h1 h2, hright (n + p) (by omega) le_rfl]
  have h0 := hleft 0 (by omega)
  have h1 := hright (n + p) (by omega) le_rfl
  exact ⟨hcl, hdist, h0, h1, hstep,
    check_knot_vector_accepts_clamped hcl (by rw [h0, h1]; exact zero_ne_one)⟩

/-- **C08**, too few control points: with `n = p` or `n = p - 1` an array is returned that
`check_knot_vector` rejects; with fewer `np.linspace` raises `ValueError`. -/
theorem generate_uniform_too_few :
    (∀ p : ℕ, ∃ U : List K, generateUniform p p = .ok U ∧ checkKnotVector p U p = .ok false) ∧
    (∀ n : ℕ, ∃ U : List K, generateUniform (n + 1) n = .ok U ∧
      checkKnotVector (n + 1) U n = .ok false) ∧
    (∀ p n : ℕ, n + 1 < p → generateUniform (K := K) p n = .error .valueError) := by
  refine ⟨fun p => ?_, fun n => ?_, fun p n h => ?_⟩
  · refine ⟨zeros (p + 1) ++ ones p, ?_, ?_⟩
    · unfold generateUniform linspace
      dsimp only
      rw [if_neg (by omega), if_pos (by omega), ok_bind]
      simp [zeros, List.replicate_succ']
    · set U : List K := zeros (p + 1) ++ ones p with hU
      have hne : U ≠ [] := by simp [hU, zeros]
      obtain ⟨b, h1, h2⟩ := check_knot_vector_iff p p hne
      rw [h1]
      congr 1
      rw [← Bool.not_eq_true, h2]
      rintro ⟨W, hW, hc⟩
      by_cases hp : p = 0
      · subst hp
        rw [normalize_const hne (by simp [hU, zeros, ones])] at hW
        cases hW
      · have m0 : (0 : K) ∈ U := by simp [hU, zeros]
        have m1 : (1 : K) ∈ U := by simp [hU, ones]; omega
        have hb : ∀ x ∈ U, (0 : K) ≤ x ∧ x ≤ 1 := by
          intro x hx
          rcases List.mem_append.1 hx with h | h
          · rw [List.eq_of_mem_replicate h]; simp
          · rw [List.eq_of_mem_replicate h]; simp
        rw [normalize_eq m0 m1 hb zero_lt_one] at hW
        have hW : W = U := by simpa using (Except.ok.inj hW).symm
        subst hW
        have := hc.right p le_rfl (by omega)
        have e : knotFn U p = 0 := by
          rw [knotFn_eq (by simp [hU, zeros, ones])]
          simp [hU, zeros]
        rw [e] at this
        norm_num at this
  · refine ⟨zeros (n + 1) ++ ones (n + 1), ?_, ?_⟩
    · unfold generateUniform linspace
      dsimp only
      rw [if_neg (by omega), if_neg (by omega), ok_bind]
      have e : ((n : ℤ) + (n + 1 : ℕ) + 1 - 2 * (n + 1 : ℕ)).toNat = 0 := by omega
      rw [e]
      simp
    · set U : List K := zeros (n + 1) ++ ones (n + 1) with hU
      have hne : U ≠ [] := by simp [hU, zeros]
      obtain ⟨b, h1, h2⟩ := check_knot_vector_iff (n + 1) n hne
      rw [h1]
      congr 1
      rw [← Bool.not_eq_true, h2]
      rintro ⟨W, hW, hc⟩
      have m0 : (0 : K) ∈ U := by simp [hU, zeros]
      have m1 : (1 : K) ∈ U := by simp [hU, ones]
      have hb : ∀ x ∈ U, (0 : K) ≤ x ∧ x ≤ 1 := by
        intro x hx
        rcases List.mem_append.1 hx with h | h
        · rw [List.eq_of_mem_replicate h]; simp
        · rw [List.eq_of_mem_replicate h]; simp
      rw [normalize_eq m0 m1 hb zero_lt_one] at hW
      have hW : W = U := by simpa using (Except.ok.inj hW).symm
      subst hW
      have := hc.left (n + 1) le_rfl
      have e : knotFn U (n + 1) = 1 := by
        rw [knotFn_eq (by simp [hU, zeros, ones])]
        simp [hU, zeros, ones]
      rw [e] at this
      norm_num at this
  · unfold generateUniform linspace
    dsimp only
    rw [if_pos (by omega)]
    rfl

/-- **C09.** `find_multiplicity` counts the entries within tolerance, whatever their order; it is
the exact number of occurrences when no other entry is within tolerance. -/
theorem find_multiplicity_counts (u : K) (U : List K) :
    findMultiplicity u U
      = U.countP (fun x => decide (|u - x| ≤ 1 / 10 ^ 8 + 1 / 10 ^ 5 * |x|)) ∧
    (∀ U' : List K, U.Perm U' → findMultiplicity u U' = findMultiplicity u U) ∧
    ((∀ x ∈ U, |u - x| ≤ 1 / 10 ^ 8 + 1 / 10 ^ 5 * |x| → x = u) →
      findMultiplicity u U = U.count u) := by
  refine ⟨?_, ?_, ?_⟩
  · rw [findMultiplicity_eq_countP]; rfl
  · intro U' h
    rw [findMultiplicity_eq_countP, findMultiplicity_eq_countP, h.countP_eq]
  · intro h
    rw [findMultiplicity_eq_countP]
    unfold List.count
    refine List.countP_congr fun x hx => ?_
    rw [iscloseD_iff, beq_iff_eq]
    refine ⟨h x hx, fun e => ?_⟩
    rw [e, sub_self, abs_zero]
    positivity

/-! ## Concrete cases -/

example : normalize ([2, 2, 3, 6] : List ℚ) = .ok [0, 0, 1/4, 1] := by decide +kernel

example : checkKnotVector 2 ([5, 5, 5, 6, 7, 7, 7] : List ℚ) 4 = .ok true ∧
    checkKnotVector 2 ([0, 0, 1, 6, 7, 7, 7] : List ℚ) 4 = .ok false ∧
    checkKnotVector 2 ([0, 0, 0, 1/2, 3/4, 1, 1] : List ℚ) 4 = .ok false ∧
    checkKnotVector 2 ([1, 1, 1, 1, 1, 1, 1] : List ℚ) 4 = .ok false := by decide +kernel

example : checkKnotVector 2 (exU.map fun x => 3 * x + 7) 6 = checkKnotVector 2 exU 6 :=
  check_knot_vector_affine 2 6 exU (by decide +kernel)

example : generateUniform 2 6 = .ok exU := by decide +kernel

example : findMultiplicity (1/2) exDouble = 2 ∧ findMultiplicity 0 exDouble = 3 ∧
    findMultiplicity (1/2 + 1/10^9) exDouble = 2 := by decide +kernel

end PySpline
