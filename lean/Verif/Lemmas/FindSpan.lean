import Verif.Model.Knots

/-!
# The search loop of `find_span`
-/

set_option linter.unusedSectionVars false

namespace PySpline

variable {α : Type} [LinearOrder α]

theorem pyGet_getElem (U : List α) (i : ℤ) (k : ℕ) (hi : i = k) (hk : k < U.length) :
    pyGet U i = .ok U[k] := by
  rw [pyGet_nat U i k U[k] hi hk, List.getD_eq_getElem?_getD, List.getElem?_eq_getElem hk]
  rfl

theorem sorted_le {U : List α} (hU : U.Pairwise (· ≤ ·)) {i j : ℕ} (h : i ≤ j)
    (hj : j < U.length) : U[i] ≤ U[j] := by
  rcases h.eq_or_lt with rfl | h
  · exact le_rfl
  · exact List.pairwise_iff_getElem.1 hU i j (by omega) hj h

/-- More fuel does not change the answer of a run that ended. -/
theorem findSpanLoop_mono (u : α) (U : List α) (f : ℕ) : ∀ (g low high mid : ℕ), f ≤ g →
    findSpanLoop u U f low high mid ≠ .error .diverged →
    findSpanLoop u U g low high mid = findSpanLoop u U f low high mid := by
  induction f with
  | zero => intro g low high mid _ h; exact absurd rfl h
  | succ f ih =>
    intro g low high mid hg h
    obtain ⟨g, rfl⟩ : ∃ g', g = g' + 1 := ⟨g - 1, by omega⟩
    unfold findSpanLoop at h ⊢
    rcases ha : pyGet U (mid : ℤ) with e | a
    · rfl
    · rw [ha] at h
      simp only [ok_bind] at h ⊢
      by_cases hlt : u < a
      · rw [if_pos hlt] at h; rw [if_pos hlt, if_pos hlt]; exact ih g _ _ _ (by omega) h
      · rw [if_neg hlt] at h; rw [if_neg hlt, if_neg hlt]
        rcases hb : pyGet U ((mid : ℤ) + 1) with e | b
        · rfl
        · rw [hb] at h
          simp only [ok_bind] at h ⊢
          by_cases hgt : u > b
          · rw [if_pos hgt] at h; rw [if_pos hgt, if_pos hgt]; exact ih g _ _ _ (by omega) h
          · rw [if_neg hgt, if_neg hgt]

/-- What a value returned by the loop satisfies. -/
theorem findSpanLoop_bracket (u : α) (U : List α) (f : ℕ) : ∀ (low high mid : ℕ) (k : ℤ),
    low ≤ mid → mid ≤ high → high < U.length →
    findSpanLoop u U f low high mid = .ok k →
    ∃ m : ℕ, k = m ∧ low ≤ m ∧ m ≤ high ∧ ∃ h : m + 1 < U.length, U[m] ≤ u ∧ u ≤ U[m + 1] := by
  induction f with
  | zero => intro low high mid k _ _ _ h; simp [findSpanLoop] at h
  | succ f ih =>
    intro low high mid k h1 h2 h3 h
    unfold findSpanLoop at h
    rw [pyGet_getElem U _ mid rfl (by omega), ok_bind] at h
    by_cases hlt : u < U[mid]
    · rw [if_pos hlt] at h
      obtain ⟨m, a, b, c, d⟩ := ih low mid _ k (by omega) (by omega) (by omega) h
      exact ⟨m, a, b, by omega, d⟩
    · rw [if_neg hlt] at h
      by_cases hm : mid + 1 < U.length
      · rw [pyGet_getElem U _ (mid + 1) (by push_cast; rfl) hm, ok_bind] at h
        by_cases hgt : u > U[mid + 1]
        · rw [if_pos hgt] at h
          obtain ⟨m, a, b, c, d⟩ := ih mid high _ k (by omega) (by omega) (by omega) h
          exact ⟨m, a, by omega, c, d⟩
        · rw [if_neg hgt] at h
          exact ⟨mid, (Except.ok.inj h).symm, h1, h2, hm, not_lt.1 hlt, not_lt.1 hgt⟩
      · have : pyGet U ((mid : ℤ) + 1) = .error .indexError := by
          unfold pyGet pyIdx
          rw [if_neg (by omega), if_neg (by omega)]; rfl
        rw [this] at h
        simp at h

/-- The loop ends within `f + 1` probes when `high - low ≤ 2 ^ f`. -/
theorem findSpanLoop_terminates (u : α) (U : List α) (f : ℕ) :
    ∀ (low high : ℕ) (hlh : low < high) (hh : high < U.length),
    high - low ≤ 2 ^ f → U[low] ≤ u → u < U[high] →
    ∃ k, findSpanLoop u U (f + 1) low high ((low + high) / 2) = .ok k := by
  induction f with
  | zero =>
    intro low high hlh hh hd h1 h2
    have e : high = low + 1 := by simp at hd; omega
    subst e
    have e2 : (low + (low + 1)) / 2 = low := by omega
    rw [e2]
    unfold findSpanLoop
    rw [pyGet_getElem U _ low rfl (by omega), ok_bind, if_neg (not_lt.2 h1),
      pyGet_getElem U _ (low + 1) (by push_cast; rfl) hh, ok_bind, if_neg (not_lt.2 h2.le)]
    exact ⟨_, rfl⟩
  | succ f ih =>
    intro low high hlh hh hd h1 h2
    rw [pow_succ] at hd
    unfold findSpanLoop
    set mid := (low + high) / 2 with hmid
    rw [pyGet_getElem U _ mid rfl (by omega), ok_bind]
    by_cases hlt : u < U[mid]
    · rw [if_pos hlt]
      have : low ≠ mid := by
        intro e
        have e' : U[low] = U[mid] := by congr 1
        exact absurd (h1.trans_lt hlt) (by rw [e']; exact lt_irrefl _)
      exact ih low mid (by omega) (by omega) (by omega) h1 hlt
    · rw [if_neg hlt, pyGet_getElem U _ (mid + 1) (by push_cast; rfl) (by omega), ok_bind]
      by_cases hgt : u > U[mid + 1]
      · rw [if_pos hgt]
        exact ih mid high (by omega) (by omega) (by omega) (not_lt.1 hlt) h2
      · rw [if_neg hgt]; exact ⟨_, rfl⟩

theorem findSpanLoop_below (u : α) (U : List α) (hU : U.Pairwise (· ≤ ·)) (f : ℕ) :
    ∀ (low high mid : ℕ) (hm : mid < U.length) (_ : low ≤ mid), u < U[low] →
    findSpanLoop u U f low high mid = .error .diverged := by
  induction f with
  | zero => intros; rfl
  | succ f ih =>
    intro low high mid hm hl h
    unfold findSpanLoop
    rw [pyGet_getElem U _ mid rfl hm, ok_bind, if_pos (h.trans_le (sorted_le hU hl hm))]
    exact ih low mid _ (by omega) (by omega) h

theorem findSpanLoop_above (u : α) (U : List α) (hU : U.Pairwise (· ≤ ·)) (f : ℕ) :
    ∀ (low high mid : ℕ) (hh : high < U.length) (_ : low < high) (_ : mid < high), U[high] < u →
    findSpanLoop u U f low high mid = .error .diverged := by
  induction f with
  | zero => intros; rfl
  | succ f ih =>
    intro low high mid hh hl hm h
    unfold findSpanLoop
    have h' : U[mid] < u := (sorted_le hU hm.le hh).trans_lt h
    have h'' : U[mid + 1] < u := (sorted_le hU (by omega) hh).trans_lt h
    rw [pyGet_getElem U _ mid rfl (by omega), ok_bind, if_neg h'.le.not_gt,
      pyGet_getElem U _ (mid + 1) (by push_cast; rfl) (by omega), ok_bind, if_pos h'']
    exact ih mid high _ hh hm (by omega) h

theorem findSpanMid0_bounds {n p : ℕ} (h : p < n) :
    p < findSpanMid0 n p ∧ findSpanMid0 n p ≤ n ∧ findSpanMid0 n p - p ≤ n - p ∧
    findSpanMid0 n p = (p + n + 1) / 2 := by
  unfold findSpanMid0; split <;> omega

end PySpline
