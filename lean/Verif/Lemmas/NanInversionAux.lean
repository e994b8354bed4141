import Verif.Props.NanInputs

/-!
# Auxiliary lemmas for `Props/NanInversion.lean`
-/

set_option linter.unusedSectionVars false

namespace PySpline

open Ext Spec

section
variable {K : Type} [Field K] [LinearOrder K] [IsStrictOrderedRing K]

theorem normE_nonfin (norm : List K → K) {r : List (Ext K)} {i : ℕ} (hi : i < r.length)
    (h : (r.getD i 0).isFin = false) : normE norm r = nan ∨ normE norm r = inf false := by
  unfold normE
  split_ifs with h1 h2
  · exact Or.inl rfl
  · have := List.all_eq_true.1 h2 (r.getD i 0) (by
      rw [List.getD_eq_getElem?_getD, List.getElem?_eq_getElem hi]
      exact List.getElem_mem _)
    rw [h] at this
    exact Bool.noConfusion this
  · exact Or.inr rfl

theorem lt_fin_false {x : Ext K} (h : x = nan ∨ x = inf false) (y : K) : lt x (fin y) = false ∧ le x (fin y) = false := by
  rcases h with rfl | rfl <;> exact ⟨rfl, rfl⟩

theorem nonfin_of_top {x : Ext K} (h : x = nan ∨ x = inf false) : x.isFin = false := by
  rcases h with rfl | rfl <;> rfl

/-- The differences with a row of numbers keep the coordinate that is not finite. -/
theorem vsubE_nonfin {q : List K} {point : List (Ext K)} {i : ℕ} (hq : q.length = 3) (hp : point.length = 3)
    (hi : i < 3) (h : (point.getD i 0).isFin = false) :
    (∃ r, vsubE (lift1 q) point = .ok r ∧ r.length = 3 ∧ (r.getD i 0).isFin = false) ∧
    ∃ r, vsubE point (lift1 q) = .ok r ∧ r.length = 3 ∧ (r.getD i 0).isFin = false := by
  have e : ∀ (f : Ext K → Ext K → Ext K) (a b : List (Ext K)), a.length = 3 → b.length = 3 →
      (List.zipWith f a b).getD i 0 = f (a.getD i 0) (b.getD i 0) := by
    intro f a b ha hb
    rw [List.getD_eq_getElem?_getD, List.getD_eq_getElem?_getD, List.getD_eq_getElem?_getD,
      List.getElem?_zipWith, List.getElem?_eq_getElem (by omega), List.getElem?_eq_getElem (by omega)]
    rfl
  have hq' : (lift1 q).length = 3 := by rw [List.length_map, hq]
  unfold vsubE
  rw [if_pos (by rw [hq', hp]), if_pos (by rw [hq', hp])]
  refine ⟨⟨_, rfl, by simp [hq, hp], ?_⟩, _, rfl, by simp [hq, hp], ?_⟩
  · rw [e _ _ _ hq' hp]
    exact nonfin_sub_right h _
  · rw [e _ _ _ hp hq']
    exact nonfin_sub_left h _

theorem dotE_nonfin_right {q : List K} {r : List (Ext K)} {i : ℕ} (hq : q.length = 3) (hr : r.length = 3) (hi : i < 3)
    (h : (r.getD i 0).isFin = false) : ∃ x, dotE (lift1 q) r = .ok x ∧ x.isFin = false :=
  dotE_absorb_right absorbing_nonfin (by rw [List.length_map, hq, hr]) (i := i) (by rw [List.length_map]; omega) h

theorem dotE_nonfin_left {q : List K} {r : List (Ext K)} {i : ℕ} (hq : q.length = 3) (hr : r.length = 3) (hi : i < 3)
    (h : (r.getD i 0).isFin = false) : ∃ x, dotE r (lift1 q) = .ok x ∧ x.isFin = false :=
  dotE_absorb_left absorbing_nonfin (by rw [List.length_map, hq, hr]) (i := i) (by omega) h

/-- The cosine test with numbers that are not finite. -/
theorem ratioE_nonfin {a b : Ext K} (ha : a.isFin = false) (hb : b.isFin = false) (x c : Ext K) :
    le (Ext.abs a / (x * b)) c = false := by
  rw [nonfin_div_nonfin (nonfin_abs ha) (nonfin_mul_right hb x)]
  exact le_nan_left c

theorem clamp01E_nan : clamp01E (nan : Ext K) = nan := rfl

theorem map_mul_nan {l : List K} (hl : l.length = 3) : nan ∈ (lift1 l).map fun i => i * (nan : Ext K) := by
  obtain ⟨a, as, rfl⟩ := List.exists_cons_of_ne_nil (l := l) (by rintro rfl; simp at hl)
  exact List.mem_map.2 ⟨fin a, by simp, rfl⟩

theorem isFin_false {x : Ext K} (h : ∀ y, x ≠ fin y) : x.isFin = false := by
  cases x with
  | fin y => exact absurd rfl (h y)
  | inf s => rfl
  | nan => rfl

/-- `np.linalg.inv` with four entries that are not finite, and the product with it. -/
theorem solve2E_nonfin {a b c d : Ext K} (ha : a.isFin = false) (hc : c.isFin = false) (x y : Ext K) :
    solve2E a b c d x y = .ok (nan, nan) := by
  have key : solve2E a b c d x y
      = (let l := c / a
        let u22 := d - l * b
        let i21 := (0 - l * 1) / u22
        let i11 := (1 - b * i21) / a
        let i22 := (1 - l * 0) / u22
        let i12 := (0 - b * i22) / a
        .ok (i11 * x + i12 * y, i21 * x + i22 * y)) := by
    cases a with
    | fin z => exact Bool.noConfusion (ha : true = false)
    | inf s => rfl
    | nan => rfl
  rw [key]
  dsimp only
  rw [nonfin_div_nonfin hc ha]
  simp only [nan_mul, sub_nan, div_nan, mul_nan, nan_div, nan_add]

theorem mapPy_fails {α β : Type} {f : α → Py β} {data : List α} {x : α} (hmem : x ∈ data) {e : Err}
    (hf : f x = .error e) : ∀ rows, mapPy f data ≠ .ok rows := by
  induction data with
  | nil => exact absurd hmem (by simp)
  | cons z zs ih =>
    intro rows h
    unfold mapPy at h
    rcases hx : f z with e' | y
    · rw [hx] at h; cases h
    · rw [hx, ok_bind] at h
      rcases List.mem_cons.1 hmem with e1 | e1
      · rw [← e1, hf] at hx; cases hx
      · rcases hxs : mapPy f zs with e2 | ys
        · rw [hxs] at h; cases h
        · exact ih e1 ys hxs

end

end PySpline
