import Verif.Lemmas.Insertion

/-!
# `curve_knot_insertion` at a knot of multiplicity `degree + 1`
-/

set_option linter.unusedSectionVars false

namespace PySpline

open Spec

theorem forZ_one {σ : Type} {a b : ℤ} (h : b = a + 1) (s : σ) (f : ℤ → σ → Py σ) :
    forZ a b s f = f a s := by
  unfold forZ pyRange
  rw [show (b - a).toNat = 1 by omega]
  simp [List.range_succ]
  rcases f a s with e | v <;> rfl

theorem pyIdx_neg {n : ℕ} {i : ℤ} (k : ℕ) (h0 : i < 0) (hi : i + n = k) : pyIdx n i = .ok k := by
  unfold pyIdx
  rw [if_neg (by omega), if_pos (by omega), hi]
  simp

theorem pyGet_neg {α : Type} (l : List α) (i : ℤ) (k : ℕ) (d : α) (h0 : i < 0)
    (hi : i + l.length = k) : pyGet l i = .ok (l.getD k d) := by
  have hk : k < l.length := by omega
  unfold pyGet
  rw [pyIdx_neg k h0 hi]
  simp [List.getElem?_eq_getElem hk, List.getD_eq_getElem?_getD]

theorem pySet_neg {α : Type} (l : List α) (i : ℤ) (k : ℕ) (v : α) (h0 : i < 0)
    (hi : i + l.length = k) : pySet l i v = .ok (l.set k v) := by
  unfold pySet
  rw [pyIdx_neg k h0 hi]
  rfl

variable {K : Type} [Field K] [LinearOrder K] [IsStrictOrderedRing K]

theorem assignRow_neg {m : List (List K)} {r c : ℕ} (h : Shape m r c) (i : ℤ) (a : ℕ) (v : List K)
    (h0 : i < 0) (hi : i + r = a) (hv : v.length = c) :
    ∃ m', assignRow m i v = .ok m' ∧ Shape m' r c ∧
      ∀ x y, at2 m' x y 0 = if x = a then v.getD y 0 else at2 m x y 0 := by
  have hlen : (m.length : ℤ) = r := by rw [h.1]
  have ha : a < r := by omega
  obtain ⟨m', e, h1, h2⟩ := assignRow_nat h (a : ℤ) a v rfl ha hv
  refine ⟨m', ?_, h1, h2⟩
  rw [← e]
  unfold assignRow
  rw [pyGet_neg m i a [] h0 (by omega), pyGet_nat m (a : ℤ) a [] rfl (by omega), ok_bind, ok_bind]
  have : ∀ w, pySet m i w = pySet m (a : ℤ) w := by
    intro w
    rw [pySet_neg m i a w h0 (by omega), pySet_nat m (a : ℤ) a w rfl (by omega)]
  rw [this, this]

theorem zeros2_row {a i y : ℕ} (hi : i < a) : ((zeros2 a 3 : List (List K)).getD i []).getD y 0 = 0 := by
  unfold zeros2 zeros
  rw [List.getD_eq_getElem?_getD (l := List.replicate a _)]
  rw [List.getElem?_replicate, if_pos hi, Option.getD_some, List.getD_eq_getElem?_getD,
    List.getElem?_replicate]
  split <;> rfl

theorem insertion_overfull {U : List K} {P : List (List K)} {k n p : ℕ} {u : K}
    (hl : U.length = n + p + 1) (hP : Shape P n 3) (hp : 1 ≤ p) (hpk : p + 1 ≤ k) (hk : k < n)
    (hfs : findSpan n p u U = .ok (k : ℤ)) (hs : findMultiplicity u U = p + 1) :
    Returns (curveKnotInsertion p U P u 1) fun res =>
      res.1.length = n + p + 1 + 1 ∧ knotFn res.1 = insKnots (knotFn U) k u 1 ∧
      Shape res.2 (n + 1) 3 ∧ ∀ x < n + 1, ∀ y < 3, at2 res.2 x y 0
        = if x = k - p - 1 ∨ x = k - p + 1 then 0
          else if x < k - p then at2 P x y 0 else at2 P (x - 1) y 0 := by
  obtain ⟨kv, hkv, lkv, vkv⟩ := insertion_knots (r := 1) u hl hk
  unfold curveKnotInsertion
  rw [hP.1, hfs, ok_bind, hs]
  simp only at hkv ⊢
  rw [bind3_ok _ _ _ _ _ hkv]
  have hPl := hP.1
  push_cast
  refine Returns.bind (Returns.forZ (fun i m => Shape m (n + 1) 3 ∧
    ∀ x : ℕ, (x : ℤ) < i → ∀ y < 3, at2 m x y 0 = at2 P x y 0) (by omega) ?_ ?_) ?_
  · exact ⟨shape_replicate _ _ _, fun x hx => by omega⟩
  · rintro i m hi1 hi2 ⟨sh, h⟩
    lift i to ℕ using hi1
    rw [pyGet_nat P _ i [] rfl (by omega), ok_bind]
    obtain ⟨m1, g1, sh1, at1⟩ := assignRow_nat sh (i : ℤ) i (P.getD i []) rfl (by omega)
      (hP.row (by omega))
    rw [g1]
    refine Returns.ok ⟨sh1, fun x hx y hy => ?_⟩
    rw [at1]
    split
    · next e => rw [e, at2_row]
    · exact h x (by omega) y hy
  rintro m ⟨sh, hA⟩
  refine Returns.bind (Returns.forZ (fun i m => Shape m (n + 1) 3 ∧
    (∀ x : ℕ, x < k - p → ∀ y < 3, at2 m x y 0 = at2 P x y 0) ∧
    ∀ x : ℕ, k - p ≤ x → (x : ℤ) < i + 1 → ∀ y < 3, at2 m x y 0 = at2 P (x - 1) y 0)
    (by omega) ?_ ?_) ?_
  · exact ⟨sh, fun x hx => hA x (by omega), fun x hx1 hx2 => by omega⟩
  · rintro i m hi1 hi2 ⟨sh, ha, hb⟩
    lift i to ℕ using (by omega)
    rw [pyGet_nat P _ i [] rfl (by omega), ok_bind]
    obtain ⟨m1, g1, sh1, at1⟩ := assignRow_nat sh ((i : ℤ) + 1) (i + 1) (P.getD i [])
      (by push_cast; ring) (by omega) (hP.row (by omega))
    rw [g1]
    refine Returns.ok ⟨sh1, fun x hx y hy => ?_, fun x hx1 hx2 y hy => ?_⟩
    · rw [at1, if_neg (by omega)]; exact ha x hx y hy
    · rw [at1]
      split
      · next e => rw [e, Nat.add_sub_cancel, at2_row]
      · exact hb x hx1 (by omega) y hy
  rintro m ⟨sh, ha, hb⟩
  rw [forZ_empty (by omega), ok_bind, forZ_one (by omega)]
  dsimp only
  rw [forZ_empty (by omega), ok_bind]
  have shR : Shape (zeros2 (p + 1) 3 : List (List K)) (p + 1) 3 := shape_replicate _ _ _
  rw [pyGet_nat (zeros2 (p + 1) 3) 0 0 [] rfl (by rw [shR.1]; omega), ok_bind]
  obtain ⟨m1, g1, sh1, at1⟩ := assignRow_nat sh ((k : ℤ) - p + 1) (k - p + 1)
    ((zeros2 (p + 1) 3).getD 0 []) (by omega) (by omega) (shR.row (by omega))
  rw [g1, ok_bind, pyGet_neg (zeros2 (p + 1) 3) _ (p - 1) [] (by omega) (by rw [shR.1]; omega), ok_bind]
  obtain ⟨m2, g2, sh2, at2'⟩ := assignRow_nat sh1 ((k : ℤ) + 1 - 1 - (p + 1)) (k - p - 1)
    ((zeros2 (p + 1) 3).getD (p - 1) []) (by omega) (by omega) (shR.row (by omega))
  rw [g2, ok_bind, ok_bind]
  dsimp only
  rw [forZ_empty (by omega), ok_bind]
  refine Returns.ok ⟨lkv, knotFn_of_getD hl hk lkv vkv, sh2, fun x hx y hy => ?_⟩
  dsimp only
  rw [at2', at1]
  by_cases e1 : x = k - p - 1
  · rw [if_pos e1, if_pos (Or.inl e1), zeros2_row (by omega)]
  rw [if_neg e1]
  by_cases e2 : x = k - p + 1
  · rw [if_pos e2, if_pos (Or.inr e2), zeros2_row (by omega)]
  rw [if_neg e2, if_neg (by omega)]
  split
  · next h => exact ha x h y hy
  · exact hb x (by omega) (by omega) y hy

theorem insertion_overfull_first {U : List K} {P : List (List K)} {n p : ℕ} {u : K}
    (hl : U.length = n + p + 1) (hP : Shape P n 3) (hp : 1 ≤ p) (hk : p < n)
    (hfs : findSpan n p u U = .ok (p : ℤ)) (hs : findMultiplicity u U = p + 1) :
    Returns (curveKnotInsertion p U P u 1) fun res =>
      res.1.length = n + p + 1 + 1 ∧ knotFn res.1 = insKnots (knotFn U) p u 1 ∧
      Shape res.2 (n + 1) 3 ∧ ∀ x < n + 1, ∀ y < 3, at2 res.2 x y 0
        = if x = 1 ∨ x = n then 0
          else if x = 0 then at2 P (n - 1) y 0 else at2 P (x - 1) y 0 := by
  obtain ⟨kv, hkv, lkv, vkv⟩ := insertion_knots (r := 1) u hl hk
  unfold curveKnotInsertion
  rw [hP.1, hfs, ok_bind, hs]
  simp only at hkv ⊢
  rw [bind3_ok _ _ _ _ _ hkv]
  have hPl := hP.1
  push_cast
  refine Returns.bind (Returns.forZ (fun i m => Shape m (n + 1) 3) (by omega) ?_ ?_) ?_
  · exact shape_replicate _ _ _
  · rintro i m hi1 hi2 sh
    lift i to ℕ using hi1
    rw [pyGet_nat P _ i [] rfl (by omega), ok_bind]
    obtain ⟨m1, g1, sh1, at1⟩ := assignRow_nat sh (i : ℤ) i (P.getD i []) rfl (by omega)
      (hP.row (by omega))
    rw [g1]
    exact Returns.ok sh1
  rintro m sh
  refine Returns.bind (Returns.forZ (fun i m => Shape m (n + 1) 3 ∧
    (0 ≤ i → ∀ y < 3, at2 m 0 y 0 = at2 P (n - 1) y 0) ∧
    ∀ x : ℕ, 1 ≤ x → (x : ℤ) < i + 1 → ∀ y < 3, at2 m x y 0 = at2 P (x - 1) y 0)
    (by omega) ?_ ?_) ?_
  · exact ⟨sh, fun h => by omega, fun x hx1 hx2 => by omega⟩
  · rintro i m hi1 hi2 ⟨sh, ha, hb⟩
    by_cases hi : i < 0
    · have hi' : i = -1 := by omega
      rw [pyGet_neg P _ (n - 1) [] hi (by omega), ok_bind]
      obtain ⟨m1, g1, sh1, at1⟩ := assignRow_nat sh (i + 1) 0 (P.getD (n - 1) [])
        (by omega) (by omega) (hP.row (by omega))
      rw [g1]
      refine Returns.ok ⟨sh1, fun _ y hy => ?_, fun x hx1 hx2 y hy => by omega⟩
      rw [at1, if_pos rfl, at2_row]
    · lift i to ℕ using (by omega)
      rw [pyGet_nat P _ i [] rfl (by omega), ok_bind]
      obtain ⟨m1, g1, sh1, at1⟩ := assignRow_nat sh ((i : ℤ) + 1) (i + 1) (P.getD i [])
        (by push_cast; ring) (by omega) (hP.row (by omega))
      rw [g1]
      refine Returns.ok ⟨sh1, fun _ y hy => ?_, fun x hx1 hx2 y hy => ?_⟩
      · rw [at1, if_neg (by omega)]; exact ha (by omega) y hy
      · rw [at1]
        split
        · next e => rw [e, Nat.add_sub_cancel, at2_row]
        · exact hb x hx1 (by omega) y hy
  rintro m ⟨sh, ha, hb⟩
  rw [forZ_empty (by omega), ok_bind, forZ_one (by omega)]
  dsimp only
  rw [forZ_empty (by omega), ok_bind]
  have shR : Shape (zeros2 (p + 1) 3 : List (List K)) (p + 1) 3 := shape_replicate _ _ _
  rw [pyGet_nat (zeros2 (p + 1) 3) 0 0 [] rfl (by rw [shR.1]; omega), ok_bind]
  obtain ⟨m1, g1, sh1, at1⟩ := assignRow_nat sh ((p : ℤ) - p + 1) 1
    ((zeros2 (p + 1) 3).getD 0 []) (by omega) (by omega) (shR.row (by omega))
  rw [g1, ok_bind, pyGet_neg (zeros2 (p + 1) 3) _ (p - 1) [] (by omega) (by rw [shR.1]; omega), ok_bind]
  obtain ⟨m2, g2, sh2, at2'⟩ := assignRow_neg sh1 ((p : ℤ) + 1 - 1 - (p + 1)) n
    ((zeros2 (p + 1) 3).getD (p - 1) []) (by omega) (by omega) (shR.row (by omega))
  rw [g2, ok_bind, ok_bind]
  dsimp only
  rw [forZ_empty (by omega), ok_bind]
  refine Returns.ok ⟨lkv, knotFn_of_getD hl hk lkv vkv, sh2, fun x hx y hy => ?_⟩
  dsimp only
  rw [at2', at1]
  by_cases e1 : x = n
  · rw [if_pos e1, if_pos (Or.inr e1), zeros2_row (by omega)]
  rw [if_neg e1]
  by_cases e2 : x = 1
  · rw [if_pos e2, if_pos (Or.inl e2), zeros2_row (by omega)]
  rw [if_neg e2, if_neg (by omega)]
  split
  · next h => rw [h]; exact ha (by omega) y hy
  · exact hb x (by omega) (by omega) y hy

end PySpline
