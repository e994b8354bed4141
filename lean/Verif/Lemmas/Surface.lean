import Verif.Lemmas.Curve

/-!
# Helper lemmas for surface evaluation
-/

set_option linter.unusedSectionVars false

namespace PySpline

open Spec Polynomial

variable {K : Type} [Field K] [LinearOrder K] [IsStrictOrderedRing K]

theorem reshape2_map_range (f : ℕ → K) (n m : ℕ) :
    reshape2 ((List.range (n * m)).map f) n m
      = .ok ((List.range n).map fun i => (List.range m).map fun j => f (i * m + j)) := by
  unfold reshape2
  rw [if_pos (by simp)]
  congr 1
  refine List.map_congr_left fun i hi => ?_
  have hi' := List.mem_range.1 hi
  have hle : i * m + m ≤ n * m := by
    have := Nat.mul_le_mul_right m (Nat.succ_le_of_lt hi')
    rwa [Nat.succ_mul] at this
  refine List.ext_getElem (by simp; omega) fun r h1 h2 => ?_
  simp

theorem slice2_map_range (g : ℕ → ℕ → K) {n m a b c d : ℕ} {la ha lc hc : ℤ} (h1 : la = a)
    (h2 : ha = (a + b : ℕ)) (h3 : lc = c) (h4 : hc = (c + d : ℕ)) (h5 : a + b ≤ n)
    (h6 : c + d ≤ m) :
    slice2 ((List.range n).map fun i => (List.range m).map (g i)) la ha lc hc
      = (List.range b).map fun i => (List.range d).map fun j => g (a + i) (c + j) := by
  unfold slice2
  rw [pySlice_nat _ _ _ a b [] h1 h2 (by simp; omega), List.map_map]
  refine List.map_congr_left fun i hi => ?_
  have hi' := List.mem_range.1 hi
  have e : ((List.range n).map fun i => (List.range m).map (g i)).getD (a + i) []
      = (List.range m).map (g (a + i)) := by
    simp [List.getD_eq_getElem?_getD, show a + i < n by omega]
  rw [Function.comp_apply, e, pySlice_nat _ _ _ c d 0 h3 h4 (by simp; omega)]
  refine List.map_congr_left fun j hj => ?_
  have hj' := List.mem_range.1 hj
  simp [List.getD_eq_getElem?_getD, show c + j < m by omega]

theorem bilinear_map_range (f h : ℕ → K) (g : ℕ → ℕ → K) (a b : ℕ) (ha : 1 ≤ a) :
    bilinear ((List.range a).map f) ((List.range a).map fun i => (List.range b).map (g i))
        ((List.range b).map h)
      = .ok (∑ i ∈ Finset.range a, ∑ j ∈ Finset.range b, f i * g i j * h j) := by
  have e : vecMat ((List.range a).map f) ((List.range a).map fun i => (List.range b).map (g i))
      = .ok ((List.range b).map fun j => ∑ i ∈ Finset.range a, f i * g i j) := by
    unfold vecMat
    rw [if_pos (by simp)]
    have hh : (((List.range a).map fun i => (List.range b).map (g i)).headD []).length = b := by
      obtain ⟨t, rfl⟩ : ∃ t, a = t + 1 := ⟨a - 1, by omega⟩
      rw [List.range_succ_eq_map]; simp
    rw [hh]
    congr 1
    refine List.map_congr_left fun j hj => ?_
    have hj' := List.mem_range.1 hj
    rw [← sum_map_range]
    congr 1
    refine List.ext_getElem (by simp) fun r h1 h2 => ?_
    simp [List.getD_eq_getElem?_getD, hj']
  unfold bilinear
  rw [e, ok_bind, dot_map_range]
  congr 1
  rw [Finset.sum_comm]
  exact Finset.sum_congr rfl fun j _ => by rw [Finset.sum_mul]

/-- A surface whose arrays have the declared sizes. -/
structure SurfaceOk (s : Surface K) : Prop where
  ku : KnotVector s.degreeU s.numU s.kvU
  kv : KnotVector s.degreeV s.numV s.kvV
  shape : Shape s.ctrlpts (s.numU * s.numV) 3

/-- What `single_point` computes once the spans are known. -/
theorem surfacePoint_of_span {s : Surface K} (hs : SurfaceOk s) {u v : K} {m k : ℕ}
    (hu : 0 ≤ u ∧ u ≤ 1) (hv : 0 ≤ v ∧ v ≤ 1)
    (hm : findSpan s.numU s.degreeU u s.kvU = .ok (m : ℤ)) (hm1 : s.degreeU ≤ m) (hm2 : m < s.numU)
    (hm3 : knotFn s.kvU m < knotFn s.kvU (m + 1))
    (hk : findSpan s.numV s.degreeV v s.kvV = .ok (k : ℤ)) (hk1 : s.degreeV ≤ k) (hk2 : k < s.numV)
    (hk3 : knotFn s.kvV k < knotFn s.kvV (k + 1)) :
    s.singlePoint u v = .ok ((List.range 3).map fun c =>
      ∑ i ∈ Finset.range (s.degreeU + 1), ∑ j ∈ Finset.range (s.degreeV + 1),
        (piece (knotFn s.kvU) m s.degreeU (m - s.degreeU + i)).eval u
          * coord s.ctrlpts c ((m - s.degreeU + i) * s.numV + (k - s.degreeV + j))
          * (piece (knotFn s.kvV) k s.degreeV (k - s.degreeV + j)).eval v) := by
  have l1 := hs.ku.len
  have l2 := hs.kv.len
  unfold Surface.singlePoint
  rw [if_neg (by rw [(validateKnot_iff u).2 hu]; simp),
    if_neg (by rw [(validateKnot_iff v).2 hv]; simp), hm, ok_bind, hk, ok_bind,
    basis_functions_pieces hs.ku.mono u hm1 (by omega) hm3, ok_bind,
    basis_functions_pieces hs.kv.mono v hk1 (by omega) hk3, ok_bind,
    column_all hs.shape 0 0 rfl (by omega), ok_bind, column_all hs.shape 1 1 rfl (by omega), ok_bind,
    column_all hs.shape 2 2 rfl (by omega), ok_bind,
    reshape2_map_range, ok_bind, reshape2_map_range, ok_bind, reshape2_map_range, ok_bind]
  have hsl : ∀ c, slice2 ((List.range s.numU).map fun i => (List.range s.numV).map fun j =>
        coord s.ctrlpts c (i * s.numV + j)) ((m : ℤ) - s.degreeU) ((m : ℤ) + 1)
        ((k : ℤ) - s.degreeV) ((k : ℤ) + 1)
      = (List.range (s.degreeU + 1)).map fun i => (List.range (s.degreeV + 1)).map fun j =>
        coord s.ctrlpts c ((m - s.degreeU + i) * s.numV + (k - s.degreeV + j)) := fun c =>
    slice2_map_range (fun i j => coord s.ctrlpts c (i * s.numV + j)) (by omega) (by omega)
      (by omega) (by omega) (by omega) (by omega)
  rw [hsl, hsl, hsl, bilinear_map_range _ _ _ _ _ (by omega), ok_bind,
    bilinear_map_range _ _ _ _ _ (by omega), ok_bind, bilinear_map_range _ _ _ _ _ (by omega),
    ok_bind]
  rfl

/-- The double sum over the active control points is the double sum over all of them. -/
theorem sum_active2 {p n m q n' k : ℕ} (hpm : p ≤ m) (hmn : m < n) (hqk : q ≤ k) (hkn : k < n')
    (c : ℕ → ℕ → K) (f g : ℕ → K) (hf : ∀ i, i + p < m ∨ m < i → f i = 0)
    (hg : ∀ i, i + q < k ∨ k < i → g i = 0) :
    ∑ i ∈ Finset.range (p + 1), ∑ j ∈ Finset.range (q + 1),
        f (m - p + i) * c (m - p + i) (k - q + j) * g (k - q + j)
      = ∑ i ∈ Finset.range n, ∑ j ∈ Finset.range n', c i j * f i * g j := by
  have h1 : ∀ i ∈ Finset.range (p + 1), ∑ j ∈ Finset.range (q + 1),
        f (m - p + i) * c (m - p + i) (k - q + j) * g (k - q + j)
      = f (m - p + i) * (fun i => ∑ j ∈ Finset.range n', c i j * g j) (m - p + i) := by
    intro i _
    dsimp only
    rw [← sum_active hqk hkn (c (m - p + i)) g hg, Finset.mul_sum]
    exact Finset.sum_congr rfl fun j _ => by ring
  rw [Finset.sum_congr rfl h1,
    sum_active hpm hmn (fun i => ∑ j ∈ Finset.range n', c i j * g j) f hf]
  refine Finset.sum_congr rfl fun i _ => ?_
  rw [Finset.sum_mul]
  exact Finset.sum_congr rfl fun j _ => by ring

/-- The row that `normalizeRow` produces. -/
def scaledRow (norm : List K → K) (normalize first : Bool) (val : List K) : List K :=
  if normalize = true ∧ first = false ∧ 1 / 10 ^ 8 < |norm val| then val.map (· / norm val) else val

theorem normalizeRow_eq (norm : List K → K) (normalize first : Bool) (val : List K) :
    normalizeRow norm normalize first val = .ok (scaledRow norm normalize first val) := by
  unfold normalizeRow scaledRow
  have hc : iscloseD (norm val) 0 = true ↔ ¬ 1 / 10 ^ 8 < |norm val| := by
    unfold iscloseD isclose atolDefault
    simp
  by_cases h : 1 / 10 ^ 8 < |norm val|
  · have h1 : iscloseD (norm val) 0 = false := by
      rw [← Bool.not_eq_true, hc]; exact fun hn => hn h
    have hne : norm val ≠ 0 := by
      intro h0
      rw [h0, abs_zero] at h
      exact absurd h (not_lt.2 (by positivity))
    rw [h1]
    by_cases hn : normalize = true ∧ first = false
    · rw [if_pos (by simp [hn.1, hn.2]), if_pos ⟨hn.1, hn.2, h⟩]
      exact mapPy_eq_ok _ _ _ fun x _ => pyDiv_ok hne
    · rw [if_neg (by simpa using hn), if_neg fun hh => hn ⟨hh.1, hh.2.1⟩]
  · rw [hc.2 h, if_neg (by simp), if_neg fun hh => h hh.2.2]

theorem column_map_range2 (f : ℕ → ℕ → K) {n c i : ℕ} (ii : ℤ) (hii : ii = i) (hi : i < c) :
    column ((List.range n).map fun r => (List.range c).map (f r)) ii
      = .ok ((List.range n).map fun r => f r i) := by
  unfold column
  rw [mapPy_eq_ok _ (fun row => row.getD i 0)]
  · rw [List.map_map]
    congr 1
    refine List.map_congr_left fun r _ => ?_
    simp [List.getD_eq_getElem?_getD, hi]
  · intro x hx
    obtain ⟨r, -, rfl⟩ := List.mem_map.1 hx
    exact pyGet_nat _ _ i 0 hii (by simpa using hi)

theorem assignRow_eq {m : List (List K)} {r c : ℕ} (h : Shape m r c) (i : ℤ) (a : ℕ) (v : List K)
    (hi : i = a) (ha : a < r) (hv : v.length = c) :
    assignRow m i v = .ok (m.set a v) := by
  have ha' : a < m.length := by rw [h.1]; exact ha
  unfold assignRow
  rw [pyGet_nat m i a [] hi ha', ok_bind, h.row ha, if_pos hv, pySet_nat m i a v hi ha']

theorem shape_set {m : List (List K)} {r c : ℕ} (h : Shape m r c) (a : ℕ) (v : List K)
    (hv : v.length = c) : Shape (m.set a v) r c := by
  refine ⟨by rw [List.length_set]; exact h.1, fun row hrow => ?_⟩
  rcases List.mem_or_eq_of_mem_set hrow with h1 | h1
  · exact h.2 _ h1
  · rw [h1]; exact hv

/-- The double loop of `derivatives`: `row a b` is written to row `a * B + b`. -/
theorem double_loop (A B : ℕ) {w : ℕ} (R : ℕ → List K) (hR : ∀ t, (R t).length = w)
    (body : ℕ → ℕ → List (List K) × ℕ → Py (List (List K) × ℕ))
    (hbody : ∀ a b d, a < A → b < B → Shape d (A * B) w →
      body a b (d, a * B + b) = .ok (d.set (a * B + b) (R (a * B + b)), a * B + b + 1)) :
    (forN 0 A (zeros2 (A * B) w, 0) fun a st => forN 0 B st fun b st => body a b st)
      = .ok ((List.range (A * B)).map R, A * B) := by
  apply Returns.eq_ok
  have hlt : ∀ a b, a < A → b < B → a * B + b < A * B := fun a b ha hb => by
    have := Nat.mul_le_mul_right B (Nat.succ_le_of_lt ha)
    rw [Nat.succ_mul] at this
    omega
  have step : ∀ (d : List (List K)) (t : ℕ), t < A * B →
      (Shape d (A * B) w ∧ ∀ x < t, d.getD x [] = R x) →
      (Shape (d.set t (R t)) (A * B) w ∧ ∀ x < t + 1, (d.set t (R t)).getD x [] = R x) := by
    rintro d t ht ⟨h1, h2⟩
    refine ⟨shape_set h1 _ _ (hR t), fun x hx => ?_⟩
    rw [getD_set _ _ _ _ _ (by rw [h1.1]; exact ht)]
    by_cases hxt : x = t
    · rw [if_pos hxt, hxt]
    · rw [if_neg hxt]; exact h2 x (by omega)
  refine Returns.mono (Returns.forN (fun a (st : List (List K) × ℕ) => st.2 = a * B ∧
    Shape st.1 (A * B) w ∧ ∀ x < st.2, st.1.getD x [] = R x) (by omega) ?_ ?_) ?_
  · refine ⟨by simp, shape_replicate _ _ _, fun x hx => ?_⟩
    simp at hx
  · rintro a ⟨d, idx⟩ - ha ⟨hidx, h⟩
    refine Returns.mono (Returns.forN (fun b (st : List (List K) × ℕ) => st.2 = a * B + b ∧
      Shape st.1 (A * B) w ∧ ∀ x < st.2, st.1.getD x [] = R x) (by omega) ?_ ?_) ?_
    · exact ⟨by simpa using hidx, h⟩
    · rintro b ⟨d, idx⟩ - hb ⟨hidx, h⟩
      simp only at hidx
      subst hidx
      rw [hbody a b d ha hb h.1]
      refine Returns.ok ⟨by omega, ?_⟩
      exact step d _ (hlt a b ha hb) h
    · rintro ⟨d, idx⟩ ⟨hidx, h⟩
      refine ⟨?_, h⟩
      rw [hidx, Nat.add_mul]; simp
  · rintro ⟨d, idx⟩ ⟨hidx, h1, h2⟩
    simp only at hidx
    subst hidx
    refine Prod.ext ?_ rfl
    refine List.ext_getElem (by simp [h1.1]) fun x hx1 hx2 => ?_
    have := h2 x (by simpa using hx2)
    rw [List.getD_eq_getElem?_getD, List.getElem?_eq_getElem hx1] at this
    simpa using this

/-- What `derivatives` computes once the spans are known. -/
theorem surfaceDerivatives_of_span (norm : List K → K) {s : Surface K} (hs : SurfaceOk s) {u v : K}
    {m k : ℕ} (hu : 0 ≤ u ∧ u ≤ 1) (hv : 0 ≤ v ∧ v ≤ 1)
    (hm : findSpan s.numU s.degreeU u s.kvU = .ok (m : ℤ)) (hm1 : s.degreeU ≤ m) (hm2 : m < s.numU)
    (hm3 : knotFn s.kvU m < knotFn s.kvU (m + 1))
    (hk : findSpan s.numV s.degreeV v s.kvV = .ok (k : ℤ)) (hk1 : s.degreeV ≤ k) (hk2 : k < s.numV)
    (hk3 : knotFn s.kvV k < knotFn s.kvV (k + 1)) (orderU orderV : ℕ) (normalize : Bool) :
    s.derivatives norm u v orderU orderV normalize
      = .ok ((List.range ((min orderU s.degreeU + 1) * (min orderV s.degreeV + 1))).map fun t =>
        scaledRow norm normalize (t == 0) ((List.range 3).map fun c =>
      ∑ i ∈ Finset.range (s.degreeU + 1), ∑ j ∈ Finset.range (s.degreeV + 1),
        (deriv (t / (min orderV s.degreeV + 1))
            (piece (knotFn s.kvU) m s.degreeU (m - s.degreeU + i))).eval u
          * coord s.ctrlpts c ((m - s.degreeU + i) * s.numV + (k - s.degreeV + j))
          * (deriv (t % (min orderV s.degreeV + 1))
            (piece (knotFn s.kvV) k s.degreeV (k - s.degreeV + j))).eval v)) := by
  have l1 := hs.ku.len
  have l2 := hs.kv.len
  unfold Surface.derivatives
  dsimp only
  rw [if_neg (by rw [(validateKnot_iff u).2 hu]; simp),
    if_neg (by rw [(validateKnot_iff v).2 hv]; simp), hm, ok_bind, hk, ok_bind,
    basis_function_ders_derivatives hs.ku.mono u hm1 (by omega) hm3, ok_bind,
    basis_function_ders_derivatives hs.kv.mono v hk1 (by omega) hk3, ok_bind,
    column_all hs.shape 0 0 rfl (by omega), ok_bind, column_all hs.shape 1 1 rfl (by omega), ok_bind,
    column_all hs.shape 2 2 rfl (by omega), ok_bind,
    reshape2_map_range, ok_bind, reshape2_map_range, ok_bind, reshape2_map_range, ok_bind]
  have hsl : ∀ c, slice2 ((List.range s.numU).map fun i => (List.range s.numV).map fun j =>
        coord s.ctrlpts c (i * s.numV + j)) ((m : ℤ) - s.degreeU) ((m : ℤ) + 1)
        ((k : ℤ) - s.degreeV) ((k : ℤ) + 1)
      = (List.range (s.degreeU + 1)).map fun i => (List.range (s.degreeV + 1)).map fun j =>
        coord s.ctrlpts c ((m - s.degreeU + i) * s.numV + (k - s.degreeV + j)) := fun c =>
    slice2_map_range (fun i j => coord s.ctrlpts c (i * s.numV + j)) (by omega) (by omega)
      (by omega) (by omega) (by omega) (by omega)
  rw [hsl, hsl, hsl]
  rw [double_loop (min orderU s.degreeU + 1) (min orderV s.degreeV + 1) (fun t =>
        scaledRow norm normalize (t == 0) ((List.range 3).map fun c =>
      ∑ i ∈ Finset.range (s.degreeU + 1), ∑ j ∈ Finset.range (s.degreeV + 1),
        (deriv (t / (min orderV s.degreeV + 1))
            (piece (knotFn s.kvU) m s.degreeU (m - s.degreeU + i))).eval u
          * coord s.ctrlpts c ((m - s.degreeU + i) * s.numV + (k - s.degreeV + j))
          * (deriv (t % (min orderV s.degreeV + 1))
            (piece (knotFn s.kvV) k s.degreeV (k - s.degreeV + j))).eval v)) ?_ _ ?_, ok_bind]
  · intro t
    unfold scaledRow
    split <;> simp
  · intro a b d ha hb hd
    have hlt : a * (min orderV s.degreeV + 1) + b
        < (min orderU s.degreeU + 1) * (min orderV s.degreeV + 1) := by
      have := Nat.mul_le_mul_right (min orderV s.degreeV + 1) (Nat.succ_le_of_lt ha)
      rw [Nat.succ_mul] at this
      omega
    have hdiv : (a * (min orderV s.degreeV + 1) + b) / (min orderV s.degreeV + 1) = a := by
      rw [Nat.mul_comm, Nat.mul_add_div (by omega), Nat.div_eq_of_lt hb, Nat.add_zero]
    have hmod : (a * (min orderV s.degreeV + 1) + b) % (min orderV s.degreeV + 1) = b := by
      rw [Nat.mul_comm, Nat.mul_add_mod, Nat.mod_eq_of_lt hb]
    dsimp only
    rw [column_map_range2 _ _ rfl ha, ok_bind, column_map_range2 _ _ rfl hb, ok_bind,
      bilinear_map_range _ _ _ _ _ (by omega), ok_bind, bilinear_map_range _ _ _ _ _ (by omega),
      ok_bind, bilinear_map_range _ _ _ _ _ (by omega), ok_bind, normalizeRow_eq, ok_bind, hdiv, hmod,
      assignRow_eq hd _ _ _ rfl hlt, ok_bind]
    · rfl
    · unfold scaledRow; split <;> simp

end PySpline
