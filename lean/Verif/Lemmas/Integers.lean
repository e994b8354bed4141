import Verif.Model.Integers
import Verif.Lemmas.InsertionEnd
import Verif.Lemmas.Parameterize

/-!
# Allocations with integer sizes, and `curve_knot_insertion` with `num_inserts = -1`
-/

set_option linter.unusedSectionVars false

namespace PySpline

open Spec

variable {K : Type} [Field K] [LinearOrder K] [IsStrictOrderedRing K]

theorem zerosZ_nat {n : ℤ} (m : ℕ) (h : n = m) : (zerosZ n : Py (List K)) = .ok (zeros m) := by
  subst h; simp [zerosZ]

theorem onesZ_nat {n : ℤ} (m : ℕ) (h : n = m) : (onesZ n : Py (List K)) = .ok (ones m) := by
  subst h; simp [onesZ]

theorem zeros2Z_nat {a b : ℤ} (n m : ℕ) (h : a = n) (h' : b = m) :
    (zeros2Z a b : Py (List (List K))) = .ok (zeros2 n m) := by
  subst h h'; simp [zeros2Z]

theorem ones2Z_nat {a b : ℤ} (n m : ℕ) (h : a = n) (h' : b = m) :
    (ones2Z a b : Py (List (List K))) = .ok (ones2 n m) := by
  subst h h'; simp [ones2Z]

theorem tdiv_two (a b : ℕ) : ((a : ℤ) + b).tdiv 2 = ((a + b) / 2 : ℕ) := by
  rw [Int.tdiv_eq_ediv_of_nonneg (by omega)]; omega

theorem findSpanLoopZ_nat {α : Type} [LinearOrder α] (u : α) (U : List α) (f : ℕ) :
    ∀ low high mid : ℕ, findSpanLoopZ u U f low high mid = findSpanLoop u U f low high mid := by
  induction f with
  | zero => intros; rfl
  | succ f ih =>
    intro low high mid
    unfold findSpanLoopZ findSpanLoop
    simp only [tdiv_two, ih]

theorem findSpanLoopZ_sound (u : K) (U : List K) (f : ℕ) : ∀ low high mid m : ℤ,
    findSpanLoopZ u U f low high mid = .ok m →
    ∃ a b, pyGet U m = .ok a ∧ pyGet U (m + 1) = .ok b ∧ a ≤ u ∧ u ≤ b := by
  induction f with
  | zero => intro low high mid m h; cases h
  | succ f ih =>
    intro low high mid m h
    unfold findSpanLoopZ at h
    cases ha : pyGet U mid with
    | error e => rw [ha] at h; cases h
    | ok a =>
      rw [ha, ok_bind] at h
      split at h
      · exact ih _ _ _ _ h
      · next h1 =>
        cases hb : pyGet U (mid + 1) with
        | error e => rw [hb] at h; cases h
        | ok b =>
          rw [hb, ok_bind] at h
          split at h
          · exact ih _ _ _ _ h
          · next h2 => cases h; exact ⟨a, b, ha, hb, not_lt.1 h1, not_lt.1 h2⟩

theorem pySlice_zero {α : Type} (l : List α) (m : ℕ) (h : m ≤ l.length) :
    pySlice l 0 (m : ℤ) = l.take m := by
  have h0 : ¬ (m : ℤ) < 0 := by omega
  unfold pySlice clipBound
  simp [h, h0]

theorem pySlice_all {α : Type} (l : List α) (m : ℕ) (h : l.length ≤ m) :
    pySlice l 0 (m : ℤ) = l := by
  have h0 : ¬ (m : ℤ) < 0 := by omega
  unfold pySlice clipBound
  simp [h, h0]

theorem assignRow_set {m : List (List K)} {r c : ℕ} (h : Shape m r c) (i : ℤ) (a : ℕ) (v : List K)
    (hi : i = a) (ha : a < r) (hv : v.length = c) :
    assignRow m i v = .ok (m.set a v) ∧ Shape (m.set a v) r c := by
  have ha' : a < m.length := by rw [h.1]; exact ha
  constructor
  · unfold assignRow
    rw [pyGet_nat m i a [] hi ha', ok_bind, if_pos (by rw [hv, h.row ha]), pySet_nat m i a v hi ha']
  · refine ⟨by simp [h.1], fun row hrow => ?_⟩
    rcases List.mem_or_eq_of_mem_set hrow with h1 | h1
    · exact h.2 _ h1
    · rw [h1]; exact hv

/-- A list is determined by its length and its entries. -/
theorem eq_eraseIdx {α : Type} (l m : List α) (d : α) (k : ℕ) (hk : k < l.length)
    (hm : m.length + 1 = l.length) (h1 : ∀ x < k, m.getD x d = l.getD x d)
    (h2 : ∀ x, k ≤ x → x < m.length → m.getD x d = l.getD (x + 1) d) : m = l.eraseIdx k := by
  refine List.ext_getElem (by rw [List.length_eraseIdx, if_pos hk]; omega) fun i hi _ => ?_
  rw [List.getElem_eraseIdx]
  split
  · next h =>
    have := h1 i h
    simpa [List.getD_eq_getElem?_getD, hi, show i < l.length by omega] using this
  · next h =>
    have := h2 i (by omega) hi
    simpa [List.getD_eq_getElem?_getD, hi, show i + 1 < l.length by omega] using this

/-- Lines 217-224 for `num_inserts = -1`. -/
theorem removal_knots {U : List K} {k n p : ℕ} (hl : U.length = n + p + 1)
    (hk : k < n) (hp : 1 ≤ p) :
    (do
      let newKv ← forZ 0 ((k : ℤ) + 1) (zeros (n + p)) fun i kv => do
        let x ← pyGet U i
        pySet kv i x
      forZ ((k : ℤ) + 1) ((n : ℤ) + p + 1) newKv fun i kv => do
        let x ← pyGet U i
        pySet kv (i + -1) x) = .ok (U.eraseIdx k) := by
  apply Returns.eq_ok
  refine Returns.bind (Returns.forZ (fun i kv => kv.length = n + p ∧
    ∀ m : ℕ, (m : ℤ) < i → kv.getD m 0 = U.getD m 0) (by omega) ?_ ?_) ?_
  · exact ⟨by simp [zeros], fun m hm => by omega⟩
  · rintro i kv h1 h2 ⟨l, h⟩
    lift i to ℕ using h1
    rw [pyGet_nat U _ i 0 rfl (by omega), ok_bind, pySet_nat kv _ i _ rfl (by omega)]
    refine Returns.ok ⟨by simpa using l, fun m hm => ?_⟩
    rw [getD_set _ _ _ _ _ (by omega)]
    split
    · next e => rw [e]
    · exact h m (by omega)
  intro kv ⟨l, h⟩
  refine Returns.mono (Returns.forZ (fun i kv => kv.length = n + p ∧
    (∀ m : ℕ, m < k → kv.getD m 0 = U.getD m 0) ∧
    ∀ m : ℕ, k ≤ m → (m : ℤ) + 1 < i → kv.getD m 0 = U.getD (m + 1) 0) (by omega) ?_ ?_) ?_
  · exact ⟨l, fun m hm => h m (by omega), fun m h1 h2 => by omega⟩
  · rintro i kv h1 h2 ⟨l, ha, hb⟩
    lift i to ℕ using (by omega)
    rw [pyGet_nat U _ i 0 rfl (by omega), ok_bind, pySet_nat kv _ (i - 1) _ (by omega) (by omega)]
    refine Returns.ok ⟨by simpa using l, fun m hm => ?_, fun m hm1 hm2 => ?_⟩
    · rw [getD_set _ _ _ _ _ (by omega), if_neg (by omega)]; exact ha m hm
    · rw [getD_set _ _ _ _ _ (by omega)]
      split
      · next e => rw [e, show i - 1 + 1 = i by omega]
      · exact hb m hm1 (by omega)
  rintro kv ⟨l, ha, hb⟩
  exact eq_eraseIdx U kv 0 k (by omega) (by omega) ha fun x h1 h2 => hb x h1 (by omega)

/-- Lines 227-251 for `num_inserts = -1`. -/
theorem removal_rows {P : List (List K)} {k s n p : ℕ} (hP : Shape P n 3) (hpk : p ≤ k) (hk : k < n)
    (hs : s < p) :
    (do
      let newP ← forZ 0 ((k : ℤ) - p + 1) (zeros2 (n - 1) 3) fun i m => do
        let row ← pyGet P i
        assignRow m i row
      let newP ← forZ ((k : ℤ) - s) n newP fun i m => do
        let row ← pyGet P i
        assignRow m (i + -1) row
      let R ← forZ 0 ((p : ℤ) - s + 1) (zeros2 (p + 1) 3) fun i m => do
        let row ← pyGet P ((k : ℤ) - p + i)
        assignRow m i row
      forZ ((k : ℤ) - p + -1 + 1) ((k : ℤ) - s) newP fun i m => do
        let row ← pyGet R (i - ((k : ℤ) - p + -1))
        assignRow m i row) = .ok (P.eraseIdx (k - p)) := by
  have hPl := hP.1
  apply Returns.eq_ok
  refine Returns.bind (Returns.forZ (fun i m => Shape m (n - 1) 3 ∧
    ∀ x : ℕ, (x : ℤ) < i → m.getD x [] = P.getD x []) (by omega) ?_ ?_) ?_
  · exact ⟨shape_replicate _ _ _, fun x hx => by omega⟩
  · rintro i m h1 h2 ⟨sh, h⟩
    lift i to ℕ using h1
    obtain ⟨e, sh'⟩ := assignRow_set sh (i : ℤ) i (P.getD i []) rfl (by omega) (hP.row (by omega))
    rw [pyGet_nat P _ i [] rfl (by omega), ok_bind, e]
    refine Returns.ok ⟨sh', fun x hx => ?_⟩
    rw [getD_set _ _ _ _ _ (by rw [sh.1]; omega)]
    split
    · next e => rw [e]
    · exact h x (by omega)
  rintro m ⟨sh, h⟩
  refine Returns.bind (Returns.forZ (fun i m => Shape m (n - 1) 3 ∧
    (∀ x : ℕ, x < k - p → m.getD x [] = P.getD x []) ∧
    ∀ x : ℕ, k - s ≤ x + 1 → (x : ℤ) + 1 < i → m.getD x [] = P.getD (x + 1) [])
    (by omega) ?_ ?_) ?_
  · exact ⟨sh, fun x hx => h x (by omega), fun x h1 h2 => by omega⟩
  · rintro i m h1 h2 ⟨sh, ha, hb⟩
    lift i to ℕ using (by omega)
    obtain ⟨e, sh'⟩ := assignRow_set sh ((i : ℤ) + -1) (i - 1) (P.getD i []) (by omega) (by omega)
      (hP.row (by omega))
    rw [pyGet_nat P _ i [] rfl (by omega), ok_bind, e]
    refine Returns.ok ⟨sh', fun x hx => ?_, fun x hx1 hx2 => ?_⟩
    · rw [getD_set _ _ _ _ _ (by rw [sh.1]; omega), if_neg (by omega)]; exact ha x hx
    · rw [getD_set _ _ _ _ _ (by rw [sh.1]; omega)]
      split
      · next e => rw [e, show i - 1 + 1 = i by omega]
      · exact hb x hx1 (by omega)
  rintro m ⟨sh, ha, hb⟩
  refine Returns.bind (Returns.forZ (fun i R => Shape R (p + 1) 3 ∧
    ∀ x : ℕ, (x : ℤ) < i → R.getD x [] = P.getD (k - p + x) []) (by omega) ?_ ?_) ?_
  · exact ⟨shape_replicate _ _ _, fun x hx => by omega⟩
  · rintro i R h1 h2 ⟨shR, hR⟩
    lift i to ℕ using h1
    obtain ⟨e, sh'⟩ := assignRow_set shR (i : ℤ) i (P.getD (k - p + i) []) rfl (by omega)
      (hP.row (by omega))
    rw [pyGet_nat P _ (k - p + i) [] (by omega) (by omega), ok_bind, e]
    refine Returns.ok ⟨sh', fun x hx => ?_⟩
    rw [getD_set _ _ _ _ _ (by rw [shR.1]; omega)]
    split
    · next e => rw [e]
    · exact hR x (by omega)
  rintro R ⟨shR, hR⟩
  refine Returns.mono (Returns.forZ (fun i m => Shape m (n - 1) 3 ∧
    (∀ x : ℕ, x < k - p → m.getD x [] = P.getD x []) ∧
    (∀ x : ℕ, k - p ≤ x → (x : ℤ) < i → m.getD x [] = P.getD (x + 1) []) ∧
    ∀ x : ℕ, k - s ≤ x + 1 → x + 1 < n → m.getD x [] = P.getD (x + 1) [])
    (by omega) ?_ ?_) ?_
  · exact ⟨sh, ha, fun x h1 h2 => by omega, fun x h1 h2 => hb x h1 (by omega)⟩
  · rintro i m h1 h2 ⟨sh, ha, hb, hc⟩
    lift i to ℕ using (by omega)
    have er : R.getD (i - (k - p) + 1) [] = P.getD (i + 1) [] := by
      rw [hR _ (by omega)]; congr 1; omega
    obtain ⟨e, sh'⟩ := assignRow_set sh (i : ℤ) i (P.getD (i + 1) []) rfl (by omega)
      (hP.row (by omega))
    rw [pyGet_nat R _ (i - (k - p) + 1) [] (by omega) (by rw [shR.1]; omega), ok_bind, er, e]
    refine Returns.ok ⟨sh', fun x hx => ?_, fun x hx1 hx2 => ?_, fun x hx1 hx2 => ?_⟩
    · rw [getD_set _ _ _ _ _ (by rw [sh.1]; omega), if_neg (by omega)]; exact ha x hx
    · rw [getD_set _ _ _ _ _ (by rw [sh.1]; omega)]
      split
      · next e => rw [e]
      · exact hb x hx1 (by omega)
    · rw [getD_set _ _ _ _ _ (by rw [sh.1]; omega)]
      split
      · next e => rw [e]
      · exact hc x hx1 hx2
  rintro m ⟨sh, ha, hb, hc⟩
  refine eq_eraseIdx P m [] (k - p) (by omega) (by rw [sh.1]; omega) ha fun x h1 h2 => ?_
  rw [sh.1] at h2
  by_cases h : k - s ≤ x + 1
  · exact hc x h (by omega)
  · exact hb x h1 (by omega)

theorem pyGet_wrap {α : Type} (l : List α) (a : ℤ) (b : ℕ) (h : (l.length : ℤ) + a = b) (ha : a < 0) :
    pyGet l a = pyGet l (b : ℤ) := by
  have e : pyIdx l.length a = pyIdx l.length (b : ℤ) := by
    unfold pyIdx
    have h1 : ¬ (0 ≤ a) := by omega
    simp only [← h]
    split_ifs <;> first | rfl | omega | (congr 2; omega)
  unfold pyGet
  rw [e]

theorem bind_congr_right {α β : Type} {x : Py α} {f g : α → Py β} (h : ∀ a, f a = g a) :
    (x >>= f) = (x >>= g) := by
  cases x with
  | error e => rfl
  | ok a => exact h a

theorem bind_congr_both {α β : Type} {x y : Py α} {f g : α → Py β} (h' : x = y)
    (h : ∀ a, f a = g a) : (x >>= f) = (y >>= g) := by
  rw [h', bind_congr_right h]

/-- The table of `one_basis_function_ders` for an index counted from the end. -/
theorem oneBasisTableZ_wrap {p : ℕ} {U : List K} {i : ℤ} {m : ℕ} (u : K)
    (hm : (U.length : ℤ) + i = m) (hi : i + p + 1 < 0) :
    oneBasisTableZ p U i u = oneBasisTable p U m u := by
  unfold oneBasisTableZ oneBasisTable
  dsimp only
  refine bind_congr_both (forN_congr fun j N h1 h2 => ?_) fun N =>
    forN_congr fun k N h1 h2 => ?_
  · rw [pyGet_wrap U (i + j) (m + j) (by push_cast; omega) (by omega),
      pyGet_wrap U (i + j + 1) (m + j + 1) (by push_cast; omega) (by omega)]
    norm_cast
  rw [pyGet_wrap U i m hm (by omega), pyGet_wrap U (i + k) (m + k) (by push_cast; omega) (by omega)]
  push_cast
  refine bind_congr_right fun n0 => bind_congr_right fun saved => ?_
  congr 1
  refine forN_congr fun j st h3 h4 => ?_
  rw [pyGet_wrap U (i + j + 1) (m + j + 1) (by push_cast; omega) (by omega),
    pyGet_wrap U (i + j + k + 1) (m + j + k + 1) (by push_cast; omega) (by omega)]
  norm_cast

theorem oneBasisFunctionDersZ_wrap {p : ℕ} {U : List K} {i : ℤ} {m order : ℕ} (u : K)
    (hm : (U.length : ℤ) + i = m) (hi : i + p + 1 < 0) (ho : order ≤ p) :
    oneBasisFunctionDersZ p U i u order = oneBasisFunctionDers p U m u order := by
  unfold oneBasisFunctionDersZ oneBasisFunctionDers
  rw [zerosZ_nat (order + 1) (by push_cast; ring), ok_bind, pyGet_wrap U i m hm (by omega),
    pyGet_wrap U (i + p + 1) (m + p + 1) (by push_cast; omega) (by omega),
    oneBasisTableZ_wrap u hm hi]
  dsimp only
  push_cast
  simp only [show ((order : ℤ) + 1).toNat = order + 1 by omega]
  refine bind_congr_right fun lo => ?_
  split
  · rfl
  refine bind_congr_right fun hi' => ?_
  split
  · rfl
  refine bind_congr_right fun N => bind_congr_right fun v => bind_congr_right fun ders => ?_
  congr 1
  refine forN_congr fun k st h1 h2 => ?_
  refine bind_congr_right fun ND => ?_
  congr 1
  refine forN_congr fun jj ND h3 h4 => ?_
  rw [pyGet_wrap U (i + p - k + jj) (m + p - k + jj) (by omega) (by omega)]
  rw [show ((m + p - k + jj : ℕ) : ℤ) = (m : ℤ) + p - k + jj by omega]
  refine bind_congr_right fun n0 => bind_congr_right fun saved => ?_
  congr 1
  refine forN_congr fun j st h5 h6 => ?_
  rw [pyGet_wrap U (i + j + 1) (m + j + 1) (by push_cast; omega) (by omega),
    pyGet_wrap U (i + j + p - k + jj + 1) (m + j + p - k + jj + 1) (by omega) (by omega),
    show ((m + j + p - k + jj + 1 : ℕ) : ℤ) = (m : ℤ) + j + p - k + jj + 1 by omega]
  norm_cast

end PySpline
