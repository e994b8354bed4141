import Verif.Model.IeeeSurfaceFit
import Verif.Lemmas.IeeeGuarded
import Verif.Lemmas.RoundedSurfaceFit

/-!
# The initial surface and `fit_surface` in IEEE arithmetic: auxiliary facts
-/

set_option linter.unusedSectionVars false
set_option exponentiation.threshold 1100

namespace PySpline

open Spec Ext Finset

/-! ## The net of control points -/

/-- Two nested loops that fill the rows of an array one after another. -/
theorem double_loop_fill {α : Type} (A B : ℕ) {w : ℕ} (d0 : α) (R : ℕ → List α) (hR : ∀ t, (R t).length = w)
    (body : ℕ → ℕ → List (List α) × ℕ → Py (List (List α) × ℕ))
    (hbody : ∀ a b d, a < A → b < B → Shape d (A * B) w →
      body a b (d, a * B + b) = .ok (d.set (a * B + b) (R (a * B + b)), a * B + b + 1)) :
    (forN 0 A (List.replicate (A * B) (List.replicate w d0), 0) fun a st => forN 0 B st fun b st => body a b st)
      = .ok ((List.range (A * B)).map R, A * B) := by
  apply Returns.eq_ok
  have step : ∀ (d : List (List α)) (t : ℕ), t < A * B →
      (Shape d (A * B) w ∧ ∀ x < t, d.getD x [] = R x) →
      (Shape (d.set t (R t)) (A * B) w ∧ ∀ x < t + 1, (d.set t (R t)).getD x [] = R x) := by
    rintro d t ht ⟨h1, h2⟩
    refine ⟨⟨by rw [List.length_set]; exact h1.1, fun row hrow => ?_⟩, fun x hx => ?_⟩
    · rcases List.mem_or_eq_of_mem_set hrow with h | h
      · exact h1.2 row h
      · rw [h, hR]
    rw [getD_set _ _ _ _ _ (by rw [h1.1]; exact ht)]
    by_cases hxt : x = t
    · rw [if_pos hxt, hxt]
    · rw [if_neg hxt]; exact h2 x (by omega)
  refine Returns.mono (Returns.forN (fun a (st : List (List α) × ℕ) => st.2 = a * B ∧
    Shape st.1 (A * B) w ∧ ∀ x < st.2, st.1.getD x [] = R x) (by omega) ?_ ?_) ?_
  · refine ⟨by simp, shape_replicate _ _ _, fun x hx => ?_⟩
    simp at hx
  · rintro a ⟨d, idx⟩ - ha ⟨hidx, h⟩
    refine Returns.mono (Returns.forN (fun b (st : List (List α) × ℕ) => st.2 = a * B + b ∧
      Shape st.1 (A * B) w ∧ ∀ x < st.2, st.1.getD x [] = R x) (by omega) ?_ ?_) ?_
    · exact ⟨by simpa using hidx, h⟩
    · rintro b ⟨d, idx⟩ - hb ⟨hidx, h⟩
      simp only at hidx
      subst hidx
      rw [hbody a b d ha hb h.1]
      refine Returns.ok ⟨by omega, ?_⟩
      exact step d _ (index_lt ha hb) h
    · rintro ⟨d, idx⟩ ⟨hidx, h⟩
      refine ⟨?_, h⟩
      rw [hidx, Nat.add_mul]; simp
  · rintro ⟨d, idx⟩ ⟨hidx, h1, h2⟩
    simp only at hidx
    subst hidx
    refine Prod.ext ?_ rfl
    refine List.ext_getElem (by simp [h1.1]) fun x hx1 hx2 => ?_
    have := h2 x (by simpa using hx2)
    rw [List.getD_eq_getElem?_getD, List.getElem?_eq_getElem hx1] at this
    simpa using this

section
variable {K : Type} [Field K] [LinearOrder K] [IsStrictOrderedRing K]

/-- One coordinate of control point `j` between a bottom and a top control point. -/
def ruledR (rd : K → Ext K) (b t : Ext K) (m j : ℕ) : Ext K :=
  rnd rd (b + rnd rd (rd ((j : K) / ((m : K) - 1)) * rnd rd (t - b)))

/-- Row `i * m + j` of the net. -/
def ruledRowR (rd : K → Ext K) (top bottom : List (List (Ext K))) (m x : ℕ) : List (Ext K) :=
  (List.range 3).map fun k => ruledR rd (at2 bottom (x / m) k 0) (at2 top (x / m) k 0) m (x % m)

theorem row_eq_threeE {row : List (Ext K)} (h : row.length = 3) : row = [row.getD 0 0, row.getD 1 0, row.getD 2 0] := by
  match row, h with
  | [a, b, c], _ => rfl

theorem ruledNetR_eq (rd : K → Ext K) {top bottom : List (List (Ext K))} {n m : ℕ} (ht : Shape top n 3)
    (hb : Shape bottom n 3) (hm : 2 ≤ m) :
    ruledNetR rd top bottom n m = .ok ((List.range (n * m)).map (ruledRowR rd top bottom m)) := by
  have hm1 : (m : K) - 1 ≠ 0 := by
    have : (2 : K) ≤ m := by exact_mod_cast hm
    intro h
    linarith
  have key := double_loop_fill n m (w := 3) (0 : Ext K) (ruledRowR rd top bottom m) (fun t => by simp [ruledRowR])
    (fun upt vpt (st : List (List (Ext K)) × ℕ) => do
      let b ← pyGet bottom (upt : ℤ)
      let f ← pyDiv (vpt : K) ((m : K) - 1)
      let row ← vaddE b (((List.zipWith (· - ·) (top.getD upt []) (bottom.getD upt [])).map (rnd rd)).map
        fun x => rnd rd (rd f * x))
      let _ ← (if (row.map (rnd rd)).length = 3 then .ok () else .error .valueError : Py Unit)
      let net ← pySet st.1 (st.2 : ℤ) (row.map (rnd rd))
      .ok (net, st.2 + 1)) (by
    intro i j d hi hj hd
    have lb := hb.row hi
    have lt := ht.row hi
    dsimp only
    rw [pyGet_nat bottom _ i [] rfl (by rw [hb.1]; exact hi), ok_bind, pyDiv_ok hm1, ok_bind]
    unfold vaddE
    rw [if_pos (by simp only [List.length_map, List.length_zipWith, lb, lt, min_self]), ok_bind, if_pos (by simp only [List.length_map, List.length_zipWith, lb, lt, min_self]), ok_bind,
      pySet_nat d _ (i * m + j) _ rfl (by rw [hd.1]; exact index_lt hi hj), ok_bind]
    have e1 : (i * m + j) / m = i := by
      rw [Nat.mul_comm, Nat.mul_add_div (by omega), Nat.div_eq_of_lt hj, Nat.add_zero]
    have e2 : (i * m + j) % m = j := by
      rw [Nat.mul_comm, Nat.mul_add_mod, Nat.mod_eq_of_lt hj]
    have : ruledRowR rd top bottom m (i * m + j) = (List.zipWith (· + ·) (bottom.getD i [])
        (((List.zipWith (· - ·) (top.getD i []) (bottom.getD i [])).map (rnd rd)).map
          fun x => rnd rd (rd ((j : K) / ((m : K) - 1)) * x))).map (rnd rd) := by
      unfold ruledRowR ruledR at2
      rw [e1, e2, row_eq_threeE lb, row_eq_threeE lt]
      rfl
    rw [this])
  unfold ruledNetR zeros2E
  dsimp only
  rw [forN_congr (g := fun upt st => forN 0 m st fun vpt (st : List (List (Ext K)) × ℕ) => do
      let b ← pyGet bottom (upt : ℤ)
      let f ← pyDiv (vpt : K) ((m : K) - 1)
      let row ← vaddE b (((List.zipWith (· - ·) (top.getD upt []) (bottom.getD upt [])).map (rnd rd)).map
        fun x => rnd rd (rd f * x))
      let _ ← (if (row.map (rnd rd)).length = 3 then .ok () else .error .valueError : Py Unit)
      let net ← pySet st.1 (st.2 : ℤ) (row.map (rnd rd))
      .ok (net, st.2 + 1)), key, ok_bind]
  intro i s _ hi
  rw [pyGet_nat top _ i [] rfl (by rw [ht.1]; exact hi), ok_bind,
    pyGet_nat bottom _ i [] rfl (by rw [hb.1]; exact hi), ok_bind]
  have : vsubE (top.getD i []) (bottom.getD i [])
      = .ok (List.zipWith (· - ·) (top.getD i []) (bottom.getD i [])) := by
    unfold vsubE
    rw [if_pos (by rw [ht.row hi, hb.row hi])]
  rw [this, ok_bind]

/-! ## The guarded solver -/

theorem singleFitSurfaceR_guarded {rd : K → Ext K} {X : K} (e : Err)
    {ls : ℕ → List (List (Ext K)) → List (Ext K) → Py (List (Ext K))} {s : Surface (Ext K)} {data : List (List (Ext K))}
    {r : Py (Surface (Ext K))} (h : SingleFitSurfaceR rd ls s data r) :
    SingleFitSurfaceR rd (guarded rd X e ls) s data r ∨ SingleFitSurfaceR rd (guarded rd X e ls) s data (.error e) := by
  rcases h with h | ⟨N, check, h1, h2, rfl⟩
  · exact Or.inl (Or.inl h)
  have key : (do
      let _ ← check
      let fixed ← surfaceMask s.numU s.numV s.ctrlpts.length
      let new ← fitColumnsR rd (guarded rd X e ls) N data s.ctrlpts fixed
      .ok { s with ctrlpts := new }) = (do
      let _ ← check
      let fixed ← surfaceMask s.numU s.numV s.ctrlpts.length
      let new ← fitColumnsR rd ls N data s.ctrlpts fixed
      .ok { s with ctrlpts := new }) ∨ ∃ e', e' = e ∧ (do
      let _ ← check
      let fixed ← surfaceMask s.numU s.numV s.ctrlpts.length
      let new ← fitColumnsR rd (guarded rd X e ls) N data s.ctrlpts fixed
      (.ok { s with ctrlpts := new } : Py (Surface (Ext K)))) = .error e' := by
    refine alt_bind (E := (· = e)) _ fun _ => alt_bind (E := (· = e)) _ fun fixed => ?_
    exact alt_bind_left _ (fitColumnsR_guarded rd X e ls N data s.ctrlpts fixed) fun _ => Or.inl rfl
  rcases key with k | ⟨e', rfl, k⟩
  · exact Or.inl (Or.inr ⟨N, check, h1, h2, k.symm⟩)
  · exact Or.inr (Or.inr ⟨N, check, h1, h2, k.symm⟩)

theorem fitSurfaceR_guarded {rd : K → Ext K} {X : K} (e : Err)
    {ls : ℕ → List (List (Ext K)) → List (Ext K) → Py (List (Ext K))} {inv : List (Ext K) → Py (Ext K × Ext K)}
    {s : Surface (Ext K)} {data top bottom : List (List (Ext K))} {r : Py (Surface (Ext K))}
    (h : FitSurfaceR rd ls inv s data top bottom r) :
    FitSurfaceR rd (guarded rd X e ls) inv s data top bottom r ∨
      FitSurfaceR rd (guarded rd X e ls) inv s data top bottom (.error e) := by
  unfold FitSurfaceR at h ⊢
  cases hp : parameterizeSurfaceWithE inv data with
  | error e' => rw [hp] at h; exact Or.inl h
  | ok rows =>
    rw [hp] at h
    dsimp only at h ⊢
    split at h
    · rename_i hc
      simp only [if_pos hc]
      exact Or.inl h
    · rename_i hc
      simp only [if_neg hc]
      exact singleFitSurfaceR_guarded e h

theorem Spec.TameSolver.mono {rd : K → Ext K} {M X : K} {C D : Err → Prop}
    {ls : ℕ → List (List (Ext K)) → List (Ext K) → Py (List (Ext K))} (h : TameSolver rd M X C ls) (hCD : ∀ e, C e → D e) :
    TameSolver rd M X D ls := fun n A b h1 h2 h3 h4 =>
  (h n A b h1 h2 h3 h4).imp (fun ⟨e, he, h⟩ => ⟨e, hCD e he, h⟩) id

end

/-! ## Double precision -/

/-- A control point of the initial surface in double precision. -/
theorem ruledR_bin64 {b t M : ℚ} {j m : ℕ} (hb : |b| ≤ M) (ht : |t| ≤ M) (hM0 : 1 / 2 ^ 1000 ≤ M) (hM1 : M ≤ 2 ^ 1019)
    (hj : j < m) (hm : 2 ≤ m) :
    ∃ w, ruledR bin64 (fin b) (fin t) m j = fin w ∧ bin64 w = fin w ∧
      |w - (b + (j : ℚ) / ((m : ℚ) - 1) * (t - b))| ≤ M / 2 ^ 47 ∧ (j = 0 → bin64 b = fin b → w = b) ∧
      (t = b → bin64 b = fin b → w = b) := by
  have hjK : (j : ℚ) + 1 ≤ m := by exact_mod_cast hj
  have hmK : (2 : ℚ) ≤ m := by exact_mod_cast hm
  have hj0 : (0 : ℚ) ≤ j := Nat.cast_nonneg j
  have hn : (0 : ℚ) < (m : ℚ) - 1 := by linarith
  have hM : 0 < M := lt_of_lt_of_le (by positivity) hM0
  obtain ⟨r, hr⟩ : ∃ r : ℚ, r = (j : ℚ) / ((m : ℚ) - 1) := ⟨_, rfl⟩
  have hr0 : 0 ≤ r := by rw [hr]; positivity
  have hr1 : r ≤ 1 := by rw [hr, div_le_one hn]; linarith
  obtain ⟨d, hd⟩ : ∃ d : ℚ, d = t - b := ⟨_, rfl⟩
  have hdM : |d| ≤ 2 * M := by
    rw [hd, sub_eq_add_neg]
    refine (abs_add_le _ _).trans ?_
    rw [abs_neg]; linarith
  have hbig : ∀ x : ℚ, |x| ≤ 16 * M → bin64 x = fin (fl64s x) := fun x hx => by
    refine bin64_abs_le (hx.trans ?_)
    calc 16 * M ≤ 2 ^ 4 * 2 ^ 1019 := by linarith
      _ = 2 ^ 1023 := by rw [← pow_add]
  have htau : (1 : ℚ) / 2 ^ 1074 ≤ 1 / 2 ^ 52 * (M / 2 ^ 22) := by
    have e : (2 : ℚ) ^ 1074 = 2 ^ 52 * (2 ^ 1000 * 2 ^ 22) := by rw [← pow_add, ← pow_add]
    have : (1 : ℚ) / 2 ^ 1074 = 1 / 2 ^ 52 * (1 / 2 ^ 1000 / 2 ^ 22) := by
      rw [e, ← one_div_mul_one_div, ← one_div_mul_one_div, div_eq_mul_one_div (1 / 2 ^ 1000 : ℚ)]
    rw [this]
    exact mul_le_mul_of_nonneg_left (div_le_div_of_nonneg_right hM0 (by positivity)) (by positivity)
  have htau1 : (1 : ℚ) / 2 ^ 1074 ≤ 1 / 2 ^ 52 :=
    one_div_le_one_div_of_le (by positivity) (pow_le_pow_right₀ (by norm_num) (by norm_num))
  have hbr : bin64 r = fin (fl64s r) := bin64_le hr0 (hr1.trans (one_le_pow₀ (by norm_num)))
  have acc0 := fl64s_error
  have idem := fl64s_idem
  have zero := fl64s_zero
  have fb : bin64 b = fin b → fl64s b = b := fun h => (bin64_eq_fin h).1.symm
  unfold ruledR
  rw [← hr, ← hd]
  generalize fl64s = f at hbig acc0 idem zero fb hbr
  generalize (1 : ℚ) / 2 ^ 1074 = τ at htau htau1 acc0
  obtain ⟨v, hv⟩ : ∃ v : ℚ, v = 1 / 2 ^ 52 := ⟨_, rfl⟩
  rw [← hv] at htau htau1 acc0
  have hv0 : 0 ≤ v := by rw [hv]; positivity
  have acc : ∀ x, |f x - x| ≤ v * (|x| + M / 2 ^ 22) := fun x => (acc0 x).trans (by rw [mul_add]; linarith)
  have size : ∀ x y e : ℚ, |x - y| ≤ e → |x| ≤ |y| + e := fun x y e h => by
    have := abs_add_le (x - y) y
    rw [sub_add_cancel] at this
    linarith
  have brd : |r * d| ≤ 2 * M := by
    rw [abs_mul, abs_of_nonneg hr0]
    exact (mul_le_mul hr1 hdM (abs_nonneg _) zero_le_one).trans (by rw [one_mul])
  have bx : |b + r * d| ≤ M := by
    have h : b + r * d = (1 - r) * b + r * t := by rw [hd]; ring
    rw [abs_le] at hb ht ⊢
    have q1 := mul_le_mul_of_nonneg_left hb.1 (sub_nonneg.2 hr1)
    have q2 := mul_le_mul_of_nonneg_left hb.2 (sub_nonneg.2 hr1)
    have q3 := mul_le_mul_of_nonneg_left ht.1 hr0
    have q4 := mul_le_mul_of_nonneg_left ht.2 hr0
    rw [h]
    constructor <;> linarith
  -- the difference
  have E1 : rnd bin64 (fin t - fin b) = fin (f d) := by
    rw [fin_sub, ← hd]
    exact hbig d (by linarith)
  have e1 := acc d
  obtain ⟨x1, hx1⟩ : ∃ x1, x1 = f d := ⟨_, rfl⟩
  rw [← hx1] at e1 E1
  have e1' : |x1 - d| ≤ 3 * v * M := e1.trans (by
    have : |d| + M / 2 ^ 22 ≤ 3 * M := by norm_num; linarith
    linarith [mul_le_mul_of_nonneg_left this hv0])
  have hvM : v * M ≤ M / 1024 := by rw [hv]; norm_num; linarith
  have b1 : |x1| ≤ 3 * M := (size x1 d _ e1').trans (by linarith)
  have e1r : |r * x1 - r * d| ≤ 3 * v * M := by
    rw [← mul_sub, abs_mul, abs_of_nonneg hr0]
    exact (mul_le_mul hr1 e1' (abs_nonneg _) zero_le_one).trans (by rw [one_mul])
  -- the quotient
  have hq : |f r - r| ≤ 2 * v := (acc0 r).trans (by
    rw [abs_of_nonneg hr0]
    have := mul_le_mul_of_nonneg_left hr1 hv0
    linarith)
  obtain ⟨y, hy⟩ : ∃ y, y = f r * x1 := ⟨_, rfl⟩
  have hy1 : |y - r * x1| ≤ 6 * v * M := by
    rw [hy, ← sub_mul, abs_mul]
    calc |f r - r| * |x1| ≤ 2 * v * (3 * M) := mul_le_mul hq b1 (abs_nonneg _) (by positivity)
      _ = 6 * v * M := by ring
  have hyd : |y - r * d| ≤ 9 * v * M := by
    have := abs_add_le (y - r * x1) (r * x1 - r * d)
    rw [sub_add_sub_cancel] at this
    linarith
  have by' : |y| ≤ 3 * M := (size _ _ _ hyd).trans (by linarith)
  have e3 : |f y - y| ≤ 4 * v * M := (acc y).trans (by
    have : |y| + M / 2 ^ 22 ≤ 4 * M := by norm_num; linarith
    linarith [mul_le_mul_of_nonneg_left this hv0])
  have e4 : |b + f y - (b + r * d)| ≤ 13 * v * M := by
    have := abs_add_le (f y - y) (y - r * d)
    rw [sub_add_sub_cancel] at this
    rw [show b + f y - (b + r * d) = f y - r * d by ring]
    linarith
  have b4 : |b + f y| ≤ 2 * M := (size _ _ _ e4).trans (by linarith)
  have e5 : |f (b + f y) - (b + f y)| ≤ 3 * v * M := (acc _).trans (by
    have : |b + f y| + M / 2 ^ 22 ≤ 3 * M := by norm_num; linarith
    linarith [mul_le_mul_of_nonneg_left this hv0])
  have e6 : |f (b + f y) - (b + r * d)| ≤ 16 * v * M := by
    have := abs_add_le (f (b + f y) - (b + f y)) (b + f y - (b + r * d))
    rw [sub_add_sub_cancel] at this
    linarith
  have b6 : |f (b + f y)| ≤ 2 * M := (size _ _ _ e6).trans (by linarith)
  refine ⟨f (b + f y), ?_, ?_, e6.trans ?_, ?_, ?_⟩
  · rw [E1, hbr, fin_mul, ← hy, show rnd bin64 (fin y) = fin (f y) from hbig y (by linarith), fin_add]
    exact hbig _ (by linarith)
  · rw [hbig _ (by linarith), idem]
  · rw [hv]; norm_num; linarith
  · rintro rfl h
    rw [hy, show r = 0 by rw [hr]; simp, zero, zero_mul, zero, add_zero, fb h]
  · intro he h
    rw [hy, hx1, show d = 0 by rw [hd, he, sub_self], zero, mul_zero, zero, add_zero, fb h]

/-- The rows that the fit is given. -/
theorem parameterizeSurfaceWithE_finite {E : Err → Prop} {B : ℚ} {inv : List (Ext ℚ) → Py (Ext ℚ × Ext ℚ)}
    {data : List (List ℚ)} (h3 : ∀ pt ∈ data, pt.length = 3) (hdata : ∀ pt ∈ data, ∀ x ∈ pt, bin64 x = fin x ∧ |x| ≤ B)
    (hinv : ∀ pt ∈ data, (∃ e, E e ∧ inv (lift1 pt) = .error e) ∨
      ∃ u v, inv (lift1 pt) = .ok (fin u, fin v) ∧ (bin64 u = fin u ∧ 0 ≤ u ∧ u ≤ 1) ∧ bin64 v = fin v ∧ 0 ≤ v ∧ v ≤ 1) :
    (∃ e, E e ∧ parameterizeSurfaceWithE inv (lift2 data) = .error e) ∨
    ∃ rows, parameterizeSurfaceWithE inv (lift2 data) = .ok (lift2 rows) ∧ Shape rows data.length 5 ∧
      (∀ r < data.length, (0 ≤ at2 rows r 3 0 ∧ at2 rows r 3 0 ≤ 1) ∧ 0 ≤ at2 rows r 4 0 ∧ at2 rows r 4 0 ≤ 1) ∧
      (∀ k < 5, ∀ r < data.length, bin64 (at2 rows r k 0) = fin (at2 rows r k 0)) ∧
      ∀ k < 3, ∀ r < data.length, |at2 rows r k 0| ≤ B := by
  unfold parameterizeSurfaceWithE
  rcases mapPy_cases (E := E) (fun point => do
      let (u, v) ← inv point
      .ok (point ++ [u, v])) (lift2 data) (fun pt' hpt' => by
        obtain ⟨pt, hpt, rfl⟩ := List.mem_map.1 hpt'
        rcases hinv pt hpt with ⟨e, he, h⟩ | ⟨u, v, h, -⟩
        · exact Or.inl ⟨e, he, by rw [show inv (List.map fin pt) = _ from h]; rfl⟩
        · exact Or.inr ⟨_, by rw [show inv (List.map fin pt) = _ from h]; rfl⟩) with ⟨e, he, h⟩ | hall
  · exact Or.inl ⟨e, he, by rw [h]; rfl⟩
  right
  have hok : ∀ pt ∈ data, ∃ u v, inv (lift1 pt) = .ok (fin u, fin v) ∧ (bin64 u = fin u ∧ 0 ≤ u ∧ u ≤ 1) ∧
      bin64 v = fin v ∧ 0 ≤ v ∧ v ≤ 1 := by
    intro pt hpt
    rcases hinv pt hpt with ⟨e, he, h⟩ | h
    · obtain ⟨y, hy⟩ := hall (lift1 pt) (List.mem_map.2 ⟨pt, hpt, rfl⟩)
      rw [h] at hy
      cases hy
    · exact h
  choose! g g' hg using hok
  have hm : mapPy (fun point => do
      let (u, v) ← inv point
      .ok (point ++ [u, v])) (lift2 data) = .ok (lift2 (data.map fun pt => pt ++ [g pt, g' pt])) := by
    rw [mapPy_eq_ok _ (fun pt' : List (Ext ℚ) => pt' ++ [fin (g (pt'.map Ext.val)), fin (g' (pt'.map Ext.val))]) _
      fun pt' hpt' => by
        obtain ⟨pt, hpt, rfl⟩ := List.mem_map.1 hpt'
        have ev : (List.map fin pt).map Ext.val = pt := by
          rw [List.map_map]
          exact List.map_id' _
        rw [ev, show inv (List.map fin pt) = _ from (hg pt hpt).1, ok_bind]]
    congr 1
    rw [lift2, List.map_map, List.map_map]
    refine List.map_congr_left fun pt hpt => ?_
    have ev : (List.map fin pt).map Ext.val = pt := by
      rw [List.map_map]
      exact List.map_id' _
    simp only [Function.comp, ev, List.map_append, List.map_cons, List.map_nil]
  have hlen : ∀ row ∈ data.map fun pt => pt ++ [g pt, g' pt], row.length = 5 := by
    intro row hrow
    obtain ⟨pt, hpt, rfl⟩ := List.mem_map.1 hrow
    simp [h3 pt hpt]
  have hperm := npSortRows_perm [3, 4, 0, 1, 2] (data.map fun pt => pt ++ [g pt, g' pt])
  rw [hm, ok_bind, if_pos (List.all_eq_true.2 fun row hrow => by
    obtain ⟨row', hrow', rfl⟩ := List.mem_map.1 hrow
    rw [decide_eq_true_iff, List.length_map]
    exact hlen row' hrow'), npSortRowsE_lift]
  set rows := npSortRows [3, 4, 0, 1, 2] (data.map fun pt => pt ++ [g pt, g' pt])
  have hrow : ∀ r < data.length, ∃ pt ∈ data, rows.getD r [] = pt ++ [g pt, g' pt] := by
    intro r hr
    have hl : r < rows.length := by rw [hperm.length_eq]; simpa using hr
    have hmem : rows.getD r [] ∈ rows := by
      rw [List.getD_eq_getElem?_getD, List.getElem?_eq_getElem hl]
      exact List.getElem_mem hl
    obtain ⟨pt, hpt, he⟩ := List.mem_map.1 (hperm.mem_iff.1 hmem)
    exact ⟨pt, hpt, he.symm⟩
  have e3 : ∀ pt ∈ data, (pt ++ [g pt, g' pt]).getD 3 0 = g pt := fun pt hpt => by
    rw [List.getD_eq_getElem?_getD, List.getElem?_append_right (by rw [h3 pt hpt]), h3 pt hpt]
    rfl
  have e4 : ∀ pt ∈ data, (pt ++ [g pt, g' pt]).getD 4 0 = g' pt := fun pt hpt => by
    rw [List.getD_eq_getElem?_getD, List.getElem?_append_right (by rw [h3 pt hpt]; omega), h3 pt hpt]
    rfl
  have ek : ∀ pt ∈ data, ∀ k < 3, (pt ++ [g pt, g' pt]).getD k 0 ∈ pt := fun pt hpt k hk => by
    have hk' : k < pt.length := by rw [h3 pt hpt]; exact hk
    rw [List.getD_eq_getElem?_getD, List.getElem?_append_left hk', List.getElem?_eq_getElem hk']
    exact List.getElem_mem hk'
  refine ⟨rows, rfl, ⟨by rw [hperm.length_eq]; simp, fun row hrow => hlen row (hperm.mem_iff.1 hrow)⟩, ?_, ?_, ?_⟩
  · intro r hr
    obtain ⟨pt, hpt, he⟩ := hrow r hr
    unfold at2
    rw [he, e3 pt hpt, e4 pt hpt]
    exact ⟨(hg pt hpt).2.1.2, (hg pt hpt).2.2.2⟩
  · intro k hk r hr
    obtain ⟨pt, hpt, he⟩ := hrow r hr
    unfold at2
    rw [he]
    rcases Nat.lt_or_ge k 3 with h | h
    · exact (hdata pt hpt _ (ek pt hpt k h)).1
    · obtain rfl | rfl : k = 3 ∨ k = 4 := by omega
      · rw [e3 pt hpt]
        exact (hg pt hpt).2.1.1
      · rw [e4 pt hpt]
        exact (hg pt hpt).2.2.1
  · intro k hk r hr
    obtain ⟨pt, hpt, he⟩ := hrow r hr
    unfold at2
    rw [he]
    exact (hdata pt hpt _ (ek pt hpt k hk)).2

/-- `single_fit_surface` in double precision with a solver that returns numbers or raises. -/
theorem singleFitSurfaceR_finite {B : ℚ} {C : Err → Prop} {ls : ℕ → List (List (Ext ℚ)) → List (Ext ℚ) → Py (List (Ext ℚ))}
    {s : Surface ℚ} {data : List (List ℚ)} {m : ℕ} (hls : TameSolver bin64 (2 ^ 1023) B C ls) (hs : ClampedSurface s)
    (hpu : s.degreeU ≤ 7) (hpv : s.degreeV ≤ 7) (fu : knotFn s.kvU s.degreeU < knotFn s.kvU (s.degreeU + 1))
    (fv : knotFn s.kvV s.degreeV < knotFn s.kvV (s.degreeV + 1)) (hd : Shape data m 5)
    (hru : ∀ x ∈ s.kvU, bin64 x = fin x) (hrv : ∀ x ∈ s.kvV, bin64 x = fin x)
    (hδu : ∀ x ∈ s.kvU, ∀ y ∈ s.kvU, x < y → 1 / 2 ^ 1000 ≤ y - x)
    (hδv : ∀ x ∈ s.kvV, ∀ y ∈ s.kvV, x < y → 1 / 2 ^ 1000 ≤ y - x)
    (hHu : knotFn s.kvU (s.numU + s.degreeU) - knotFn s.kvU 0 ≤ 2 ^ 1000)
    (hHv : knotFn s.kvV (s.numV + s.degreeV) - knotFn s.kvV 0 ≤ 2 ^ 1000)
    (hu : ∀ r < m, knotFn s.kvU s.degreeU ≤ at2 data r 3 0 ∧ at2 data r 3 0 ≤ knotFn s.kvU s.numU)
    (hv : ∀ r < m, knotFn s.kvV s.degreeV ≤ at2 data r 4 0 ∧ at2 data r 4 0 ≤ knotFn s.kvV s.numV)
    (hdata : ∀ k < 5, ∀ r < m, bin64 (at2 data r k 0) = fin (at2 data r k 0))
    (hB : ∀ k < 3, (∀ r < m, |at2 data r k 0| ≤ B) ∧
      ∀ i < s.numU, ∀ j < s.numV, OnBoundary s i j →
        bin64 (coord s.ctrlpts k (i * s.numV + j)) = fin (coord s.ctrlpts k (i * s.numV + j)) ∧
        |coord s.ctrlpts k (i * s.numV + j)| ≤ B)
    (hB0 : 1 / 2 ^ 1000 ≤ B) (hMB : 8 * B ≤ 2 ^ 1023)
    (hsize : 5 * s.degreeU + 5 * s.degreeV + 1 + s.numU * s.numV + m ≤ 10 ^ 8) :
    (∃ res, SingleFitSurfaceR bin64 ls s.lift (lift2 data) res) ∧
      ∀ res, SingleFitSurfaceR bin64 ls s.lift (lift2 data) res → (∃ e, C e ∧ res = .error e) ∨
        ∃ P, res = .ok (Surface.lift { s with ctrlpts := P }) ∧ Shape P (s.numU * s.numV) 3 ∧ ∀ k < 3,
          (∀ i < s.numU, ∀ j < s.numV, OnBoundary s i j →
            coord P k (i * s.numV + j) = coord s.ctrlpts k (i * s.numV + j)) ∧
          ∀ i < s.numU * s.numV, bin64 (coord P k i) = fin (coord P k i) ∧ |coord P k i| ≤ B := by
  have su := hs.cu.size
  have sv := hs.cv.size
  have hsplit : ∀ t < s.numU * s.numV, t / s.numV < s.numU ∧ t % s.numV < s.numV ∧ t / s.numV * s.numV + t % s.numV = t :=
    fun t ht => ⟨Nat.div_lt_of_lt_mul (by rw [mul_comm]; exact ht), Nat.mod_lt _ (by omega), Nat.div_add_mod' t s.numV⟩
  obtain ⟨L, hL, hLs, hLn⟩ := surface_matrix_binary64 hs hpu hpv fu fv hd hru hrv
    (fun r hr => ⟨hdata 3 (by omega) r hr, hdata 4 (by omega) r hr⟩) hδu hδv hHu hHv hu hv
  obtain ⟨f, hf, hfl, hfv⟩ := surface_mask_boundary (nu := s.numU) (nv := s.numV) (by omega) (by omega)
  have hfix : ∀ i < s.numU, ∀ j < s.numV, f.getD (i * s.numV + j) false = true ↔ OnBoundary s i j := fun i hi j hj => by
    rw [hfv i hi j hj, decide_eq_true_iff]; rfl
  have hpos : 0 < s.numU * s.numV := Nat.mul_pos (by omega) (by omega)
  have hsum : ∀ r < m, ∑ t ∈ range (s.numU * s.numV),
      Nclosed (knotFn s.kvU) s.degreeU s.numU (t / s.numV) (at2 data r 3 0)
        * Nclosed (knotFn s.kvV) s.degreeV s.numV (t % s.numV) (at2 data r 4 0) = 1 := fun r hr => by
    rw [sum_Nclosed_grid, sum_Nclosed hs.cu (hu r hr).1 (hu r hr).2, sum_Nclosed hs.cv (hv r hr).1 (hv r hr).2, one_mul]
  have hsizes : SolveSizes (1 - 1 / 2 ^ 53 : ℚ) (1 / 2 ^ 1075) (2 ^ 1023) (4 * (13 : ℕ) / 2 ^ 55) B 1
      (5 * s.degreeU + 5 * s.degreeV + 1) (s.numU * s.numV) :=
    solveSizes_binary64 (by norm_num; omega) hB0 hMB (by norm_num) (by
      rw [div_le_one (by positivity)]
      have : 5 * s.degreeU + 5 * s.degreeV + 1 + s.numU * s.numV + 2 + 13 * (s.numU * s.numV) ≤ 2 ^ 52 := by omega
      exact_mod_cast this) le_rfl
  have hbd : ∀ k < 3, ∀ t < s.numU * s.numV, f.getD t false = true →
      bin64 (coord s.ctrlpts k t) = fin (coord s.ctrlpts k t) ∧ |coord s.ctrlpts k t| ≤ B := fun k hk t ht h => by
    obtain ⟨t1, t2, t3⟩ := hsplit t ht
    rw [← t3] at h ⊢
    exact (hB k hk).2 _ t1 _ t2 ((hfix _ t1 _ t2).1 h)
  have hcol := fitColumnsR_finite hsizes ieeeRounding_bin64 hls (by rw [bin64_abs_le (by rw [abs_zero]; positivity), fl64s_zero])
    (le_trans (by positivity) hB0) (w := 5) (fixed := f) hd (by omega) hs.shape hpos hLs hfl (fun r hr => (hsum r hr).le)
    (fun r hr i hi => (hLn r hr i hi).mono ieeeRounding_bin64 le_rfl (by norm_num))
    (fun k hk r hr => ⟨hdata k (by omega) r hr, (hB k hk).1 r hr⟩) hbd
  refine ⟨?_, ?_⟩
  · obtain ⟨check, hcheck⟩ := CheckUnityR.exists bin64 L (lift2 data).length
    exact ⟨_, Or.inr ⟨L, check, hL, hcheck, rfl⟩⟩
  · rintro res (⟨e, he, -⟩ | ⟨M', check, hM', hcheck, rfl⟩)
    · rw [hL] at he; cases he
    rw [hL] at hM'
    cases hM'
    rw [List.length_map, hd.1] at hcheck
    obtain rfl := unity_binary64 hLs (fun r hr i hi => hLn r hr i hi) hsum hsize check hcheck
    have hlen : s.lift.ctrlpts.length = s.numU * s.numV := by
      show (lift2 s.ctrlpts).length = _
      rw [List.length_map]; exact hs.shape.1
    rw [ok_bind]
    change (∃ e, C e ∧ (surfaceMask s.numU s.numV s.lift.ctrlpts.length >>= _) = .error e) ∨
      ∃ P, (surfaceMask s.numU s.numV s.lift.ctrlpts.length >>= _) = .ok (Surface.lift { s with ctrlpts := P }) ∧ _
    rw [hlen, hf, ok_bind]
    change (∃ e, C e ∧ (fitColumnsR bin64 ls L (lift2 data) (lift2 s.ctrlpts) f >>= _) = .error e) ∨
      ∃ P, (fitColumnsR bin64 ls L (lift2 data) (lift2 s.ctrlpts) f >>= _) = .ok (Surface.lift { s with ctrlpts := P }) ∧ _
    rcases hcol with ⟨e, he, hcol⟩ | ⟨new, hnew, hns, hk⟩
    · exact Or.inl ⟨e, he, by rw [hcol]; rfl⟩
    right
    rw [hnew, ok_bind]
    refine ⟨new, rfl, hns, fun k hk3 => ⟨fun i hi j hj hb =>
      (hk k hk3).1 _ (index_lt hi hj) ((hfix i hi j hj).2 hb), fun i hi => ?_⟩⟩
    by_cases hfi : f.getD i false = true
    · rw [(hk k hk3).1 i hi hfi]
      exact hbd k hk3 i hi hfi
    · exact (hk k hk3).2 i hi (Bool.eq_false_of_not_eq_true hfi)

/-- The spans of a uniform knot vector in double precision are not short. -/
theorem uniform_double_gap {q m : ℕ} (hq : q < m) (hm : m ≤ 2 ^ 40) {V : List ℚ} (hV : generateUniformFl fl64 q m = .ok V) :
    ∀ i, q ≤ i → i < m → 1 / 2 ^ 1000 ≤ knotFn V (i + 1) - knotFn V i := by
  obtain ⟨V', hV', -, vc, -, v0, v1, ⟨U, hU, hUV⟩, -⟩ := generate_uniform_double hq (le_trans hm (by norm_num))
  rw [hV] at hV'
  cases hV'
  have hmK : (m : ℚ) ≤ 2 ^ 40 := by exact_mod_cast hm
  have hqK : (q : ℚ) + 1 ≤ m := by exact_mod_cast hq
  have hq0 : (0 : ℚ) ≤ q := Nat.cast_nonneg q
  have hd : (0 : ℚ) < (m : ℚ) - q := by linarith
  have hinv : (1 : ℚ) / 2 ^ 40 ≤ 1 / ((m : ℚ) - q) := one_div_le_one_div_of_le hd (by linarith)
  -- the exact knots
  have hk : ∀ i, q ≤ i → i ≤ m → knotFn U i = ((i : ℚ) - q) / ((m : ℚ) - q) := by
    intro i h1 h2
    rw [(generateUniform_knot hq hU (by omega)).2]
    rcases Nat.eq_or_lt_of_le h1 with rfl | h1
    · rw [if_pos le_rfl, sub_self, zero_div]
    rw [if_neg (by omega)]
    rcases Nat.eq_or_lt_of_le h2 with rfl | h2
    · rw [if_neg (by omega), div_self hd.ne']
    · rw [if_pos h2]
  have hnear : ∀ i, q ≤ i → i ≤ m → |knotFn V i - knotFn U i| ≤ 1 / 2 ^ 51 := by
    intro i h1 h2
    refine (hUV i (by omega)).trans ?_
    have : knotFn U i ≤ 1 := by
      rw [hk i h1 h2, div_le_one hd]
      have : (i : ℚ) ≤ m := by exact_mod_cast h2
      linarith
    linarith [mul_le_mul_of_nonneg_left this (by positivity : (0 : ℚ) ≤ 1 / 2 ^ 51)]
  intro i h1 h2
  have a := abs_le.1 (hnear i h1 h2.le)
  have b := abs_le.1 (hnear (i + 1) (by omega) h2)
  have c : knotFn U (i + 1) - knotFn U i = 1 / ((m : ℚ) - q) := by
    rw [hk i h1 h2.le, hk (i + 1) (by omega) h2, ← sub_div]
    push_cast
    ring
  have e : (1 : ℚ) / 2 ^ 1000 ≤ 1 / 2 ^ 41 :=
    one_div_le_one_div_of_le (by positivity) (pow_le_pow_right₀ (by norm_num) (by norm_num))
  refine e.trans ?_
  have : (1 : ℚ) / 2 ^ 41 + 2 / 2 ^ 51 ≤ 1 / 2 ^ 40 := by norm_num
  have d : (2 : ℚ) / 2 ^ 51 = 1 / 2 ^ 51 + 1 / 2 ^ 51 := by ring
  linarith [a.2, b.1]

/-- Different knots of a uniform knot vector in double precision are not close. -/
theorem uniform_double_sep {q m : ℕ} (hq : q < m) (hm : m ≤ 2 ^ 40) {V : List ℚ} (hV : generateUniformFl fl64 q m = .ok V) :
    ∀ x ∈ V, ∀ y ∈ V, x < y → 1 / 2 ^ 1000 ≤ y - x := by
  obtain ⟨V', hV', -, vc, -, v0, v1, -, -⟩ := generate_uniform_double hq (le_trans hm (by norm_num))
  rw [hV] at hV'
  cases hV'
  have hs : Spaced q m (1 / 2 ^ 1000) (⟨q, List.replicate m (List.replicate 3 0), V⟩ : Curve ℚ) :=
    ⟨rfl, shape_replicate _ _ _, vc, v0, v1, uniform_double_gap hq hm hV⟩
  exact hs.sep

section
variable {K : Type} [Field K] [LinearOrder K] [IsStrictOrderedRing K]

/-- Fitted boundaries with numbers as boundaries with extended numbers; the parameters of the data play no part here. -/
def Fitted.lift (f : Fitted K) : Fitted (Ext K) := ⟨f.degree, f.numCtrl, f.fitCurve.lift, none⟩

end

/-- `set_init_surface` in double precision. -/
theorem ruledSurfaceR_bin64 {t b : Fitted ℚ} {p n q m : ℕ} (td : t.degree = some (p : ℤ)) (bd : b.degree = some (p : ℤ))
    (tn : t.numCtrl = some (n : ℤ)) (bn : b.numCtrl = some (n : ℤ)) (ht : Shape t.fitCurve.ctrlpts n 3)
    (hb : Shape b.fitCurve.ctrlpts n 3) {M : ℚ} (hM0 : 1 / 2 ^ 1000 ≤ M) (hM1 : M ≤ 2 ^ 1019)
    (hbM : ∀ k < 3, ∀ i < n, |coord b.fitCurve.ctrlpts k i| ≤ M) (htM : ∀ k < 3, ∀ i < n, |coord t.fitCurve.ctrlpts k i| ≤ M)
    (hq : q < m) (hq1 : 1 ≤ q) (hm : m ≤ 2 ^ 49) :
    ∃ P V, ruledSurfaceR bin64 (some t.lift) (some b.lift) (some (q : ℤ)) (some (m : ℤ))
        = .ok (Surface.lift ⟨p, q, n, m, P, b.fitCurve.kv, V⟩) ∧
      Shape P (n * m) 3 ∧ generateUniformFl fl64 q m = .ok V ∧ (∀ x ∈ V, bin64 x = fin x) ∧ ∀ k < 3, ∀ i < n, ∀ j < m,
        bin64 (coord P k (i * m + j)) = fin (coord P k (i * m + j)) ∧
        (∀ X, 1 / 2 ^ 1000 ≤ X → X ≤ 2 ^ 1019 → |coord b.fitCurve.ctrlpts k i| ≤ X → |coord t.fitCurve.ctrlpts k i| ≤ X →
          |coord P k (i * m + j) - (coord b.fitCurve.ctrlpts k i
            + (j : ℚ) / ((m : ℚ) - 1) * (coord t.fitCurve.ctrlpts k i - coord b.fitCurve.ctrlpts k i))| ≤ X / 2 ^ 47) ∧
        (j = 0 ∨ coord t.fitCurve.ctrlpts k i = coord b.fitCurve.ctrlpts k i →
          bin64 (coord b.fitCurve.ctrlpts k i) = fin (coord b.fitCurve.ctrlpts k i) →
          coord P k (i * m + j) = coord b.fitCurve.ctrlpts k i) := by
  obtain ⟨V, hV, hVR, hVs⟩ := generateUniformR_bin64 hq hm
  have shl : ∀ {P : List (List ℚ)}, Shape P n 3 → Shape (lift2 P) n 3 := fun h => ⟨by rw [List.length_map]; exact h.1, fun row hr => by
    obtain ⟨r, hr', rfl⟩ := List.mem_map.1 hr
    rw [List.length_map]; exact h.2 r hr'⟩
  have hn0 : ∀ x < n * m, x / m < n ∧ x % m < m ∧ x / m * m + x % m = x := fun x hx =>
    ⟨Nat.div_lt_of_lt_mul (by rw [mul_comm]; exact hx), Nat.mod_lt _ (by omega), Nat.div_add_mod' x m⟩
  have hval : ∀ k < 3, ∀ i < n, ∀ j < m, ∃ w, ruledR bin64 (fin (coord b.fitCurve.ctrlpts k i))
      (fin (coord t.fitCurve.ctrlpts k i)) m j = fin w ∧ bin64 w = fin w := fun k hk i hi j hj => by
    obtain ⟨w, h1, h2, -⟩ := ruledR_bin64 (hbM k hk i hi) (htM k hk i hi) hM0 hM1 hj (by omega)
    exact ⟨w, h1, h2⟩
  choose! g hg using hval
  have hnet : ruledNetR bin64 (lift2 t.fitCurve.ctrlpts) (lift2 b.fitCurve.ctrlpts) n m
      = .ok (lift2 ((List.range (n * m)).map fun x => (List.range 3).map fun k => g k (x / m) (x % m))) := by
    rw [ruledNetR_eq bin64 (shl ht) (shl hb) (by omega)]
    congr 1
    rw [lift2, List.map_map]
    refine List.map_congr_left fun x hx => ?_
    obtain ⟨h1, h2, -⟩ := hn0 x (List.mem_range.1 hx)
    unfold ruledRowR
    rw [Function.comp, List.map_map]
    refine List.map_congr_left fun k hk => ?_
    have hk := List.mem_range.1 hk
    rw [at2_lift2, at2_lift2]
    exact (hg k hk _ h1 _ h2).1
  have hsh : Shape ((List.range (n * m)).map fun x => (List.range 3).map fun k => g k (x / m) (x % m)) (n * m) 3 :=
    ⟨by simp, fun row hr => by obtain ⟨x, -, rfl⟩ := List.mem_map.1 hr; simp⟩
  have hco : ∀ k < 3, ∀ i < n, ∀ j < m, coord ((List.range (n * m)).map fun x => (List.range 3).map fun k =>
      g k (x / m) (x % m)) k (i * m + j) = g k i j := fun k hk i hi j hj => by
    have e1 : (i * m + j) / m = i := by
      rw [Nat.mul_comm, Nat.mul_add_div (by omega), Nat.div_eq_of_lt hj, Nat.add_zero]
    have e2 : (i * m + j) % m = j := by
      rw [Nat.mul_comm, Nat.mul_add_mod, Nat.mod_eq_of_lt hj]
    have := index_lt hi hj
    simp [coord, List.getD_eq_getElem?_getD, this, hk, e1, e2]
  refine ⟨_, V, ?_, hsh, hV, hVs, fun k hk i hi j hj => ?_⟩
  · unfold ruledSurfaceR
    have a : attrOf (some t.lift) = .ok t.lift := rfl
    have a' : attrOf (some b.lift) = .ok b.lift := rfl
    rw [a, ok_bind, a', ok_bind]
    have d1 : t.lift.degree = some (p : ℤ) := td
    have d2 : b.lift.degree = some (p : ℤ) := bd
    have d3 : t.lift.numCtrl = some (n : ℤ) := tn
    have d4 : b.lift.numCtrl = some (n : ℤ) := bn
    rw [d1, d2, d3, d4, if_neg (by simp), if_neg (by simp)]
    have i1 : ∀ x : ℤ, intOf (some x) = .ok x := fun _ => rfl
    rw [i1, ok_bind, i1, ok_bind, i1, ok_bind, i1, ok_bind]
    simp only [Int.toNat_natCast]
    change (ruledNetR bin64 (lift2 t.fitCurve.ctrlpts) (lift2 b.fitCurve.ctrlpts) n m >>= _) = _
    rw [hnet, ok_bind, hVR, ok_bind]
    rfl
  · rw [hco k hk i hi j hj]
    obtain ⟨e, st⟩ := hg k hk i hi j hj
    refine ⟨st, fun X h0 h1 hbX htX => ?_, fun hz hst => ?_⟩
    · obtain ⟨w, h1, -, h3, -⟩ := ruledR_bin64 hbX htX h0 h1 hj (by omega)
      rw [e] at h1
      cases h1
      exact h3
    · obtain ⟨w, h1, -, -, h4, h5⟩ := ruledR_bin64 (hbM k hk i hi) (htM k hk i hi) hM0 hM1 hj (by omega)
      rw [e] at h1
      cases h1
      exact hz.elim (fun h => h4 h hst) fun h => h5 h hst

end PySpline
