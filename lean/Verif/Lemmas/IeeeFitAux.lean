import Verif.Lemmas.IeeeFit
import Verif.Lemmas.FitDoubleAux
import Verif.Lemmas.IeeeKnots

/-!
# The matrices and the partition-of-unity check in IEEE arithmetic
-/

set_option linter.unusedSectionVars false
set_option exponentiation.threshold 1100

namespace PySpline

open Spec Ext

section
variable {K : Type} [Field K] [LinearOrder K] [IsStrictOrderedRing K]

/-! ## The matrices -/

theorem columnE_nat {m : List (List (Ext K))} {r w : ℕ} (hm : Shape m r w) (c : ℤ) (n : ℕ) (hc : c = n) (hn : n < w) :
    columnE m c = .ok (m.map fun row => row.getD n 0) := by
  unfold columnE
  exact mapPy_eq_ok _ _ _ fun row hrow => pyGet_nat _ _ _ _ hc (by rw [hm.2 row hrow]; exact hn)

theorem columnE_last {m : List (List (Ext K))} {r w : ℕ} (hm : Shape m r (w + 1)) :
    columnE m (-1) = .ok (m.map fun row => row.getD w 0) := by
  unfold columnE
  exact mapPy_eq_ok _ _ _ fun row hrow => pyGet_neg_one (hm.2 row hrow) 0

theorem getD_map_rowE (m : List (List (Ext K))) (i k : ℕ) :
    (m.map fun row => row.getD k 0).getD i 0 = at2 m i k 0 := by
  unfold at2
  simp only [List.getD_eq_getElem?_getD, List.getElem?_map]
  cases h : m[i]? <;> simp

theorem curveMatrixR_spec {rd : K → Ext K} {c : Curve (Ext K)} {data : List (List (Ext K))} {m n : ℕ} (B : ℕ → ℕ → Ext K)
    (hd : Shape data m 4) (hn : c.ctrlpts.length = n)
    (hB : ∀ r < m, ∀ i < n, oneBasisFunctionR rd c.degree c.kv i (at2 data r 3 0) = .ok (B r i)) :
    Returns (curveMatrixR rd c data) fun M =>
      Shape M m n ∧ ∀ r < m, ∀ i < n, at2 M r i 0 = B r i := by
  unfold curveMatrixR
  rw [columnE_last hd, ok_bind, hn, hd.1]
  dsimp only
  have hl : (data.map fun row => row.getD 3 0).length = m := by simp [hd.1]
  rw [hl]
  refine Returns.bind (Returns.forN (fun r (st : List (List (Ext K)) × ℕ) => Shape st.1 m n ∧ st.2 = r ∧
    ∀ x < r, ∀ i < n, at2 st.1 x i 0 = B x i) (Nat.zero_le _) ?_ ?_) ?_
  · exact ⟨shape_replicate _ _ _, rfl, fun x hx => absurd hx (by omega)⟩
  · rintro r ⟨M, row⟩ - hr ⟨h1, h2, h3⟩
    dsimp only at h1 h2 h3 ⊢
    subst h2
    refine Returns.bind (Returns.forN (fun i (st : List (List (Ext K)) × ℕ) => Shape st.1 m n ∧ st.2 = i ∧
      (∀ x < row, ∀ i < n, at2 st.1 x i 0 = B x i) ∧ ∀ j < i, at2 st.1 row j 0 = B row j)
      (Nat.zero_le _) ?_ ?_) ?_
    · exact ⟨h1, rfl, h3, fun j hj => absurd hj (by omega)⟩
    · rintro i ⟨M', col⟩ - hi ⟨g1, g2, g3, g4⟩
      dsimp only at g1 g2 g3 g4 ⊢
      subst g2
      rw [pyGet_nat _ _ row 0 rfl (by omega), ok_bind, getD_map_rowE data row 3, hB row hr col hi,
        ok_bind]
      obtain ⟨M'', e, hs, hat⟩ := set2_nat g1 (row : ℤ) (col : ℤ) row col (B row col) 0 rfl rfl hr hi
      rw [e, ok_bind]
      refine Returns.ok ⟨hs, rfl, fun x hx i hi => ?_, fun j hj => ?_⟩
      · rw [hat, if_neg (by omega)]; exact g3 x hx i hi
      · rw [hat]
        by_cases e : j = col
        · subst e; rw [if_pos ⟨rfl, rfl⟩]
        · rw [if_neg (by omega)]; exact g4 j (by omega)
    · rintro ⟨M', col⟩ ⟨g1, -, g3, g4⟩
      refine Returns.ok ⟨g1, rfl, fun x hx i hi => ?_⟩
      rcases Nat.lt_succ_iff_lt_or_eq.1 hx with hx | rfl
      · exact g3 x hx i hi
      · exact g4 i hi
  · rintro ⟨M, row⟩ ⟨h1, -, h3⟩
    exact Returns.ok ⟨h1, h3⟩

theorem surfaceMatrixR_spec {rd : K → Ext K} {s : Surface (Ext K)} {data : List (List (Ext K))} {m : ℕ} (A B : ℕ → ℕ → Ext K)
    (hd : Shape data m 5) (hn : s.ctrlpts.length = s.numU * s.numV)
    (hA : ∀ r < m, ∀ i < s.numU, oneBasisFunctionR rd s.degreeU s.kvU i (at2 data r 3 0) = .ok (A r i))
    (hB : ∀ r < m, ∀ j < s.numV, oneBasisFunctionR rd s.degreeV s.kvV j (at2 data r 4 0) = .ok (B r j)) :
    Returns (surfaceMatrixR rd s data) fun M => Shape M m (s.numU * s.numV) ∧
      ∀ r < m, ∀ i < s.numU, ∀ j < s.numV, at2 M r (i * s.numV + j) 0 = rnd rd (A r i * B r j) := by
  unfold surfaceMatrixR
  rw [columnE_nat hd 3 3 rfl (by omega), ok_bind, columnE_nat hd 4 4 rfl (by omega), ok_bind, hn, hd.1]
  dsimp only
  have hl : (data.map fun row => row.getD 3 0).length = m := by simp [hd.1]
  have hl4 : (data.map fun row => row.getD 4 0).length = m := by simp [hd.1]
  rw [hl]
  set nu := s.numU
  set nv := s.numV
  refine Returns.bind (Returns.forN (fun r (st : List (List (Ext K)) × ℕ) => Shape st.1 m (nu * nv) ∧
    st.2 = r ∧ ∀ x < r, ∀ i < nu, ∀ j < nv, at2 st.1 x (i * nv + j) 0 = rnd rd (A x i * B x j))
    (Nat.zero_le _) ?_ ?_) ?_
  · exact ⟨shape_replicate _ _ _, rfl, fun x hx => absurd hx (by omega)⟩
  · rintro r ⟨M, row⟩ - hr ⟨h1, h2, h3⟩
    dsimp only at h1 h2 h3 ⊢
    subst h2
    refine Returns.bind (Returns.forN (fun i (st : List (List (Ext K)) × ℕ) => Shape st.1 m (nu * nv) ∧
      st.2 = i * nv ∧ (∀ x < row, ∀ i < nu, ∀ j < nv, at2 st.1 x (i * nv + j) 0 = rnd rd (A x i * B x j)) ∧
      ∀ x < i, ∀ j < nv, at2 st.1 row (x * nv + j) 0 = rnd rd (A row x * B row j)) (Nat.zero_le _) ?_ ?_) ?_
    · exact ⟨h1, by simp, h3, fun j hj => absurd hj (by omega)⟩
    · rintro i ⟨M', col⟩ - hi ⟨g1, g2, g3, g4⟩
      dsimp only at g1 g2 g3 g4 ⊢
      subst g2
      refine Returns.mono (Returns.forN (fun j (st : List (List (Ext K)) × ℕ) => Shape st.1 m (nu * nv) ∧
        st.2 = i * nv + j ∧
        (∀ x < row, ∀ i < nu, ∀ j < nv, at2 st.1 x (i * nv + j) 0 = rnd rd (A x i * B x j)) ∧
        (∀ x < i, ∀ j < nv, at2 st.1 row (x * nv + j) 0 = rnd rd (A row x * B row j)) ∧
        ∀ y < j, at2 st.1 row (i * nv + y) 0 = rnd rd (A row i * B row y)) (Nat.zero_le _) ?_ ?_) ?_
      · exact ⟨g1, by simp, g3, g4, fun y hy => absurd hy (by omega)⟩
      · rintro j ⟨M'', col⟩ - hj ⟨k1, k2, k3, k4, k5⟩
        dsimp only at k1 k2 k3 k4 k5 ⊢
        subst k2
        rw [pyGet_nat _ _ row 0 rfl (by omega), ok_bind, getD_map_rowE data row 3, hA row hr i hi,
          ok_bind, pyGet_nat _ _ row 0 rfl (by omega), ok_bind, getD_map_rowE data row 4,
          hB row hr j hj, ok_bind]
        have hlt := index_lt hi hj
        obtain ⟨M3, e, hs, hat⟩ := set2_nat k1 (row : ℤ) ((i * nv + j : ℕ) : ℤ) row (i * nv + j)
          (rnd rd (A row i * B row j)) 0 rfl rfl hr hlt
        rw [e, ok_bind]
        refine Returns.ok ⟨hs, by dsimp only; omega, fun x hx a ha b hb => ?_, fun x hx b hb => ?_,
          fun y hy => ?_⟩
        · rw [hat, if_neg (by omega)]; exact k3 x hx a ha b hb
        · rw [hat, if_neg]
          · exact k4 x hx b hb
          · rintro ⟨-, e⟩
            have := (index_eq hb hj e).1
            omega
        · rw [hat]
          by_cases e : y = j
          · subst e; rw [if_pos ⟨rfl, rfl⟩]
          · rw [if_neg (by omega)]; exact k5 y (by omega)
      · rintro ⟨M'', col⟩ ⟨k1, k2, k3, k4, k5⟩
        refine ⟨k1, by rw [k2, Nat.succ_mul], k3, fun x hx j hj => ?_⟩
        rcases Nat.lt_succ_iff_lt_or_eq.1 hx with hx | rfl
        · exact k4 x hx j hj
        · exact k5 j hj
    · rintro ⟨M', col⟩ ⟨g1, -, g3, g4⟩
      refine Returns.ok ⟨g1, rfl, fun x hx i hi j hj => ?_⟩
      rcases Nat.lt_succ_iff_lt_or_eq.1 hx with hx | rfl
      · exact g3 x hx i hi j hj
      · exact g4 i hi j hj
  · rintro ⟨M, row⟩ ⟨h1, -, h3⟩
    exact Returns.ok ⟨h1, h3⟩

/-! ## Products and sums -/

theorem IsNear.mul_both {rd : K → Ext K} {ρ η M E F R b : K} {k l : ℕ} {e f : Ext K} (hr : IeeeRounding ρ η M rd)
    (h1 : IsNear rd ρ l E f R) (h2 : IsNear rd ρ k F e b) (hR : R ≤ 1) (hb : b ≤ 1) (hE : E ≤ 1) (hF : F ≤ 1)
    (hM : 8 ≤ M) (hρ : 1 ≤ 2 * ρ ^ (l + k)) :
    IsNear rd ρ (l + k + 1) (5 * (E + F) + η) (PySpline.rnd rd (f * e)) (R * b) := by
  obtain ⟨hE0, y, rfl, y1, y2, y3, y4, y5⟩ := h1
  obtain ⟨hF0, x, rfl, x1, x2, x3, x4, x5⟩ := h2
  have pk := pow_pos hr.pos k
  have pl := pow_pos hr.pos l
  have k1 : ρ ^ k ≤ 1 := pow_le_one₀ hr.pos.le hr.le_one
  have l1 : ρ ^ l ≤ 1 := pow_le_one₀ hr.pos.le hr.le_one
  rw [pow_add] at hρ
  have a1 : ρ ^ l * ρ ^ k ≤ ρ ^ k := mul_le_of_le_one_left pk.le l1
  have a2 : ρ ^ l * ρ ^ k ≤ ρ ^ l := mul_le_of_le_one_right pl.le k1
  have hy : y ≤ 4 := by
    have := mul_le_mul_of_nonneg_left (show 1 / 2 ≤ ρ ^ l by linarith) y2
    linarith
  have hx : x ≤ 4 := by
    have := mul_le_mul_of_nonneg_left (show 1 / 2 ≤ ρ ^ k by linarith) x2
    linarith
  have hyx := mul_nonneg y2 x2
  have s1 : y * F ≤ 4 * F := mul_le_mul_of_nonneg_right hy hF0
  have s2 : x * E ≤ 4 * E := mul_le_mul_of_nonneg_right hx hE0
  have s3 : E * F ≤ E * 1 := mul_le_mul_of_nonneg_left hF hE0
  have s4 : R * F ≤ 1 * F := mul_le_mul_of_nonneg_right hR hF0
  have s5 : E * b ≤ E * 1 := mul_le_mul_of_nonneg_left hb hE0
  show IsNear rd ρ (l + k + 1) _ (PySpline.rnd rd (fin (y * x))) (R * b)
  have up : y * x * (ρ ^ l * ρ ^ k) ≤ (R + E) * (b + F) := by
    calc y * x * (ρ ^ l * ρ ^ k) = (y * ρ ^ l) * (x * ρ ^ k) := by ring
      _ ≤ _ := mul_le_mul y5 x5 (mul_nonneg x2 pk.le) (add_nonneg y3 hE0)
  refine IsNear.rnd hr (by linarith) hyx (mul_nonneg y3 x3) ?_ ?_ ?_
  · rw [pow_add]
    calc R * b * (ρ ^ l * ρ ^ k) = (R * ρ ^ l) * (b * ρ ^ k) := by ring
      _ ≤ (y + E) * (x + F) := mul_le_mul y4 x4 (mul_nonneg x3 pk.le) (add_nonneg y2 hE0)
      _ = y * x + y * F + x * E + E * F := by ring
      _ ≤ _ := by linarith
  · rw [pow_add]
    refine up.trans ?_
    calc (R + E) * (b + F) = R * b + R * F + E * b + E * F := by ring
      _ ≤ _ := by linarith
  · have h4 : (R + E) * (b + F) ≤ 2 * 2 :=
      mul_le_mul (by linarith) (by linarith) (by linarith) (by norm_num)
    have := mul_le_mul_of_nonneg_left hρ hyx
    linarith

theorem SumR.exists (rd : K → Ext K) (l : List (Ext K)) : ∃ s, SumR rd l s := by
  induction l with
  | nil => exact ⟨0, .nil⟩
  | cons x l ih =>
    by_cases hl : l = []
    · subst hl; exact ⟨x, .one x⟩
    · obtain ⟨s, hs⟩ := ih
      exact ⟨_, .add (by simp) hl (.one x) hs⟩

theorem CheckUnityR.exists (rd : K → Ext K) (M : List (List (Ext K))) (m : ℕ) : ∃ r, CheckUnityR rd M m r := by
  have : ∃ unity : List (Ext K), List.Forall₂ (SumR rd) M unity := by
    induction M with
    | nil => exact ⟨[], .nil⟩
    | cons x xs ih =>
      obtain ⟨l, hl⟩ := ih
      obtain ⟨s, hs⟩ := SumR.exists rd x
      exact ⟨s :: l, .cons hs hl⟩
  obtain ⟨unity, h1⟩ := this
  obtain ⟨total, h2⟩ := SumR.exists rd unity
  exact ⟨_, unity, total, h1, h2, rfl⟩

theorem sum_nonneg_of_near {rd : K → Ext K} {ρ E : K} {k : ℕ} {l : List (Ext K)} {bs : List K}
    (h : List.Forall₂ (IsNear rd ρ k E) l bs) : 0 ≤ bs.sum := by
  induction h with
  | nil => simp
  | cons h _ ih => rw [List.sum_cons]; exact add_nonneg (IsNearZ.nonneg h) ih

/-- A sum of numbers with `k` roundings and an error of `E` each. -/
theorem SumR.near {ρ η M E : K} {rd : K → Ext K} (hr : IeeeRounding ρ η M rd) (hE : 0 ≤ E) {k : ℕ}
    {l : List (Ext K)} {s : Ext K} (h : SumR rd l s) :
    ∀ bs, List.Forall₂ (IsNear rd ρ k E) l bs → bs.sum + l.length * E ≤ M * ρ ^ (k + l.length) →
      IsNear rd ρ (k + l.length) (l.length * E) s bs.sum := by
  have p0 := hr.pos
  have p1 := hr.le_one
  have key : ∀ bs, List.Forall₂ (IsNear rd ρ k E) l bs → bs.sum + l.length * E ≤ M * ρ ^ (k + l.length) →
      IsNear rd ρ (k + (l.length - 1)) (l.length * E) s bs.sum := by
    have mono : ∀ {x : K} {a b : ℕ}, 0 ≤ x → x ≤ M * ρ ^ a → b ≤ a → x ≤ M * ρ ^ b := by
      intro x a b hx hxa hba
      have hM : 0 ≤ M := by
        by_contra hc
        push Not at hc
        have := mul_neg_of_neg_of_pos hc (pow_pos p0 a)
        linarith
      exact hxa.trans (mul_le_mul_of_nonneg_left (pow_le_pow_of_le_one p0.le p1 hba) hM)
    induction h with
    | nil => rintro _ ⟨⟩ -; exact IsNear.zero hr _ (by simp)
    | one a =>
      intro bs hb _
      cases hb with
      | cons h1 h2 =>
        cases h2
        simpa using h1
    | @add l m s t hl hm h1 h2 i1 i2 =>
      intro bs hb hM
      obtain ⟨b1, b2, f1, f2, rfl⟩ := forall₂_append_split hb
      have := List.length_pos_of_ne_nil hl
      have := List.length_pos_of_ne_nil hm
      rw [List.sum_append, List.length_append] at hM ⊢
      push_cast at hM ⊢
      have z1 := sum_nonneg_of_near f1
      have z2 := sum_nonneg_of_near f2
      have w1 : 0 ≤ (l.length : K) * E := mul_nonneg (Nat.cast_nonneg _) hE
      have w2 : 0 ≤ (m.length : K) * E := mul_nonneg (Nat.cast_nonneg _) hE
      have hall : b1.sum + l.length * E + (b2.sum + m.length * E) ≤ M * ρ ^ (k + (l.length + m.length)) := by
        linarith
      have n1 := (i1 _ f1 (mono (by linarith) (le_trans (by linarith) hall) (by omega))).mono hr
        (l := k + (l.length + m.length - 2)) (F := l.length * E) (by omega) le_rfl
      have n2 := (i2 _ f2 (mono (by linarith) (le_trans (by linarith) hall) (by omega))).mono hr
        (l := k + (l.length + m.length - 2)) (F := m.length * E) (by omega) le_rfl
      refine (n1.add hr n2 (mono (by linarith) hall (by omega))).mono hr (by omega) ?_
      rw [add_mul]
    | @perm l m s hp h i =>
      intro bs hb hM
      obtain ⟨bs', f, p⟩ := forall₂_perm hp hb
      rw [← p.sum_eq, ← hp.length_eq] at hM ⊢
      exact i _ f hM
  intro bs hb hM
  exact (key bs hb hM).mono hr (by omega) le_rfl

/-- The sum over all rows, when the exact rows add up to one. -/
theorem checkUnityR_near {ρ η M E : K} {rd : K → Ext K} (hr : IeeeRounding ρ η M rd) (hE : 0 ≤ E)
    {A : List (List (Ext K))} {m n k : ℕ}
    (hA : Shape A m n) {B : ℕ → ℕ → K} (hB : ∀ r < m, ∀ i < n, IsNear rd ρ k E (at2 A r i 0) (B r i))
    (hsum : ∀ r < m, ∑ i ∈ Finset.range n, B r i = 1)
    (hM : 2 * ((m : K) + 1) * (1 + n * E) ≤ M) (hρ : 1 ≤ 2 * ρ ^ (k + n + m))
    {unity : List (Ext K)} {total : Ext K}
    (hu : List.Forall₂ (SumR rd) A unity) (ht : SumR rd unity total) :
    IsNear rd ρ (k + n + m) (m * (n * E)) total (m : K) := by
  have p0 := hr.pos
  have hnE : 0 ≤ (n : K) * E := mul_nonneg (Nat.cast_nonneg _) hE
  have hm0 : (0 : K) ≤ m := Nat.cast_nonneg m
  have hM0 : 0 ≤ M := le_trans (by positivity) hM
  have hMp : ∀ j ≤ k + n + m, M ≤ 2 * (M * ρ ^ j) := fun j hj => by
    have a1 : ρ ^ (k + n + m) ≤ ρ ^ j := pow_le_pow_of_le_one p0.le hr.le_one hj
    have := mul_le_mul_of_nonneg_left (show 1 ≤ 2 * ρ ^ j by linarith) hM0
    linarith
  have hlen : unity.length = m := by rw [← hu.length_eq, hA.1]
  have h1 : List.Forall₂ (IsNear rd ρ (k + n) (n * E)) unity (List.replicate m 1) := by
    rw [List.forall₂_iff_get]
    refine ⟨by simp [hlen], fun r hr1 hr2 => ?_⟩
    have hrm : r < m := by rw [← hlen]; exact hr1
    have hrM : r < A.length := by rw [hA.1]; exact hrm
    have hs := (List.forall₂_iff_get.1 hu).2 r hrM hr1
    have hrow : (A.get ⟨r, hrM⟩).length = n := hA.2 _ (List.get_mem _ _)
    have e2 : ∀ i, at2 A r i 0 = (A.get ⟨r, hrM⟩).getD i 0 := by
      intro i
      simp [at2, List.getD_eq_getElem?_getD, hrM]
    have es : ((List.range n).map (B r)).sum = 1 := by rw [sum_map_range]; exact hsum r hrm
    have := hs.near hr hE ((List.range n).map (B r)) (by
      rw [List.forall₂_iff_get]
      refine ⟨by rw [hrow]; simp, fun i hi1 hi2 => ?_⟩
      have hi : i < n := by rw [← hrow]; exact hi1
      have := hB r hrm i hi
      rw [e2] at this
      rw [List.getD_eq_getElem?_getD, List.getElem?_eq_getElem hi1] at this
      simpa using this) (by
      rw [es, hrow]
      have := hMp (k + n) (by omega)
      have : 1 * (1 + n * E) ≤ (m + 1) * (1 + n * E) := mul_le_mul_of_nonneg_right (by linarith) (by linarith)
      linarith)
    rw [hrow, es] at this
    simpa using this
  have es : (List.replicate m (1 : K)).sum = m := by simp
  have := ht.near hr hnE _ h1 (by
    rw [es, hlen]
    have := hMp (k + n + m) le_rfl
    have : (m : K) * (1 + n * E) ≤ (m + 1) * (1 + n * E) := mul_le_mul_of_nonneg_right (by linarith) (by linarith)
    linarith)
  rw [es, hlen] at this
  exact this

end

/-! ## The test -/

theorem isclose_total {m : ℕ} {total : ℚ} (hm : m ≤ 10 ^ 10) (h : |total - m| ≤ 3 / 10 ^ 6 * m) :
    iscloseR bin64 (fin total) (bin64 m) rtolDefault atolDefault = true := by
  have hbig : (10 : ℚ) ^ 12 ≤ 2 ^ 1023 :=
    le_trans (by norm_num) (pow_le_pow_right₀ (by norm_num) (show 40 ≤ 1023 by norm_num))
  have hm0 : (0 : ℚ) ≤ m := Nat.cast_nonneg m
  have hm1 : (m : ℚ) ≤ 10 ^ 10 := by exact_mod_cast hm
  have hη : (1 : ℚ) / 2 ^ 1075 ≤ 1 / 10 ^ 12 := one_div_le_one_div_of_le (by norm_num)
    (le_trans (by norm_num) (pow_le_pow_right₀ (by norm_num) (show 40 ≤ 1075 by norm_num)))
  have hη0 : (0 : ℚ) < 1 / 2 ^ 1075 := one_div_pos.2 (pow_pos (by norm_num) _)
  have near : ∀ x : ℚ, 0 ≤ x → x ≤ 2 ^ 1023 → 0 ≤ fl64s x ∧ x * (1 - 1 / 2 ^ 53) ≤ fl64s x + 1 / 2 ^ 1075 ∧
      fl64s x * (1 - 1 / 2 ^ 53) ≤ x + 1 / 2 ^ 1075 := by
    intro x hx hx'
    obtain ⟨y, e, h1, h2, h3⟩ := ieeeRounding_bin64.near x hx hx'
    rw [bin64_le hx hx'] at e
    cases e
    exact ⟨h1, h2, h3⟩
  have hmx : (m : ℚ) ≤ 2 ^ 1023 := by linarith
  set v := fl64s m with hv
  have hbm : bin64 m = fin v := bin64_le hm0 hmx
  obtain ⟨v0, v1, v2⟩ := near m hm0 hmx
  rw [← hv] at v0 v1 v2
  -- integers are stored without underflow
  rcases Nat.eq_zero_or_pos m with rfl | hpos
  · have ht : total = 0 := by
      have := abs_le.1 h
      norm_num at this
      linarith
    subst ht
    decide +kernel
  have hone : (1 : ℚ) ≤ m := by exact_mod_cast hpos
  have w1 : (1 - 1 / 10 ^ 9) * (m : ℚ) ≤ v := by norm_num at v1 v2 hη ⊢; linarith
  have w2 : v ≤ (1 + 1 / 10 ^ 9) * (m : ℚ) := by norm_num at v1 v2 hη ⊢; linarith
  have hd : |total - v| ≤ 4 / 10 ^ 6 * m := by
    have := abs_le.1 h
    rw [abs_le]
    constructor <;> (norm_num at this w1 w2 ⊢; linarith)
  rw [hbm]
  unfold iscloseR
  rw [if_pos (by rfl)]
  have hdb : |total - v| ≤ 2 ^ 1023 := by
    refine hd.trans (le_trans ?_ hbig)
    linarith
  have e1 : rnd bin64 (fin total - fin v) = fin (fl64s (total - v)) := bin64_abs_le hdb
  have e2 : bin64 atolDefault = fin (fl64s atolDefault) := by decide +kernel
  have e3 : bin64 rtolDefault = fin (fl64s rtolDefault) := by decide +kernel
  have c1 : 99 / 10 ^ 7 ≤ fl64s rtolDefault := by decide +kernel
  have c2 : fl64s rtolDefault ≤ 1 := by decide +kernel
  have c4 : 0 ≤ fl64s atolDefault := by decide +kernel
  have c5 : fl64s atolDefault ≤ 1 := by decide +kernel
  have hrv0 : 0 ≤ fl64s rtolDefault * v := mul_nonneg (by linarith) v0
  have hrv1 : fl64s rtolDefault * v ≤ 10 ^ 11 := by
    refine (mul_le_of_le_one_left v0 c2).trans ?_
    linarith
  obtain ⟨r0, r1, r2⟩ := near _ hrv0 (hrv1.trans (le_trans (by norm_num) hbig))
  have e4 : rnd bin64 (fin (fl64s rtolDefault) * Ext.abs (fin v)) = fin (fl64s (fl64s rtolDefault * v)) := by
    show bin64 (fl64s rtolDefault * |v|) = _
    rw [abs_of_nonneg v0]
    exact bin64_le hrv0 (hrv1.trans (le_trans (by norm_num) hbig))
  have r3 : fl64s (fl64s rtolDefault * v) ≤ 2 * 10 ^ 11 := by
    norm_num at r2 hrv1 hη ⊢
    linarith
  have e5 : rnd bin64 (fin (fl64s atolDefault) + fin (fl64s (fl64s rtolDefault * v)))
      = fin (fl64s (fl64s atolDefault + fl64s (fl64s rtolDefault * v))) := by
    refine bin64_le (add_nonneg c4 r0) (le_trans ?_ hbig)
    norm_num at r3 ⊢
    linarith
  rw [e1, e2, e3, e4, e5]
  rw [show Ext.abs (fin (fl64s (total - v))) = fin |fl64s (total - v)| from rfl, le_lift, abs_fl64s]
  refine fl64s_mono (hd.trans ?_)
  have a1 : 99 / 10 ^ 7 * v ≤ fl64s rtolDefault * v := mul_le_mul_of_nonneg_right c1 v0
  norm_num at a1 w1 r1 hη ⊢
  linarith

end PySpline
