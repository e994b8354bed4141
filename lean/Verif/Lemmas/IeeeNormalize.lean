import Verif.Model.IeeeNormalize
import Verif.Lemmas.IeeeDot
import Mathlib.Tactic.Positivity
import Mathlib.Tactic.Ring
import Mathlib.Tactic.Linarith

/-!
# Norms in IEEE arithmetic
-/

set_option linter.unusedSectionVars false

namespace PySpline

open Ext

variable {K : Type} [Field K] [LinearOrder K] [IsStrictOrderedRing K]

/-- What is assumed of the square root: of a stored number it is a stored number, with a relative error of
at most two roundings. -/
structure SqrtNear (ρ : K) (rd : K → Ext K) (sq : K → K) : Prop where
  stored : ∀ x, 0 ≤ x → rd x = fin x → rd (sq x) = fin (sq x)
  nonneg : ∀ x, 0 ≤ x → rd x = fin x → 0 ≤ sq x
  lower : ∀ x, 0 ≤ x → rd x = fin x → x * ρ ^ 4 ≤ sq x ^ 2
  upper : ∀ x, 0 ≤ x → rd x = fin x → sq x ^ 2 * ρ ^ 4 ≤ x

/-- The sum of the squares of the first entries. -/
def sqSum (L : List (Ext K × Ext K)) : K := (L.map fun q => q.1.val ^ 2).sum

theorem sqSum_append (L N : List (Ext K × Ext K)) : sqSum (L ++ N) = sqSum L + sqSum N := by
  simp [sqSum]

theorem sqSum_nonneg (L : List (Ext K × Ext K)) : 0 ≤ sqSum L := by
  unfold sqSum
  apply List.sum_nonneg
  intro x hx
  obtain ⟨q, -, rfl⟩ := List.mem_map.1 hx
  positivity

/-- The sum of the squares of numbers, in whatever order it is computed. -/
theorem DotR.squares {rd : K → Ext K} {ρ η M : K} (hr : IeeeRounding ρ η M rd) {L : List (Ext K × Ext K)}
    {e : Ext K} (h : DotR rd L e) (hsq : ∀ q ∈ L, ∃ a, q = (fin a, fin a))
    (hM : sqSum L + L.length * η ≤ M * ρ ^ L.length) :
    ∃ s, e = fin s ∧ rd s = fin s ∧ 0 ≤ s ∧ sqSum L * ρ ^ L.length ≤ s + L.length * η ∧
      s * ρ ^ L.length ≤ sqSum L + L.length * η := by
  have h0 := hr.pos
  have h1 := hr.le_one
  have hη := hr.eta
  have pw : ∀ {a b : ℕ}, a ≤ b → ρ ^ b ≤ ρ ^ a := fun h => pow_le_pow_of_le_one h0.le h1 h
  have pp : ∀ n : ℕ, 0 < ρ ^ n := fun n => pow_pos h0 n
  -- the bound for a part of the list
  have part : ∀ (m n : ℕ) (A B : K), 0 ≤ A → 0 ≤ B → m ≤ n → A + B + n * η ≤ M * ρ ^ n →
      A + m * η ≤ M * ρ ^ m := by
    intro m n A B hA hB hmn h
    have c1 : (m : K) * η ≤ n * η := mul_le_mul_of_nonneg_right (by exact_mod_cast hmn) hη
    have c2 : (0 : K) ≤ m * η := by positivity
    have c3 : 0 ≤ M := by
      by_contra hc
      have := mul_neg_of_neg_of_pos (not_le.1 hc) (pp n)
      have c4 : (0 : K) ≤ n * η := by positivity
      linarith
    have := mul_le_mul_of_nonneg_left (pw hmn) c3
    linarith
  induction h with
  | mul a b =>
    obtain ⟨x, hx⟩ := hsq (a, b) (by simp)
    cases hx
    simp only [sqSum, List.map_cons, List.map_nil, List.sum_cons, List.sum_nil, Ext.val, add_zero,
      List.length_cons, List.length_nil, zero_add, pow_one, Nat.cast_one, one_mul] at hM ⊢
    have hx2 : x * x = x ^ 2 := (sq x).symm
    have c3 : 0 ≤ M := by
      by_contra hc
      have := mul_neg_of_neg_of_pos (not_le.1 hc) h0
      nlinarith [sq_nonneg x]
    obtain ⟨y, e, hy, h2, h3⟩ := hr.near (x ^ 2) (sq_nonneg x) (by
      have := mul_le_of_le_one_right c3 h1
      linarith)
    refine ⟨y, ?_, hr.idem _ _ e, hy, h2, h3⟩
    show rd (x * x) = fin y
    rw [hx2, e]
  | @add l m s t hl hm il im =>
    rw [sqSum_append, List.length_append] at hM ⊢
    push_cast at hM ⊢
    have nl := sqSum_nonneg l
    have nm := sqSum_nonneg m
    have hM' : sqSum l + sqSum m + ((l.length + m.length : ℕ) : K) * η ≤ M * ρ ^ (l.length + m.length) := by
      push_cast; exact hM
    obtain ⟨x, rfl, x1, x2, x3, x4⟩ := il (fun q hq => hsq q (by simp [hq]))
      (part _ _ _ _ nl nm (Nat.le_add_right _ _) hM')
    obtain ⟨y, rfl, y1, y2, y3, y4⟩ := im (fun q hq => hsq q (by simp [hq]))
      (part _ (l.length + m.length) _ (sqSum l) nm nl (Nat.le_add_left _ _) (by rw [add_comm (sqSum m)]; exact hM'))
    have hl1 := hl.length_pos
    have hm1 := hm.length_pos
    have pl := pw (show l.length ≤ l.length + m.length by omega)
    have pm := pw (show m.length ≤ l.length + m.length by omega)
    have a1 := mul_le_mul_of_nonneg_left pl x2
    have a2 := mul_le_mul_of_nonneg_left pm y2
    have hsum : x + y ≤ M := by
      have : (x + y) * ρ ^ (l.length + m.length) ≤ M * ρ ^ (l.length + m.length) := by
        rw [add_mul]; linarith
      exact le_of_mul_le_mul_right this (pp _)
    obtain ⟨z, e, z1, z2, z3⟩ := hr.add x y x1 y1 (add_nonneg x2 y2) hsum
    refine ⟨z, e, hr.idem _ _ e, z1, ?_, ?_⟩
    · have b1 : sqSum l * ρ ^ (l.length + m.length) ≤ (x + l.length * η) * ρ := by
        have : ρ ^ (l.length + m.length) ≤ ρ ^ l.length * ρ := by
          rw [← pow_succ]; exact pw (by omega)
        have := mul_le_mul_of_nonneg_left this nl
        have := mul_le_mul_of_nonneg_right x3 h0.le
        linarith
      have b2 : sqSum m * ρ ^ (l.length + m.length) ≤ (y + m.length * η) * ρ := by
        have : ρ ^ (l.length + m.length) ≤ ρ ^ m.length * ρ := by
          rw [← pow_succ]; exact pw (by omega)
        have := mul_le_mul_of_nonneg_left this nm
        have := mul_le_mul_of_nonneg_right y3 h0.le
        linarith
      have b3 : ((l.length : K) * η + m.length * η) * ρ ≤ l.length * η + m.length * η :=
        mul_le_of_le_one_right (by positivity) h1
      linarith
    · have b1 : z * ρ ^ (l.length + m.length) ≤ (x + y) * ρ ^ (l.length + m.length - 1) := by
        have : ρ ^ (l.length + m.length) = ρ * ρ ^ (l.length + m.length - 1) := by
          rw [← pow_succ']; congr 1; omega
        rw [this, ← mul_assoc]
        exact mul_le_mul_of_nonneg_right z3 (pp _).le
      have b2 := mul_le_mul_of_nonneg_left (pw (show l.length ≤ l.length + m.length - 1 by omega)) x2
      have b3 := mul_le_mul_of_nonneg_left (pw (show m.length ≤ l.length + m.length - 1 by omega)) y2
      linarith
  | @fma l s a b hl il =>
    obtain ⟨c, hc⟩ := hsq (a, b) (by simp)
    cases hc
    rw [sqSum_append, List.length_append, show sqSum [((fin c : Ext K), (fin c : Ext K))] = c ^ 2 by
      simp [sqSum, Ext.val], List.length_singleton] at hM ⊢
    have nl := sqSum_nonneg l
    have nc := sq_nonneg c
    obtain ⟨x, rfl, x1, x2, x3, x4⟩ := il (fun q hq => hsq q (by simp [hq]))
      (part _ (l.length + 1) _ (c ^ 2) nl nc (Nat.le_add_right _ _) hM)
    push_cast at hM ⊢
    have hl1 := hl.length_pos
    have a1 := mul_le_mul_of_nonneg_left (pw (show l.length ≤ l.length + 1 by omega)) x2
    have a2 : c ^ 2 * ρ ^ (l.length + 1) ≤ c ^ 2 := mul_le_of_le_one_right nc (pow_le_one₀ h0.le h1)
    have hsum : x + c ^ 2 ≤ M := by
      have : (x + c ^ 2) * ρ ^ (l.length + 1) ≤ M * ρ ^ (l.length + 1) := by
        rw [add_mul]
        linarith
      exact le_of_mul_le_mul_right this (pp _)
    obtain ⟨z, e, z1, z2, z3⟩ := hr.near (x + c ^ 2) (add_nonneg x2 nc) hsum
    refine ⟨z, ?_, hr.idem _ _ e, z1, ?_, ?_⟩
    · show rd (x + c * c) = fin z
      rw [← sq, e]
    · have b1 := mul_le_mul_of_nonneg_right x3 h0.le
      have b2 : c ^ 2 * ρ ^ (l.length + 1) ≤ c ^ 2 * ρ := by
        have := pw (show 1 ≤ l.length + 1 by omega)
        rw [pow_one] at this
        exact mul_le_mul_of_nonneg_left this nc
      have b3 : ((l.length : K) * η) * ρ ≤ l.length * η := mul_le_of_le_one_right (by positivity) h1
      have e1 : ρ ^ (l.length + 1) = ρ ^ l.length * ρ := pow_succ _ _
      rw [add_mul]
      rw [e1] at b2 ⊢
      linarith
    · have b1 : z * ρ ^ (l.length + 1) ≤ (x + c ^ 2 + η) * ρ ^ l.length := by
        rw [pow_succ', ← mul_assoc]
        exact mul_le_mul_of_nonneg_right z3 (pp _).le
      have b2 : (c ^ 2 + η) * ρ ^ l.length ≤ c ^ 2 + η :=
        mul_le_of_le_one_right (by linarith) (pow_le_one₀ h0.le h1)
      linarith
  | @perm l m s hp hl il =>
    have e1 : sqSum m = sqSum l := ((hp.map _).sum_eq).symm
    have e2 : m.length = l.length := hp.length_eq.symm
    rw [e1, e2] at hM ⊢
    exact il (fun q hq => hsq q (hp.mem_iff.1 hq)) hM

/-- The norm that `NormalizeRowR` computes. -/
theorem NormR.near {rd : K → Ext K} {sq : K → K} {ρ η M : K} (hr : IeeeRounding ρ η M rd)
    (hq : SqrtNear ρ rd sq) {val : List K} {n : Ext K} (h : NormR rd sq (val.map fin) n)
    (hM : (val.map (· ^ 2)).sum + val.length * η ≤ M * ρ ^ val.length) :
    ∃ ν, n = fin ν ∧ rd ν = fin ν ∧ 0 ≤ ν ∧
      (val.map (· ^ 2)).sum * ρ ^ (val.length + 4) ≤ ν ^ 2 + val.length * η ∧
      ν ^ 2 * ρ ^ (val.length + 4) ≤ (val.map (· ^ 2)).sum + val.length * η := by
  obtain ⟨e, hd, rfl⟩ := h
  have ez : (val.map fin).zip (val.map fin) = val.map fun x => ((fin x : Ext K), (fin x : Ext K)) := by
    rw [List.zip_map']
  rw [ez] at hd
  have es : sqSum (val.map fun x => ((fin x : Ext K), (fin x : Ext K))) = (val.map (· ^ 2)).sum := by
    simp [sqSum, Function.comp_def, Ext.val]
  have el : (val.map fun x => ((fin x : Ext K), (fin x : Ext K))).length = val.length := by simp
  obtain ⟨s, rfl, s1, s2, s3, s4⟩ := hd.squares hr (by simp) (by rw [es, el]; exact hM)
  rw [es, el] at s3 s4
  have h0 := hr.pos
  have p4 : 0 ≤ ρ ^ 4 := (pow_pos h0 4).le
  have hη : (0 : K) ≤ val.length * η := mul_nonneg (Nat.cast_nonneg _) hr.eta
  have hp1 : ρ ^ 4 ≤ 1 := pow_le_one₀ h0.le hr.le_one
  refine ⟨sq s, by simp [sqrtR, not_lt.2 s2], hq.stored s s2 s1, hq.nonneg s s2 s1, ?_, ?_⟩
  · have a1 := mul_le_mul_of_nonneg_right s3 p4
    have a2 := hq.lower s s2 s1
    have a3 := mul_le_of_le_one_right hη hp1
    rw [pow_add]
    linarith
  · have a1 := mul_le_mul_of_nonneg_right (hq.upper s s2 s1) (pow_pos h0 val.length).le
    rw [pow_add]
    linarith

/-- What the division by the norm does to one component: `x / ν` with `ν ^ 2` near `S`. -/
theorem component_near {rd : K → Ext K} {ρ η M : K} (hr : IeeeRounding ρ η M rd) (hη1 : η ≤ 1) (hM2 : 2 ≤ M)
    {k : ℕ} (hρ : 1 / 4 ≤ ρ ^ (k + 1)) {S ν x : K} (hν : 0 < ν) (hx : x ^ 2 ≤ S)
    (h1 : S * ρ ^ k ≤ ν ^ 2) (h2 : ν ^ 2 * ρ ^ k ≤ S) :
    ∃ q, rnd rd ((fin x : Ext K) / fin ν) = fin q ∧ rd q = fin q ∧ 0 ≤ q * x ∧
      q ^ 2 * ρ ^ (k + 2) ≤ x ^ 2 / S + 25 * η ∧ x ^ 2 / S * ρ ^ (k + 2) ≤ q ^ 2 + 25 * η := by
  have h0 := hr.pos
  have hle := hr.le_one
  have hη := hr.eta
  have pk : 0 < ρ ^ k := pow_pos h0 k
  have hS : 0 < S := lt_of_lt_of_le (mul_pos (pow_pos hν 2) pk) h2
  have hρk : 1 / 4 ≤ ρ ^ k := hρ.trans (pow_le_pow_of_le_one h0.le hle (by omega))
  have hρ1 : 1 / 4 ≤ ρ := by
    have := hρ.trans (pow_le_pow_of_le_one h0.le hle (show 1 ≤ k + 1 by omega))
    simpa using this
  set t := |x| / ν with ht
  have t0 : 0 ≤ t := div_nonneg (abs_nonneg _) hν.le
  have t2 : t ^ 2 = x ^ 2 / ν ^ 2 := by rw [ht, div_pow, sq_abs]
  have hw0 : 0 ≤ x ^ 2 / S := div_nonneg (sq_nonneg _) hS.le
  have hw1 : x ^ 2 / S ≤ 1 := by rw [div_le_one hS]; exact hx
  have u1 : t ^ 2 * ρ ^ k ≤ x ^ 2 / S := by
    rw [t2, div_mul_eq_mul_div, div_le_div_iff₀ (pow_pos hν 2) hS, mul_assoc]
    refine mul_le_mul_of_nonneg_left ?_ (sq_nonneg x)
    rw [mul_comm]; exact h1
  have u2 : x ^ 2 / S * ρ ^ k ≤ t ^ 2 := by
    rw [t2, div_mul_eq_mul_div, div_le_div_iff₀ hS (pow_pos hν 2), mul_assoc]
    refine mul_le_mul_of_nonneg_left ?_ (sq_nonneg x)
    rw [mul_comm]; exact h2
  have t4 : t ≤ 2 := by
    have : t ^ 2 * (1 / 4) ≤ t ^ 2 * ρ ^ k := mul_le_mul_of_nonneg_left hρk (sq_nonneg t)
    nlinarith
  obtain ⟨y, e, y0, y1, y2⟩ := hr.near t t0 (t4.trans hM2)
  have y8 : y ≤ 12 := by
    have : y * (1 / 4) ≤ y * ρ := mul_le_mul_of_nonneg_left hρ1 y0
    linarith
  have bounds : y ^ 2 * ρ ^ (k + 2) ≤ x ^ 2 / S + 25 * η ∧ x ^ 2 / S * ρ ^ (k + 2) ≤ y ^ 2 + 25 * η := by
    constructor
    · have a1 : (y * ρ) ^ 2 ≤ (t + η) ^ 2 := pow_le_pow_left₀ (mul_nonneg y0 h0.le) y2 2
      have a2 : (t + η) ^ 2 ≤ t ^ 2 + 25 * η := by nlinarith
      have a3 := mul_le_mul_of_nonneg_right (a1.trans a2) pk.le
      have a4 : 25 * η * ρ ^ k ≤ 25 * η := mul_le_of_le_one_right (by linarith) (pow_le_one₀ h0.le hle)
      have a5 : y ^ 2 * ρ ^ (k + 2) = (y * ρ) ^ 2 * ρ ^ k := by ring
      rw [a5]; linarith
    · have a1 : (t * ρ) ^ 2 ≤ (y + η) ^ 2 := pow_le_pow_left₀ (mul_nonneg t0 h0.le) y1 2
      have a2 : (y + η) ^ 2 ≤ y ^ 2 + 25 * η := by nlinarith
      have a3 := mul_le_mul_of_nonneg_right u2 (pow_pos h0 2).le
      have a5 : x ^ 2 / S * ρ ^ (k + 2) = x ^ 2 / S * ρ ^ k * ρ ^ 2 := by ring
      have a6 : t ^ 2 * ρ ^ 2 = (t * ρ) ^ 2 := by ring
      rw [a5]; linarith
  have ed : (fin x : Ext K) / fin ν = fin (x / ν) := if_neg hν.ne'
  rcases le_total 0 x with hx0 | hx0
  · refine ⟨y, ?_, hr.idem _ _ e, mul_nonneg y0 hx0, bounds⟩
    rw [ed, show x / ν = t by rw [ht, abs_of_nonneg hx0]]
    exact e
  · refine ⟨-y, ?_, ?_, by nlinarith, by simpa using bounds.1, by simpa using bounds.2⟩
    · rw [ed, show x / ν = -t by rw [ht, abs_of_nonpos hx0, neg_div, neg_neg]]
      show rd (-t) = _
      rw [hr.neg, e]; rfl
    · rw [hr.neg, hr.idem _ _ e]; rfl

/-- The zero test: the norm is compared with the stored tolerance. -/
theorem iscloseR_zero {rd : K → Ext K} {ρ η M : K} (hr : IeeeRounding ρ η M rd) (hM : 1 ≤ M) {ν α : K}
    (hν : rd ν = fin ν) (hν0 : 0 ≤ ν) (hα : rd atolDefault = fin α) :
    iscloseR rd (fin ν) 0 rtolDefault atolDefault = true ↔ ν ≤ α := by
  obtain ⟨τ, hτ, -⟩ := hr.near rtolDefault (by unfold rtolDefault; positivity) (by
    refine le_trans ?_ hM
    unfold rtolDefault; norm_num)
  have e1 : rnd rd ((fin ν : Ext K) - 0) = fin ν := by
    show rd (ν - 0) = _
    rw [sub_zero, hν]
  have e2 : rnd rd (rd rtolDefault * Ext.abs (0 : Ext K)) = fin 0 := by
    rw [hτ]
    show rd (τ * |0|) = _
    rw [abs_zero, mul_zero, hr.zero]
  have e3 : rnd rd (rd atolDefault + fin 0) = fin α := by
    rw [hα]
    show rd (α + 0) = _
    rw [add_zero, hr.idem _ _ hα]
  unfold iscloseR
  rw [e1, e2, e3]
  show Ext.le (fin |ν|) (fin α) = true ↔ _
  rw [abs_of_nonneg hν0]
  simp [Ext.le, Ext.lt, Ext.eqv, le_iff_lt_or_eq]

/-- What is assumed of overflow: nonnegative results are nonnegative numbers or `inf`, and from `V` on they
are `inf`. -/
structure Overflows (V : K) (rd : K → Ext K) : Prop where
  nonneg : ∀ x, 0 ≤ x → rd x = inf false ∨ ∃ y, 0 ≤ y ∧ rd x = fin y
  large : ∀ x, 0 ≤ x → V ≤ x → rd x = inf false

/-- A sum of squares overflows when one of them does. -/
theorem DotR.overflow {rd : K → Ext K} {V : K} (hr : Overflows V rd) {L : List (Ext K × Ext K)} {e : Ext K}
    (h : DotR rd L e) (hsq : ∀ q ∈ L, ∃ a, q = (fin a, fin a)) :
    (e = inf false ∨ ∃ y, 0 ≤ y ∧ e = fin y) ∧
      ((∃ a, ((fin a : Ext K), (fin a : Ext K)) ∈ L ∧ V ≤ a ^ 2) → e = inf false) := by
  induction h with
  | mul a b =>
    obtain ⟨x, hx⟩ := hsq (a, b) (by simp)
    cases hx
    have e : rnd rd ((fin x : Ext K) * fin x) = rd (x ^ 2) := by
      show rd (x * x) = _
      rw [sq]
    rw [e]
    refine ⟨hr.nonneg _ (sq_nonneg x), ?_⟩
    rintro ⟨a, ha, hV⟩
    simp only [List.mem_singleton, Prod.mk.injEq, fin.injEq, and_self] at ha
    subst ha
    exact hr.large _ (sq_nonneg _) hV
  | @add l m s t hl hm il im =>
    obtain ⟨l1, l2⟩ := il fun q hq => hsq q (by simp [hq])
    obtain ⟨m1, m2⟩ := im fun q hq => hsq q (by simp [hq])
    have hif : ∀ y : K, rnd rd ((inf false : Ext K) + fin y) = inf false := fun _ => rfl
    have hfi : ∀ y : K, rnd rd ((fin y : Ext K) + inf false) = inf false := fun _ => rfl
    have hii : rnd rd ((inf false : Ext K) + inf false) = inf false := rfl
    constructor
    · rcases l1 with rfl | ⟨y, hy, rfl⟩ <;> rcases m1 with rfl | ⟨z, hz, rfl⟩
      · exact .inl hii
      · exact .inl (hif z)
      · exact .inl (hfi y)
      · exact hr.nonneg (y + z) (add_nonneg hy hz)
    · rintro ⟨a, ha, hV⟩
      rcases List.mem_append.1 ha with ha | ha
      · rw [l2 ⟨a, ha, hV⟩]
        rcases m1 with rfl | ⟨z, hz, rfl⟩
        · exact hii
        · exact hif z
      · rw [m2 ⟨a, ha, hV⟩]
        rcases l1 with rfl | ⟨y, hy, rfl⟩
        · exact hii
        · exact hfi y
  | @fma l s a b hl il =>
    obtain ⟨c, hc⟩ := hsq (a, b) (by simp)
    cases hc
    obtain ⟨l1, l2⟩ := il fun q hq => hsq q (by simp [hq])
    have hif : rnd rd ((inf false : Ext K) + fin c * fin c) = inf false := rfl
    have hff : ∀ y : K, rnd rd ((fin y : Ext K) + fin c * fin c) = rd (y + c ^ 2) := fun y => by
      show rd (y + c * c) = _
      rw [sq]
    constructor
    · rcases l1 with rfl | ⟨y, hy, rfl⟩
      · exact .inl hif
      · rw [hff]; exact hr.nonneg _ (add_nonneg hy (sq_nonneg c))
    · rintro ⟨a, ha, hV⟩
      rcases List.mem_append.1 ha with ha | ha
      · rw [l2 ⟨a, ha, hV⟩]; exact hif
      · simp only [List.mem_singleton, Prod.mk.injEq, fin.injEq, and_self] at ha
        subst ha
        rcases l1 with rfl | ⟨y, hy, rfl⟩
        · exact hif
        · rw [hff]
          exact hr.large _ (add_nonneg hy (sq_nonneg _)) (by linarith)
  | @perm l m s hp hl il =>
    obtain ⟨l1, l2⟩ := il fun q hq => hsq q (hp.mem_iff.1 hq)
    exact ⟨l1, fun ⟨a, ha, hV⟩ => l2 ⟨a, hp.mem_iff.2 ha, hV⟩⟩

end PySpline
