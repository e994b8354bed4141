import Verif.Lemmas.ExtendedMore
import Verif.Spec

/-!
# How infinities and NaN propagate
-/

set_option linter.unusedSectionVars false

namespace PySpline

open Ext

namespace Ext
variable {K : Type} [Field K] [LinearOrder K]

theorem exists_fin {x : Ext K} (h : x.isFin = true) : ∃ y, x = fin y := by
  cases x with
  | fin y => exact ⟨y, rfl⟩
  | inf s => exact absurd h (by simp [isFin])
  | nan => exact absurd h (by simp [isFin])

theorem isFin_fin (x : K) : (fin x).isFin = true := rfl

theorem nonfin_add_left {x : Ext K} (h : x.isFin = false) (y : Ext K) : (x + y).isFin = false := by
  cases x <;> cases y <;> first | rfl | (exact (Bool.noConfusion (h : true = false))) | skip
  rename_i s t
  show Ext.isFin (if s = t then inf s else nan) = false
  split_ifs <;> rfl

theorem nonfin_add_right {x : Ext K} (h : x.isFin = false) (y : Ext K) : (y + x).isFin = false := by
  cases x <;> cases y <;> first | rfl | (exact (Bool.noConfusion (h : true = false))) | skip
  rename_i s t
  show Ext.isFin (if t = s then inf t else nan) = false
  split_ifs <;> rfl

theorem nonfin_sub_left {x : Ext K} (h : x.isFin = false) (y : Ext K) : (x - y).isFin = false := by
  cases x <;> cases y <;> first | rfl | (exact (Bool.noConfusion (h : true = false))) | skip
  rename_i s t
  show Ext.isFin (if s = t then nan else inf s) = false
  split_ifs <;> rfl

theorem nonfin_sub_right {x : Ext K} (h : x.isFin = false) (y : Ext K) : (y - x).isFin = false := by
  cases x <;> cases y <;> first | rfl | (exact (Bool.noConfusion (h : true = false))) | skip
  rename_i s t
  show Ext.isFin (if t = s then nan else inf t) = false
  split_ifs <;> rfl

theorem nonfin_mul_right {x : Ext K} (h : x.isFin = false) (y : Ext K) : (y * x).isFin = false := by
  cases x <;> cases y <;> first | rfl | (exact (Bool.noConfusion (h : true = false))) | skip
  rename_i s t
  show Ext.isFin (if t = 0 then nan else inf (decide (t < 0) ^^ s)) = false
  split_ifs <;> rfl

theorem nonfin_mul_left {x : Ext K} (h : x.isFin = false) (y : Ext K) : (x * y).isFin = false := by
  cases x <;> cases y <;> first | rfl | (exact (Bool.noConfusion (h : true = false))) | skip
  rename_i s t
  show Ext.isFin (if t = 0 then nan else inf (decide (t < 0) ^^ s)) = false
  split_ifs <;> rfl

theorem nonfin_div_left {x : Ext K} (h : x.isFin = false) (y : Ext K) : (x / y).isFin = false := by
  cases x <;> cases y <;> first | rfl | (exact (Bool.noConfusion (h : true = false)))

theorem nonfin_div_nonfin {x y : Ext K} (hx : x.isFin = false) (hy : y.isFin = false) : x / y = nan := by
  cases x <;> cases y <;>
    first | rfl | (exact (Bool.noConfusion (hx : true = false))) | (exact (Bool.noConfusion (hy : true = false)))

theorem nonfin_abs {x : Ext K} (h : x.isFin = false) : (Ext.abs x).isFin = false := by
  cases x <;> first | rfl | (exact (Bool.noConfusion (h : true = false)))

theorem nan_add (x : Ext K) : nan + x = nan := by cases x <;> rfl
theorem add_nan (x : Ext K) : x + nan = nan := by cases x <;> rfl
theorem nan_sub (x : Ext K) : nan - x = nan := by cases x <;> rfl
theorem sub_nan (x : Ext K) : x - nan = nan := by cases x <;> rfl
theorem nan_mul (x : Ext K) : nan * x = nan := by cases x <;> rfl
theorem mul_nan' (x : Ext K) : x * nan = nan := by cases x <;> rfl
theorem nan_div (x : Ext K) : nan / x = nan := by cases x <;> rfl
theorem div_nan (x : Ext K) : x / nan = nan := by cases x <;> rfl

theorem lt_nan_left (x : Ext K) : lt nan x = false := by cases x <;> rfl
theorem lt_nan_right (x : Ext K) : lt x nan = false := by cases x <;> rfl
theorem le_nan_right (x : Ext K) : le x nan = false := by cases x <;> rfl
theorem eqv_nan_left (x : Ext K) : eqv nan x = false := by cases x <;> rfl

theorem isclose_nan_left (x rtol atol : Ext K) : Ext.isclose nan x rtol atol = false := by
  cases x <;> rfl

theorem isclose_nan_right (x rtol atol : Ext K) : Ext.isclose x nan rtol atol = false := by
  cases x <;> rfl

end Ext

section
variable {K : Type} [Field K] [LinearOrder K]

/-- A property of extended numbers that every operation keeps. -/
structure Absorbing (Q : Ext K → Prop) : Prop where
  add_left : ∀ x y, Q x → Q (x + y)
  add_right : ∀ x y, Q x → Q (y + x)
  mul_left : ∀ x y, Q x → Q (x * y)
  mul_right : ∀ x y, Q x → Q (y * x)
  div : ∀ x y, Q x → Q (x / y)

theorem absorbing_nonfin : Absorbing fun x : Ext K => x.isFin = false :=
  ⟨fun _ y h => nonfin_add_left h y, fun _ y h => nonfin_add_right h y, fun _ y h => nonfin_mul_left h y,
    fun _ y h => nonfin_mul_right h y, fun _ y h => nonfin_div_left h y⟩

theorem absorbing_nan : Absorbing fun x : Ext K => x = nan :=
  ⟨fun _ y h => by rw [h, nan_add], fun _ y h => by rw [h, add_nan], fun _ y h => by rw [h, nan_mul],
    fun _ y h => by rw [h, mul_nan'], fun _ y h => by rw [h, nan_div]⟩

/-- If the two values after the first round have an absorbing property, so have all values. -/
theorem basisFunctionsE_absorb {Q : Ext K → Prop} (hQ : Absorbing Q) (U : List (Ext K)) (k p : ℕ) (u : Ext K)
    (hp1 : 1 ≤ p) (hp : p ≤ k) (hk : k + p < U.length)
    (h0 : Q (0 + (U.getD (k + 1) 0 - u) * (1 / (U.getD (k + 1) 0 - u + (u - U.getD k 0)))))
    (h1 : Q ((u - U.getD k 0) * (1 / (U.getD (k + 1) 0 - u + (u - U.getD k 0))))) :
    ∃ N, basisFunctionsE (k : ℤ) u p U = .ok N ∧ N.length = p + 1 ∧ ∀ x ∈ N, Q x := by
  suffices H : Returns (basisFunctionsE (k : ℤ) u p U)
      (fun N => N.length = p + 1 ∧ ∀ r ≤ p, Q (N.getD r 0)) by
    obtain ⟨N, hN, hl, hq⟩ := H
    refine ⟨N, hN, hl, fun x hx => ?_⟩
    obtain ⟨i, hi, rfl⟩ := List.getElem_of_mem hx
    have := hq i (by omega)
    rwa [List.getD_eq_getElem?_getD, List.getElem?_eq_getElem hi] at this
  unfold basisFunctionsE
  refine Returns.bind (P := fun st => st.1.length = p + 1 ∧ ∀ r ≤ p, Q (st.1.getD r 0)) ?_ ?_
  · refine (Returns.forN (fun j (st : List (Ext K) × List (Ext K) × List (Ext K)) =>
        st.1.length = p + 1 ∧ st.2.1.length = p + 1 ∧ st.2.2.length = p + 1 ∧
        (∀ i, 1 ≤ i → i < j → st.2.1.getD i 0 = u - U.getD (k + 1 - i) 0) ∧
        (∀ i, 1 ≤ i → i < j → st.2.2.getD i 0 = U.getD (k + i) 0 - u) ∧
        (j = 1 → st.1.getD 0 0 = 1) ∧ (2 ≤ j → ∀ r < j, Q (st.1.getD r 0))) (by omega) ?_ ?_).mono
        fun st hst => ⟨hst.1, fun r hr => hst.2.2.2.2.2.2 (by omega) r (by omega)⟩
    · refine ⟨by simp, by simp, by simp, by omega, by omega, fun _ => ?_, by omega⟩
      simp [List.getD_eq_getElem?_getD]
    · rintro j ⟨N, left, right⟩ hj1 hjp ⟨hN, hl, hr, hleft, hright, hbase, hall⟩
      dsimp only at *
      rw [pyGet_nat U _ (k + 1 - j) 0 (by omega) (by omega), ok_bind,
        pySet_nat left _ j _ rfl (by omega), ok_bind,
        pyGet_nat U _ (k + j) 0 (by omega) (by omega), ok_bind,
        pySet_nat right _ j _ rfl (by omega), ok_bind]
      set left' := left.set j (u - U.getD (k + 1 - j) 0) with hleft'
      set right' := right.set j (U.getD (k + j) 0 - u) with hright'
      have hL : ∀ i, 1 ≤ i → i < j + 1 → left'.getD i 0 = u - U.getD (k + 1 - i) 0 := by
        intro i hi1 hi2
        rw [hleft', getD_set _ _ _ _ _ (by omega)]
        by_cases e : i = j
        · rw [if_pos e, e]
        · rw [if_neg e, hleft i hi1 (by omega)]
      have hR : ∀ i, 1 ≤ i → i < j + 1 → right'.getD i 0 = U.getD (k + i) 0 - u := by
        intro i hi1 hi2
        rw [hright', getD_set _ _ _ _ _ (by omega)]
        by_cases e : i = j
        · rw [if_pos e, e]
        · rw [if_neg e, hright i hi1 (by omega)]
      have hl' : left'.length = p + 1 := by rw [hleft', List.length_set, hl]
      have hr' : right'.length = p + 1 := by rw [hright', List.length_set, hr]
      refine Returns.bind (P := fun st : List (Ext K) × Ext K => st.1.length = p + 1 ∧
        (∀ r < j, Q (st.1.getD r 0)) ∧ Q st.2) ?_ ?_
      · refine (Returns.forN (fun r (st : List (Ext K) × Ext K) => st.1.length = p + 1 ∧
          (∀ i < r, Q (st.1.getD i 0)) ∧ (0 < r → Q st.2) ∧
          (r = 0 → st.2 = 0) ∧ (∀ i, r ≤ i → st.1.getD i 0 = N.getD i 0)) (by omega) ?_ ?_).mono
          fun st hst => ⟨hst.1, hst.2.1, hst.2.2.1 (by omega)⟩
        · exact ⟨hN, by omega, by omega, fun _ => rfl, fun _ _ => rfl⟩
        · rintro r ⟨M, saved⟩ - hrj ⟨hM, hq, hs, hs0, hrest⟩
          dsimp only at *
          rw [pyGet_nat M _ r 0 rfl (by omega), ok_bind,
            pyGet_nat right' _ (r + 1) 0 (by omega) (by omega), ok_bind,
            pyGet_nat left' _ (j - r) 0 (by omega) (by omega), ok_bind]
          unfold divE
          rw [ok_bind, pySet_nat M _ r _ rfl (by omega), ok_bind]
          have key : Q (saved + right'.getD (r + 1) 0 *
              (M.getD r 0 / (right'.getD (r + 1) 0 + left'.getD (j - r) 0))) ∧
              Q (left'.getD (j - r) 0 *
                (M.getD r 0 / (right'.getD (r + 1) 0 + left'.getD (j - r) 0))) := by
            by_cases hj : j = 1
            · subst hj
              have hr0 : r = 0 := by omega
              subst hr0
              rw [hs0 rfl, hrest 0 le_rfl, hbase rfl, hR 1 le_rfl (by omega), hL 1 le_rfl (by omega)]
              exact ⟨h0, h1⟩
            · have hqr : Q (M.getD r 0) := by
                rw [hrest r le_rfl]
                exact hall (by omega) r hrj
              exact ⟨hQ.add_right _ _ (hQ.mul_right _ _ (hQ.div _ _ hqr)),
                hQ.mul_right _ _ (hQ.div _ _ hqr)⟩
          refine Returns.ok ⟨by simp [hM], ?_, fun _ => key.2, by omega, ?_⟩
          · intro i hi
            rw [getD_set _ _ _ _ _ (by omega)]
            by_cases e : i = r
            · rw [if_pos e]
              exact key.1
            · rw [if_neg e]
              exact hq i (by omega)
          · intro i hi
            rw [getD_set _ _ _ _ _ (by omega), if_neg (by omega)]
            exact hrest i (by omega)
      · rintro ⟨M, saved⟩ ⟨hM, hq, hs⟩
        dsimp only at *
        rw [pySet_nat M _ j _ rfl (by omega), ok_bind]
        refine Returns.ok ⟨by simp [hM], hl', hr', hL, hR, by omega, fun _ i hi => ?_⟩
        rw [getD_set _ _ _ _ _ (by omega)]
        by_cases e : i = j
        · rw [if_pos e]
          exact hs
        · rw [if_neg e]
          exact hq i (by omega)
  · rintro ⟨N, left, right⟩ h
    exact Returns.ok h

theorem sum_absorb {Q : Ext K → Prop} (hQ : Absorbing Q) {l : List (Ext K)} {x : Ext K} (hx : x ∈ l) (h : Q x) :
    Q l.sum := by
  induction l with
  | nil => exact absurd hx (by simp)
  | cons y ys ih =>
    rw [List.sum_cons]
    rcases List.mem_cons.1 hx with e | e
    · rw [← e]
      exact hQ.add_left _ _ h
    · exact hQ.add_right _ _ (ih e)

/-- A product of arrays of which one has an absorbing entry. -/
theorem dotE_absorb_left {Q : Ext K → Prop} (hQ : Absorbing Q) {a b : List (Ext K)} (hl : a.length = b.length)
    {i : ℕ} (hi : i < a.length) (h : Q (a.getD i 0)) : ∃ x, dotE a b = .ok x ∧ Q x := by
  unfold dotE
  rw [if_pos hl]
  refine ⟨_, rfl, sum_absorb hQ (x := a.getD i 0 * b.getD i 0) ?_ (hQ.mul_left _ _ h)⟩
  have hb : i < b.length := by omega
  rw [List.getD_eq_getElem?_getD, List.getD_eq_getElem?_getD, List.getElem?_eq_getElem hi,
    List.getElem?_eq_getElem hb]
  refine List.mem_of_getElem? (i := i) ?_
  rw [List.getElem?_zipWith, List.getElem?_eq_getElem hi, List.getElem?_eq_getElem hb]
  rfl

theorem dotE_absorb_right {Q : Ext K → Prop} (hQ : Absorbing Q) {a b : List (Ext K)} (hl : a.length = b.length)
    {i : ℕ} (hi : i < a.length) (h : Q (b.getD i 0)) : ∃ x, dotE a b = .ok x ∧ Q x := by
  unfold dotE
  rw [if_pos hl]
  refine ⟨_, rfl, sum_absorb hQ (x := a.getD i 0 * b.getD i 0) ?_ (hQ.mul_right _ _ h)⟩
  have hb : i < b.length := by omega
  rw [List.getD_eq_getElem?_getD, List.getD_eq_getElem?_getD, List.getElem?_eq_getElem hi,
    List.getElem?_eq_getElem hb]
  refine List.mem_of_getElem? (i := i) ?_
  rw [List.getElem?_zipWith, List.getElem?_eq_getElem hi, List.getElem?_eq_getElem hb]
  rfl

end

end PySpline
