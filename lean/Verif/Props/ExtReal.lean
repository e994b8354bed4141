import Verif.Ext
import Mathlib.Data.EReal.Inv

/-!
# C147: the arithmetic with infinities and NaN against the extended reals of Mathlib

The tables of `Ext.lean` are compared with Mathlib's `EReal`, which has no NaN: wherever IEEE arithmetic does not give
NaN, the operations and comparisons are the ones of the extended reals.
-/

set_option linter.unusedSectionVars false

namespace PySpline

open Ext

/-- The extended real number (NaN, to which nothing below applies, is mapped to 0). -/
noncomputable def Ext.toEReal : Ext ℝ → EReal
  | fin x => (x : EReal)
  | inf false => ⊤
  | inf true => ⊥
  | nan => 0

/-- **C147.** Sums and differences: NaN arises from infinities that cancel, all else is as in the extended reals. -/
theorem ext_add (a b : Ext ℝ) (ha : a ≠ nan) (hb : b ≠ nan) :
    (a + b = nan ↔ (a.toEReal = ⊤ ∧ b.toEReal = ⊥) ∨ (a.toEReal = ⊥ ∧ b.toEReal = ⊤)) ∧
    (a + b ≠ nan → (a + b).toEReal = a.toEReal + b.toEReal) ∧
    (a - b = nan ↔ (a.toEReal = ⊤ ∧ b.toEReal = ⊤) ∨ (a.toEReal = ⊥ ∧ b.toEReal = ⊥)) ∧
    (a - b ≠ nan → (a - b).toEReal = a.toEReal - b.toEReal) ∧ (-a).toEReal = -a.toEReal := by
  have hn : ∀ a : Ext ℝ, -a = Ext.neg a := fun _ => rfl
  have h1 : ∀ a b : Ext ℝ, a + b = Ext.add a b := fun _ _ => rfl
  have h2 : ∀ a b : Ext ℝ, a - b = Ext.sub a b := fun _ _ => rfl
  rcases a with x | (_ | _) | _ <;> rcases b with y | (_ | _) | _ <;>
    simp_all [Ext.add, Ext.sub, Ext.neg, toEReal]

/-- **C147.** Products: NaN arises from zero times an infinity. -/
theorem ext_mul (a b : Ext ℝ) (ha : a ≠ nan) (hb : b ≠ nan) :
    (a * b = nan ↔ (a.toEReal = 0 ∧ (b.toEReal = ⊤ ∨ b.toEReal = ⊥)) ∨ ((a.toEReal = ⊤ ∨ a.toEReal = ⊥) ∧ b.toEReal = 0)) ∧
    (a * b ≠ nan → (a * b).toEReal = a.toEReal * b.toEReal) := by
  have h1 : ∀ a b : Ext ℝ, a * b = Ext.mul a b := fun _ _ => rfl
  rcases a with x | (_ | _) | _ <;> rcases b with y | (_ | _) | _ <;> simp_all [Ext.mul, toEReal]
  all_goals
    intro h
    rcases lt_or_gt_of_ne h with h' | h'
    · simp [h', EReal.coe_mul_top_of_neg, EReal.coe_mul_bot_of_neg, EReal.top_mul_coe_of_neg, EReal.bot_mul_coe_of_neg]
    · simp [h', not_lt.2 h'.le, EReal.coe_mul_top_of_pos, EReal.coe_mul_bot_of_pos, EReal.top_mul_coe_of_pos,
        EReal.bot_mul_coe_of_pos]

/-- **C147.** Quotients: NaN arises from 0/0 and from two infinities; a number or infinity divided by zero is an infinity
with its sign. -/
theorem ext_div (a b : Ext ℝ) (ha : a ≠ nan) (hb : b ≠ nan) :
    (a / b = nan ↔ (a.toEReal = 0 ∧ b.toEReal = 0) ∨ ((a.toEReal = ⊤ ∨ a.toEReal = ⊥) ∧ (b.toEReal = ⊤ ∨ b.toEReal = ⊥))) ∧
    (a / b ≠ nan → b.toEReal ≠ 0 → (a / b).toEReal = a.toEReal / b.toEReal) ∧
    (b.toEReal = 0 → (0 < a.toEReal → (a / b).toEReal = ⊤) ∧ (a.toEReal < 0 → (a / b).toEReal = ⊥)) := by
  have h1 : ∀ a b : Ext ℝ, a / b = Ext.div a b := fun _ _ => rfl
  rcases a with x | (_ | _) | _ <;> rcases b with y | (_ | _) | _ <;> simp_all [Ext.div, toEReal]
  · by_cases hy : y = 0
    · rcases lt_trichotomy x 0 with hx | hx | hx
      · simp [hy, hx, hx.ne, not_lt.2 hx.le]
      · simp [hy, hx]
      · simp [hy, hx, hx.ne', not_lt.2 hx.le]
    · simp [hy, EReal.coe_div]
  · intro h
    rcases lt_or_gt_of_ne h with h' | h'
    · simp [h', EReal.top_div_of_neg_ne_bot]
    · simp [not_lt.2 h'.le, h', EReal.top_div_of_pos_ne_top]
  · intro h
    rcases lt_or_gt_of_ne h with h' | h'
    · simp [h', EReal.bot_div_of_neg_ne_bot]
    · simp [not_lt.2 h'.le, h', EReal.bot_div_of_pos_ne_top]

/-- **C147.** Comparisons, absolute value, largest and smallest number. -/
theorem ext_order (a b : Ext ℝ) (ha : a ≠ nan) (hb : b ≠ nan) :
    (lt a b = true ↔ a.toEReal < b.toEReal) ∧ (le a b = true ↔ a.toEReal ≤ b.toEReal) ∧
    (eqv a b = true ↔ a.toEReal = b.toEReal) ∧ (Ext.abs a).toEReal = (a.toEReal.abs : EReal) ∧
    (max2 a b).toEReal = max a.toEReal b.toEReal ∧ (min2 a b).toEReal = min a.toEReal b.toEReal ∧
    (isFin a = true ↔ a.toEReal ≠ ⊤ ∧ a.toEReal ≠ ⊥) := by
  rcases a with x | (_ | _) | _ <;> rcases b with y | (_ | _) | _ <;>
    simp_all [lt, le, eqv, max2, min2, isFin, Ext.abs, toEReal]
  refine ⟨le_iff_lt_or_eq.symm, ?_, ?_⟩
  · split
    · next h => split at h <;> simp_all [le_of_lt]
    all_goals (next h => split at h <;> simp at h)
  · split
    · next h => split at h <;> simp_all [le_of_lt]
    all_goals (next h => split at h <;> simp at h)

/-- **C147.** NaN is contagious and not comparable, even with itself. -/
theorem ext_nan {K : Type} [Field K] [LinearOrder K] (a : Ext K) :
    a + nan = nan ∧ nan + a = nan ∧ a - nan = nan ∧ nan - a = nan ∧ a * nan = nan ∧ nan * a = nan ∧ a / nan = nan ∧
    nan / a = nan ∧ -nan = (nan : Ext K) ∧ Ext.abs nan = (nan : Ext K) ∧ max2 a nan = nan ∧ max2 nan a = nan ∧
    min2 a nan = nan ∧ min2 nan a = nan ∧ lt a nan = false ∧ lt nan a = false ∧ le a nan = false ∧ le nan a = false ∧
    eqv a nan = false ∧ eqv nan a = false ∧ isFin (nan : Ext K) = false := by
  rcases a with x | s | _ <;> simp [max2, min2, lt, le, eqv, isFin, Ext.abs] <;> repeat' constructor

/-! ## Concrete cases -/

example : (fin 1 : Ext ℚ) / 0 = inf false ∧ (fin (-1) : Ext ℚ) / 0 = inf true ∧ (0 : Ext ℚ) / 0 = nan ∧
    (inf false : Ext ℚ) - inf false = nan ∧ (inf true : Ext ℚ) * fin (-2) = inf false ∧ (fin 3 : Ext ℚ) / inf true = 0 ∧
    Ext.abs (inf true) = (inf false : Ext ℚ) := by decide +kernel
/-- `np.isclose`: an infinity is close to itself only, NaN to nothing. -/
example : Ext.isclose (inf false) (inf false) (fin (1/10)) (0 : Ext ℚ) = true ∧
    Ext.isclose (fin 5) (inf false) (fin (1/10)) (0 : Ext ℚ) = false ∧
    Ext.isclose nan nan (fin (1/10)) (0 : Ext ℚ) = false ∧
    Ext.isclose (fin 10) (fin 9) (fin (1/10)) (0 : Ext ℚ) = false ∧
    Ext.isclose (fin 9) (fin 10) (fin (1/10)) (0 : Ext ℚ) = true := by decide +kernel

end PySpline
