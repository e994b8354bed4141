import Verif.Model.Vtk
import Verif.Lemmas.Meth
import Verif.Lemmas.StartValues
import Verif.Props.IO

/-!
# Lemmas on meshes over the parameter grid
-/

set_option linter.unusedSectionVars false

namespace PySpline

open Spec

theorem mapPy_map {α β : Type} {f : α → Py β} {g : α → β} {l : List α} (h : ∀ x ∈ l, f x = .ok (g x)) :
    mapPy f l = .ok (l.map g) := by
  induction l with
  | nil => rfl
  | cons x l ih =>
    rw [mapPy, h x (by simp), ok_bind, ih fun y hy => h y (by simp [hy]), ok_bind]
    rfl

section
variable {K : Type} [Field K] [LinearOrder K] [IsStrictOrderedRing K]

/-- Two integers at which `x² - 2ax` takes its least value on `{0, …, n}` are equal or neighbours. -/
theorem minimisers_close {n : ℕ} {h a : K} (hh : 0 < h) {i j : ℕ} (hi : i ≤ n) (hj : j ≤ n)
    (mi : ∀ k ≤ n, ((i : K) * h - a) ^ 2 ≤ ((k : K) * h - a) ^ 2)
    (mj : ∀ k ≤ n, ((j : K) * h - a) ^ 2 ≤ ((k : K) * h - a) ^ 2) : i ≤ j + 1 := by
  by_contra hc
  have hij : j + 2 ≤ i := by omega
  have a1 := mi (j + 1) (by omega)
  have a2 := mj (j + 1) (by omega)
  have a3 := le_antisymm (mi j hj) (mj i hi)
  have hd : ((j : K) + 2) ≤ i := by exact_mod_cast hij
  push_cast at a1 a2
  -- the sum of both ends is twice `a`
  have hs : ((i : K) * h + j * h - 2 * a) * ((i : K) * h - j * h) = 0 := by linear_combination a3
  have hne : (i : K) * h - j * h ≠ 0 := by
    have : 0 < ((i : K) - j) * h := mul_pos (by linarith) hh
    intro h0
    rw [← sub_mul] at h0
    exact this.ne' h0
  have hsum := (mul_eq_zero.1 hs).resolve_right hne
  have ha : a = ((i : K) + j) * h / 2 := by linear_combination -hsum / 2
  rw [ha] at a2
  have e : (((j : K) + 1) * h - ((i : K) + j) * h / 2) ^ 2 - ((j : K) * h - ((i : K) + j) * h / 2) ^ 2
      = h ^ 2 * (1 - (i - j)) := by ring
  have : h ^ 2 * (1 - ((i : K) - j)) < 0 := mul_neg_of_pos_of_neg (by positivity) (by linarith)
  linarith

/-- If a function of both coordinates separately is least at a point of a grid, each part is least at its coordinate. -/
theorem least_parts {n : ℕ} {f g : ℕ → K} {i j : ℕ} (hi : i ≤ n) (hj : j ≤ n)
    (h : ∀ k ≤ n, ∀ l ≤ n, f i + g j ≤ f k + g l) : (∀ k ≤ n, f i ≤ f k) ∧ ∀ l ≤ n, g j ≤ g l :=
  ⟨fun k hk => by linarith [h k hk j hj], fun l hl => by linarith [h i hi l hl]⟩

/-- The weighted sum of a list of numbers. -/
theorem sum_map_const_mul (t : List ℕ) (w f : ℕ → K) (a b : K) :
    (t.map fun x => w x * (a + f x * b)).sum = a * (t.map w).sum + b * (t.map fun x => w x * f x).sum := by
  induction t with
  | nil => simp
  | cons x t ih => simp only [List.map_cons, List.sum_cons, ih]; ring

/-- The mean deviation of a quantity with two values from its mean is at most half their difference. -/
theorem mean_deviation {t : List ℕ} {w g : ℕ → K} (h0 : ∀ x ∈ t, 0 ≤ w x) (h1 : (t.map w).sum = 1) {a h : K}
    (hh : 0 < h) (hg : ∀ x ∈ t, g x = a ∨ g x = a + h) :
    (t.map fun x => w x * |g x - (t.map fun y => w y * g y).sum|).sum ≤ h / 2 := by
  set m := (t.map fun y => w y * g y).sum with hm
  have hlo : a ≤ m := by
    have : (t.map fun x => w x * a).sum ≤ m := List.sum_le_sum fun x hx =>
      mul_le_mul_of_nonneg_left (by rcases hg x hx with h | h <;> simp [h, hh.le]) (h0 x hx)
    rwa [List.sum_map_mul_right, h1, one_mul] at this
  have hhi : m ≤ a + h := by
    have : m ≤ (t.map fun x => w x * (a + h)).sum := List.sum_le_sum fun x hx =>
      mul_le_mul_of_nonneg_left (by rcases hg x hx with h | h <;> simp [h, hh.le]) (h0 x hx)
    rwa [List.sum_map_mul_right, h1, one_mul] at this
  set d := m - a with hd
  have hlin : ∀ x ∈ t, w x * |g x - m| = w x * ((d - a * (1 - 2 * d / h)) + g x * (1 - 2 * d / h)) := by
    intro x hx
    congr 1
    rcases hg x hx with hgx | hgx
    · rw [hgx, abs_sub_comm, abs_of_nonneg (by linarith), hd]; ring
    · rw [hgx, abs_of_nonneg (by linarith), hd]; field_simp; ring
  rw [List.map_congr_left hlin, sum_map_const_mul, h1, ← hm]
  have e : (d - a * (1 - 2 * d / h)) * 1 + (1 - 2 * d / h) * m = 2 * d * (h - d) / h := by
    rw [show m = a + d by rw [hd]; ring]; field_simp; ring
  rw [e, div_le_iff₀ hh]
  nlinarith [sq_nonneg (h - 2 * d)]

/-- A weighted mean of numbers is as close to a given number as the numbers are on average. -/
theorem abs_mean_sub_le {t : List ℕ} {w c : ℕ → K} (h0 : ∀ x ∈ t, 0 ≤ w x) (h1 : (t.map w).sum = 1) (y : K) :
    |(t.map fun x => w x * c x).sum - y| ≤ (t.map fun x => w x * |c x - y|).sum := by
  have e : (t.map fun x => w x * c x).sum - y = (t.map fun x => w x * (c x - y)).sum := by
    have : (t.map fun x => w x * (c x - y)).sum = (t.map fun x => w x * (-y + c x * 1)).sum := by
      congr 1; exact List.map_congr_left fun x _ => by ring
    rw [this, sum_map_const_mul, h1]; ring
  rw [e]
  clear e h1
  induction t with
  | nil => simp
  | cons x t ih =>
    simp only [List.map_cons, List.sum_cons]
    refine (abs_add_le _ _).trans (add_le_add ?_ (ih fun z hz => h0 z (by simp [hz])))
    rw [abs_mul, abs_of_nonneg (h0 x (by simp))]

end

end PySpline
