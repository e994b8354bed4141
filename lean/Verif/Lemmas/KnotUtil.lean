import Verif.Model.Knots
import Verif.Lemmas.BasisFunctions
import Mathlib.Tactic.FieldSimp

/-!
# Helper lemmas for `normalize`, `check_knot_vector`, `generate_uniform`, `find_multiplicity`
-/

set_option linter.unusedSectionVars false

namespace PySpline

open Spec

variable {K : Type} [Field K] [LinearOrder K] [IsStrictOrderedRing K]

theorem foldl_max_spec (l : List K) (x : K) :
    (l.foldl max x ∈ x :: l) ∧ ∀ y ∈ x :: l, y ≤ l.foldl max x := by
  induction l generalizing x with
  | nil => simp
  | cons a l ih =>
    obtain ⟨h1, h2⟩ := ih (max x a)
    simp only [List.foldl_cons]
    constructor
    · rcases List.mem_cons.1 h1 with h | h
      · rw [h]; rcases max_choice x a with h' | h' <;> rw [h'] <;> simp
      · exact List.mem_cons_of_mem _ (List.mem_cons_of_mem _ h)
    · intro y hy
      rcases List.mem_cons.1 hy with rfl | hy
      · exact (le_max_left _ _).trans (h2 _ (List.mem_cons_self ..))
      · rcases List.mem_cons.1 hy with rfl | hy
        · exact (le_max_right _ _).trans (h2 _ (List.mem_cons_self ..))
        · exact h2 y (List.mem_cons_of_mem _ hy)

theorem foldl_min_spec (l : List K) (x : K) :
    (l.foldl min x ∈ x :: l) ∧ ∀ y ∈ x :: l, l.foldl min x ≤ y := by
  induction l generalizing x with
  | nil => simp
  | cons a l ih =>
    obtain ⟨h1, h2⟩ := ih (min x a)
    simp only [List.foldl_cons]
    constructor
    · rcases List.mem_cons.1 h1 with h | h
      · rw [h]; rcases min_choice x a with h' | h' <;> rw [h'] <;> simp
      · exact List.mem_cons_of_mem _ (List.mem_cons_of_mem _ h)
    · intro y hy
      rcases List.mem_cons.1 hy with rfl | hy
      · exact (h2 _ (List.mem_cons_self ..)).trans (min_le_left _ _)
      · rcases List.mem_cons.1 hy with rfl | hy
        · exact (h2 _ (List.mem_cons_self ..)).trans (min_le_right _ _)
        · exact h2 y (List.mem_cons_of_mem _ hy)

theorem npMax_eq {U : List K} {hi : K} (h : hi ∈ U) (hmax : ∀ x ∈ U, x ≤ hi) :
    npMax U = .ok hi := by
  cases U with
  | nil => simp at h
  | cons x l =>
    obtain ⟨h1, h2⟩ := foldl_max_spec l x
    show Except.ok (l.foldl max x) = _
    rw [le_antisymm (hmax _ h1) (h2 _ h)]

theorem npMin_eq {U : List K} {lo : K} (h : lo ∈ U) (hmin : ∀ x ∈ U, lo ≤ x) :
    npMin U = .ok lo := by
  cases U with
  | nil => simp at h
  | cons x l =>
    obtain ⟨h1, h2⟩ := foldl_min_spec l x
    show Except.ok (l.foldl min x) = _
    rw [le_antisymm (h2 _ h) (hmin _ h1)]

theorem exists_min_max {U : List K} (h : U ≠ []) :
    ∃ lo hi, lo ∈ U ∧ hi ∈ U ∧ ∀ x ∈ U, lo ≤ x ∧ x ≤ hi := by
  cases U with
  | nil => exact absurd rfl h
  | cons x l =>
    exact ⟨_, _, (foldl_min_spec l x).1, (foldl_max_spec l x).1, fun y hy =>
      ⟨(foldl_min_spec l x).2 y hy, (foldl_max_spec l x).2 y hy⟩⟩

theorem normalize_eq {U : List K} {lo hi : K} (h1 : lo ∈ U) (h2 : hi ∈ U)
    (hb : ∀ x ∈ U, lo ≤ x ∧ x ≤ hi) (hlt : lo < hi) :
    normalize U = .ok (U.map fun x => (x - lo) / (hi - lo)) := by
  unfold normalize
  rw [npMax_eq h2 fun x hx => (hb x hx).2, ok_bind, npMin_eq h1 fun x hx => (hb x hx).1, ok_bind]
  dsimp only
  rw [pyDiv_ok (by intro h; linarith), ok_bind, List.map_map]
  congr 1
  refine List.map_congr_left fun x _ => ?_
  simp only [Function.comp]
  ring

theorem normalize_const {U : List K} (hne : U ≠ []) (hc : ∀ x ∈ U, ∀ y ∈ U, x = y) :
    normalize U = .error .nonfinite := by
  obtain ⟨lo, hi, h1, h2, hb⟩ := exists_min_max hne
  unfold normalize
  rw [npMax_eq h2 fun x hx => (hb x hx).2, ok_bind, npMin_eq h1 fun x hx => (hb x hx).1, ok_bind]
  dsimp only
  rw [pyDiv_zero (by rw [hc hi h2 lo h1]; ring)]
  rfl

theorem increasingFrom_iff (prev : K) (l : List K) :
    increasingFrom prev l = true ↔ (prev :: l).Pairwise (· ≤ ·) := by
  induction l generalizing prev with
  | nil => simp [increasingFrom]
  | cons a l ih =>
    unfold increasingFrom
    by_cases h : a < prev
    · rw [if_pos h]
      simp only [Bool.false_eq_true, false_iff]
      intro hp
      exact absurd (List.rel_of_pairwise_cons hp (List.mem_cons_self ..)) (not_le.2 h)
    · rw [if_neg h, ih a]
      constructor
      · intro hp
        refine List.pairwise_cons.2 ⟨?_, hp⟩
        intro x hx
        rcases List.mem_cons.1 hx with rfl | hx
        · exact not_lt.1 h
        · exact (not_lt.1 h).trans (List.rel_of_pairwise_cons hp hx)
      · intro hp; exact (List.pairwise_cons.1 hp).2

theorem increasingFrom_head (a : K) (l : List K) :
    increasingFrom a (a :: l) = true ↔ (a :: l).Pairwise (· ≤ ·) := by
  rw [increasingFrom_iff]
  constructor
  · intro h; exact (List.pairwise_cons.1 h).2
  · intro h
    refine List.pairwise_cons.2 ⟨?_, h⟩
    intro x hx
    rcases List.mem_cons.1 hx with rfl | hx
    · exact le_rfl
    · exact List.rel_of_pairwise_cons h hx

theorem iscloseD_iff (a b : K) :
    iscloseD a b = true ↔ |a - b| ≤ 1 / 10 ^ 8 + 1 / 10 ^ 5 * |b| := by
  unfold iscloseD isclose atolDefault rtolDefault
  rw [decide_eq_true_eq]

theorem findMultiplicity_eq_countP (u : K) (U : List K) :
    findMultiplicity u U = U.countP (fun x => iscloseD u x) := by
  unfold findMultiplicity
  suffices H : ∀ (l : List K) (m : ℕ),
      l.foldl (fun mult x => if iscloseD u x then mult + 1 else mult) m
        = m + l.countP (fun x => iscloseD u x) by rw [H, Nat.zero_add]
  intro l
  induction l with
  | nil => intro m; simp
  | cons a l ih =>
    intro m
    rw [List.foldl_cons, ih, List.countP_cons]
    split <;> omega

end PySpline
