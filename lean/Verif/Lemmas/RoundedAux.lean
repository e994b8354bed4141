import Verif.Lemmas.Rounded
import Verif.Props.Surface
import Verif.Props.IO

/-!
# Auxiliary lemmas for `Props/Rounded.lean`
-/

set_option linter.unusedSectionVars false

namespace PySpline

open Polynomial Spec

section
variable {K : Type} [Field K] [LinearOrder K] [IsStrictOrderedRing K]

theorem pyDivFl_id (a b : K) : pyDivFl id a b = pyDiv a b := by
  unfold pyDivFl
  cases pyDiv a b <;> rfl

theorem normalizeFl_id (U : List K) : normalizeFl id U = normalize U := by
  unfold normalizeFl normalize
  simp only [pyDivFl_id, id]

theorem gridFl_id (N : ℕ) : gridFl id N = (grid N : List K) := rfl

theorem iscloseFl_id (a b r t : K) : iscloseFl id a b r t = isclose a b r t := rfl

theorem checkKnotVectorFl_id (p : ℕ) (U : List K) (n : ℕ) :
    checkKnotVectorFl id p U n = checkKnotVector p U n := by
  unfold checkKnotVectorFl checkKnotVector
  rw [normalizeFl_id]
  rfl

theorem linspace01Fl_id (num : ℤ) : linspace01Fl id num = linspace (0 : K) 1 num := by
  unfold linspace01Fl linspace
  split
  · rfl
  split
  · rfl
  · rename_i h1 h2
    congr 1
    refine List.map_congr_left fun i hi => ?_
    have hi' := List.mem_range.1 hi
    simp only [id, sub_zero, zero_add]
    split
    · rename_i h
      have e : (num : K) = (i : K) + 1 := by
        have : num = ((i + 1 : ℕ) : ℤ) := by omega
        rw [this]; push_cast; ring
      have : (i : K) ≠ 0 := by
        have : i ≠ 0 := by omega
        exact_mod_cast this
      rw [e, add_sub_cancel_right, mul_one_div, div_self this]
    · rfl

theorem generateUniformFl_id (p n : ℕ) : generateUniformFl id p n = generateUniform (K := K) p n := by
  unfold generateUniformFl generateUniform
  dsimp only
  rw [linspace01Fl_id]

theorem vtkSamplesFl_id [FloorRing K] (single : K → K → Py (List K)) (n : ℤ) :
    vtkSamplesFl id single n = vtkSamples single n := by
  unfold vtkSamplesFl vtkSamples arangeFl arange
  simp only [pyDivFl_id, id, add_sub_cancel_left]

theorem DotFl_id {l : List (K × K)} (hl : l ≠ []) (s : K) : DotFl id l s ↔ s = dotSum l := by
  have key : ∀ {l : List (K × K)} {s : K}, DotFl id l s → s = dotSum l := by
    intro l s h
    induction h with
    | mul a b => simp [dotSum]
    | add h1 h2 i1 i2 => rw [dotSum_append, i1, i2]; rfl
    | fma a b h i => rw [dotSum_append, i]; simp [dotSum]
    | perm hp h i => rw [← dotSum_perm hp]; exact i
  constructor
  · exact key
  · rintro rfl
    obtain ⟨s, hs⟩ := DotFl.exists id hl
    rwa [← key hs]

/-- The error of `bu @ M @ bv`. -/
theorem BilinearFl.approx {ρ : K} {fl : K → K} (hr : Rounding fl) (hf : Accurate ρ fl) {a b k l : ℕ}
    {bu bv : List K} {f h : ℕ → K} (g : ℕ → ℕ → K) (ha : 1 ≤ a) (hbu : bu.length = a) (hbv : bv.length = b)
    (hfu : ∀ i < a, Near ρ k (bu.getD i 0) (f i)) (hfv : ∀ j < b, Near ρ l (bv.getD j 0) (h j)) {x : K}
    (hx : BilinearFl fl bu ((List.range a).map fun i => (List.range b).map (g i)) bv x) :
    Approx (1 / ρ) (k + a + l + b) x (∑ i ∈ Finset.range a, ∑ j ∈ Finset.range b, f i * g i j * h j)
      (∑ i ∈ Finset.range a, ∑ j ∈ Finset.range b, f i * |g i j| * h j) := by
  obtain ⟨w, -, hw1, hw2, hw3, hw4⟩ := hx
  have hh : (((List.range a).map fun i => (List.range b).map (g i)).headD []).length = b := by
    obtain ⟨t, rfl⟩ : ∃ t, a = t + 1 := ⟨a - 1, by omega⟩
    rw [List.range_succ_eq_map]; simp
  rw [hh] at hw1
  have hcol : ∀ j < b, ((List.range a).map fun i => (List.range b).map (g i)).map (fun row => row.getD j 0)
      = (List.range a).map fun i => g i j := by
    intro j hj
    rw [List.map_map]
    refine List.map_congr_left fun i _ => ?_
    simp [List.getD_eq_getElem?_getD, hj]
  have hw : ∀ j < b, Approx (1 / ρ) (k + a) (w.getD j 0) (∑ i ∈ Finset.range a, f i * g i j)
      (∑ i ∈ Finset.range a, f i * |g i j|) := by
    intro j hj
    have := hw3 j (by omega)
    rw [hcol j hj] at this
    refine DotFl.approx hr hf hbu (by simp) (fun i hi => ?_) this
    have e : ((List.range a).map fun i => g i j).getD i 0 = g i j := by
      simp [List.getD_eq_getElem?_getD, hi]
    rw [e]
    exact ((hfu i hi).approx hf.pos hf.le_one).mul hf.one_le (Approx.refl hf.one_le 0 (g i j))
  have := DotFl.approx hr hf hw1 hbv (fun j hj =>
    (hw j hj).mul hf.one_le ((hfv j hj).approx hf.pos hf.le_one)) hw4
  have e : ∀ e : ℕ → ℕ → K, ∑ j ∈ Finset.range b, (∑ i ∈ Finset.range a, e i j) * h j
      = ∑ i ∈ Finset.range a, ∑ j ∈ Finset.range b, e i j * h j := by
    intro e
    rw [Finset.sum_comm]
    exact Finset.sum_congr rfl fun j _ => by rw [Finset.sum_mul]
  rwa [e, e] at this

theorem BilinearFl.exists (fl : K → K) {a b : ℕ} {bu bv : List K} (g : ℕ → ℕ → K) (ha : 1 ≤ a)
    (hb : 1 ≤ b) (hbu : bu.length = a) (hbv : bv.length = b) :
    ∃ x, BilinearFl fl bu ((List.range a).map fun i => (List.range b).map (g i)) bv x := by
  have hh : (((List.range a).map fun i => (List.range b).map (g i)).headD []).length = b := by
    obtain ⟨t, rfl⟩ : ∃ t, a = t + 1 := ⟨a - 1, by omega⟩
    rw [List.range_succ_eq_map]; simp
  have h1 : ∀ j, ∃ s, DotFl fl (bu.zip (((List.range a).map fun i => (List.range b).map (g i)).map
      fun row => row.getD j 0)) s := by
    intro j
    refine DotFl.exists fl fun h => ?_
    have := congrArg List.length h
    simp only [List.length_zip, List.length_map, List.length_range, List.length_nil] at this
    omega
  choose w hw using h1
  obtain ⟨x, hx⟩ := DotFl.exists fl (l := ((List.range b).map w).zip bv) (fun h => by
    have := congrArg List.length h
    simp only [List.length_zip, List.length_map, List.length_range, List.length_nil] at this
    omega)
  refine ⟨x, (List.range b).map w, by simp [hbu], by rw [hh]; simp, by simp [hbv], fun j hj => ?_, hx⟩
  have hj' : j < b := by simpa using hj
  have : ((List.range b).map w).getD j 0 = w j := by simp [List.getD_eq_getElem?_getD, hj']
  rw [this]
  exact hw j

theorem rounding_id : Rounding (id : K → K) := ⟨monotone_id, fun _ => rfl, rfl, fun _ => rfl⟩

theorem accurate_id : Accurate (1 : K) id :=
  ⟨one_pos, le_rfl, fun x _ => by simp, fun x _ => by simp⟩

end

end PySpline
