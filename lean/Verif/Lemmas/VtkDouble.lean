import Verif.Model.Rounded
import Verif.Lemmas.KnotFit
import Verif.Lemmas.Surface
import Verif.Props.Geometry

/-!
# The sampling loop of `surf_to_vtk` in double precision: lemmas
-/

set_option linter.unusedSectionVars false

namespace PySpline

/-! ## Numbers -/

/-- Numbers with at most 53 significant bits are kept. -/
theorem fl64_dyadic {m : ℕ} (hm : m ≤ 2 ^ 53) (z : ℤ) : fl64 ((m : ℚ) * 2 ^ z) = m * 2 ^ z := by
  rcases Nat.eq_zero_or_pos m with rfl | hm0
  · simp [fl64_zero]
  have hz : (0 : ℚ) < 2 ^ z := zpow_pos (by norm_num) _
  have hpos : (0 : ℚ) < (m : ℚ) * 2 ^ z := mul_pos (by exact_mod_cast hm0) hz
  rw [fl64_of_pos hpos]
  set L := Nat.log2 m with hL
  have h1 : 2 ^ L ≤ m := Nat.log2_self_le (by omega)
  have h2 : m < 2 ^ (L + 1) := Nat.lt_log2_self
  by_cases hL52 : L ≤ 52
  · have e : (m : ℚ) * 2 ^ z = ((m * 2 ^ (52 - L) : ℤ) : ℚ) * 2 ^ ((z + L) - 52) := by
      push_cast
      rw [mul_assoc, ← zpow_natCast, ← zpow_add₀ (by norm_num)]
      congr 2
      push_cast [hL52]
      ring
    rw [e]
    refine fl64pos_fix ?_ ?_
    · have : 2 ^ L * 2 ^ (52 - L) ≤ m * 2 ^ (52 - L) := Nat.mul_le_mul_right _ h1
      rw [← pow_add, show L + (52 - L) = 52 by omega] at this
      exact_mod_cast this
    · have : m * 2 ^ (52 - L) ≤ 2 ^ (L + 1) * 2 ^ (52 - L) := Nat.mul_le_mul_right _ h2.le
      rw [← pow_add, show L + 1 + (52 - L) = 53 by omega] at this
      exact_mod_cast this
  · have h53 : 2 ^ 53 ≤ m := (Nat.pow_le_pow_right (by norm_num) (by omega)).trans h1
    have : m = 2 ^ 53 := le_antisymm hm h53
    have e : (m : ℚ) * 2 ^ z = ((2 ^ 53 : ℤ) : ℚ) * 2 ^ ((z + 52) - 52) := by
      rw [this]; push_cast; norm_num
    rw [e]
    exact fl64pos_fix (by norm_num) (le_refl _)

theorem fl64_natCast {m : ℕ} (hm : m ≤ 2 ^ 53) : fl64 (m : ℚ) = m := by
  simpa using fl64_dyadic hm 0

theorem fl64_lower {x : ℚ} (hx : 0 ≤ x) : (1 - 1 / 2 ^ 53) * x ≤ fl64 x := accurate_fl64.lower x hx

theorem fl64_upper {x : ℚ} (hx : 0 ≤ x) : fl64 x ≤ (1 + 1 / 2 ^ 53) * x := by
  rcases hx.lt_or_eq with hx | rfl
  · rw [fl64_of_pos hx]
    have := (abs_le.1 (fl64pos_error hx)).2
    linarith
  · rw [fl64_zero, mul_zero]

theorem fl64_nonneg {x : ℚ} (hx : 0 ≤ x) : 0 ≤ fl64 x := by
  have := rounding_fl64.mono hx
  rwa [fl64_zero] at this

/-- The product of a number and its rounded reciprocal never exceeds one. -/
theorem fl64_recip_mul_le {n i : ℚ} (hn : 0 < n) (_ : 0 ≤ i) (hi : i ≤ n) :
    fl64 (i * fl64 (1 / n)) ≤ 1 := by
  have h1 : fl64 (1 / n) ≤ (1 + 1 / 2 ^ 53) * (1 / n) := fl64_upper (by positivity)
  have h2 : i * fl64 (1 / n) ≤ 1 + 1 / 2 ^ 53 := by
    calc i * fl64 (1 / n) ≤ n * ((1 + 1 / 2 ^ 53) * (1 / n)) :=
          mul_le_mul hi h1 (fl64_nonneg (by positivity)) hn.le
      _ = 1 + 1 / 2 ^ 53 := by field_simp
  have h3 : fl64 (1 + 1 / 2 ^ 53) = 1 := by decide +kernel
  exact (rounding_fl64.mono h2).trans_eq h3

/-! ## Loops -/

section
variable {α σ : Type}

theorem forL_cons (x : α) (l : List α) (s : σ) (f : α → σ → Py σ) :
    forL (x :: l) s f = f x s >>= fun s' => forL l s' f := rfl

theorem forL_append (l m : List α) (s : σ) (f : α → σ → Py σ) :
    forL (l ++ m) s f = forL l s f >>= fun s' => forL m s' f := by
  unfold forL
  rw [List.foldlM_append]

theorem forL_raises {l : List α} {f : α → σ → Py σ} {x : α} (hx : x ∈ l) (h : ∀ s, Raises (f x s))
    (s : σ) : Raises (forL l s f) := by
  induction l generalizing s with
  | nil => cases hx
  | cons y l ih =>
    rw [forL_cons]
    rcases List.mem_cons.1 hx with rfl | hx
    · exact Raises.bind_left (h s)
    · exact Raises.of_bind fun s' => ih hx s'

/-- Two nested loops are one loop over the pairs. -/
theorem forL_nested {β : Type} (l : List α) (m : List β) (s : σ) (f : α → β → σ → Py σ) :
    (forL l s fun a s => forL m s fun b s => f a b s)
      = forL (l.flatMap fun a => m.map fun b => (a, b)) s fun p s => f p.1 p.2 s := by
  induction l generalizing s with
  | nil => rfl
  | cons a l ih =>
    rw [forL_cons, List.flatMap_cons, forL_append]
    have : (forL m s fun b s => f a b s) = forL (m.map fun b => (a, b)) s fun p s => f p.1 p.2 s := by
      unfold forL
      rw [List.foldlM_map]
    rw [this]
    congr 1
    funext s'
    exact ih s'

/-- Storing more rows than there are is an `IndexError`. -/
theorem store_overflow {K : Type} {P : List α} {g : α → Py (List K)} {row : α → List K}
    (hg : ∀ p ∈ P, g p = .ok (row p)) {spts : List (List K)} {k : ℕ} (hk : k ≤ spts.length)
    (hl : spts.length < k + P.length) :
    (forL P (spts, k) fun p st => do
      let r ← g p
      let spts ← pySet st.1 (st.2 : ℤ) r
      .ok (spts, st.2 + 1)) = .error .indexError := by
  induction P generalizing spts k with
  | nil => simp at hl; omega
  | cons p P ih =>
    rw [forL_cons, hg p List.mem_cons_self, ok_bind]
    rcases hk.lt_or_eq with hk | hk
    · rw [pySet_nat _ _ k _ rfl hk, ok_bind, ok_bind]
      refine ih (fun q hq => hg q (List.mem_cons_of_mem _ hq)) ?_ ?_
      · simp; omega
      · simp at hl ⊢; omega
    · have : pySet spts (k : ℤ) (row p) = .error .indexError := by
        unfold pySet pyIdx
        rw [if_neg (by omega), if_neg (by omega)]
        rfl
      dsimp only
      rw [this]
      rfl

end

end PySpline
