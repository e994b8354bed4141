import Verif.Lemmas.VtkDouble
import Verif.Props.IO

/-!
# C97: the sampling loop of `surf_to_vtk` in double precision
-/

set_option linter.unusedSectionVars false

namespace PySpline

/-- `1 / n_tri` in double precision. -/
def vtkStep (n : ℕ) : ℚ := fl64 (1 / n)

/-- `1 + 1 / n_tri` in double precision. -/
def vtkStop (n : ℕ) : ℚ := fl64 (1 + vtkStep n)

/-- The number of parameters per direction, the length of `np.arange(0, end, 1 / n_tri)`. -/
def vtkLen (n : ℕ) : ℤ := ⌈fl64 (vtkStop n / vtkStep n)⌉

/-- The number of rows allocated per direction, `int((end - start) * n_tri)`. -/
def vtkSize (n : ℕ) : ℤ := ⌊fl64 (vtkStop n * n)⌋

/-- The parameters. -/
def vtkParam (n i : ℕ) : ℚ := fl64 ((i : ℚ) * vtkStep n)

section numbers
variable {n : ℕ}

theorem vtkStep_bounds (hn : 1 ≤ n) : 0 < vtkStep n ∧ (1 - 1 / 2 ^ 53) ≤ vtkStep n * n ∧
    vtkStep n * n ≤ 1 + 1 / 2 ^ 53 := by
  have hn0 : (0 : ℚ) < n := by exact_mod_cast hn
  have h1 := fl64_lower (x := 1 / (n : ℚ)) (by positivity)
  have h2 := fl64_upper (x := 1 / (n : ℚ)) (by positivity)
  refine ⟨fl64_pos (by positivity), ?_, ?_⟩
  · calc (1 - 1 / 2 ^ 53 : ℚ) = (1 - 1 / 2 ^ 53) * (1 / n) * n := by field_simp
      _ ≤ _ := mul_le_mul_of_nonneg_right h1 hn0.le
  · calc vtkStep n * n ≤ (1 + 1 / 2 ^ 53) * (1 / n) * n := mul_le_mul_of_nonneg_right h2 hn0.le
      _ = 1 + 1 / 2 ^ 53 := by field_simp

theorem vtkStop_bounds (hn : 1 ≤ n) : 0 < vtkStop n ∧ (1 - 1 / 2 ^ 53) * (1 + vtkStep n) ≤ vtkStop n ∧
    vtkStop n ≤ (1 + 1 / 2 ^ 53) * (1 + vtkStep n) := by
  have h := (vtkStep_bounds hn).1
  exact ⟨fl64_pos (by linarith), fl64_lower (by linarith), fl64_upper (by linarith)⟩

/-- **C97.** The loop has `n_tri + 1` or `n_tri + 2` parameters per direction. -/
theorem vtk_len (hn : 1 ≤ n) (hn' : n ≤ 2 ^ 50) : vtkLen n = n + 1 ∨ vtkLen n = n + 2 := by
  have hn0 : (1 : ℚ) ≤ n := by exact_mod_cast hn
  have hn1 : (n : ℚ) ≤ 2 ^ 50 := by exact_mod_cast hn'
  obtain ⟨s0, s1, s2⟩ := vtkStep_bounds hn
  obtain ⟨t0, t1, t2⟩ := vtkStop_bounds hn
  set s := vtkStep n
  set t := vtkStop n
  have q1 : (1 - 1 / 2 ^ 53) ^ 2 * (n + 1 : ℚ) ≤ t / s := by
    rw [le_div_iff₀ s0]
    refine le_trans ?_ t1
    rw [pow_two, mul_assoc, mul_assoc]
    refine mul_le_mul_of_nonneg_left ?_ (by norm_num)
    nlinarith
  have q2 : t / s ≤ (1 + 2 / 2 ^ 53) ^ 2 * (n + 1 : ℚ) := by
    rw [div_le_iff₀ s0]
    refine t2.trans ?_
    have : 1 ≤ (1 + 2 / 2 ^ 53) * (s * n) := by nlinarith
    nlinarith
  have p := fl64_lower (x := t / s) (by positivity)
  have p' := fl64_upper (x := t / s) (by positivity)
  have l1 : (n : ℚ) < fl64 (t / s) := by
    have : (1 - 1 / 2 ^ 53) * ((1 - 1 / 2 ^ 53) ^ 2 * (n + 1 : ℚ)) ≤ fl64 (t / s) :=
      le_trans (mul_le_mul_of_nonneg_left q1 (by norm_num)) p
    refine lt_of_lt_of_le ?_ this
    have c : (1 - 1 / 2 ^ 53 : ℚ) * (1 - 1 / 2 ^ 53) ^ 2 = 1 - (1 - (1 - 1 / 2 ^ 53) ^ 3) := by ring
    rw [← mul_assoc, c]
    have : (1 - (1 - 1 / 2 ^ 53 : ℚ) ^ 3) * (2 ^ 50 + 1) < 1 := by norm_num
    have : (1 - (1 - 1 / 2 ^ 53 : ℚ) ^ 3) * (n + 1) ≤ (1 - (1 - 1 / 2 ^ 53 : ℚ) ^ 3) * (2 ^ 50 + 1) :=
      mul_le_mul_of_nonneg_left (by linarith) (by norm_num)
    linarith
  have l2 : fl64 (t / s) ≤ n + 2 := by
    refine p'.trans ((mul_le_mul_of_nonneg_left q2 (by norm_num)).trans ?_)
    rw [← mul_assoc]
    have c : (1 + 1 / 2 ^ 53 : ℚ) * (1 + 2 / 2 ^ 53) ^ 2 ≤ 1 + 6 / 2 ^ 53 := by norm_num
    nlinarith
  have a : (n : ℤ) < vtkLen n := Int.lt_ceil.2 (by exact_mod_cast l1)
  have b : vtkLen n ≤ n + 2 := Int.ceil_le.2 (by push_cast; exact l2)
  omega

/-- **C97.** It allocates rows for `n_tri` or `n_tri + 1` parameters per direction. -/
theorem vtk_size (hn : 1 ≤ n) (hn' : n ≤ 2 ^ 50) : vtkSize n = n ∨ vtkSize n = n + 1 := by
  have hn0 : (1 : ℚ) ≤ n := by exact_mod_cast hn
  have hn1 : (n : ℚ) ≤ 2 ^ 50 := by exact_mod_cast hn'
  obtain ⟨s0, s1, s2⟩ := vtkStep_bounds hn
  obtain ⟨t0, t1, t2⟩ := vtkStop_bounds hn
  set s := vtkStep n
  set t := vtkStop n
  have q1 : (1 - 1 / 2 ^ 53) ^ 2 * (n + 1 : ℚ) ≤ t * n := by
    refine le_trans ?_ (mul_le_mul_of_nonneg_right t1 (by linarith))
    rw [pow_two, mul_assoc, mul_assoc]
    refine mul_le_mul_of_nonneg_left ?_ (by norm_num)
    nlinarith
  have q2 : t * n ≤ (1 + 1 / 2 ^ 53) ^ 2 * (n + 1 : ℚ) := by
    refine (mul_le_mul_of_nonneg_right t2 (by linarith)).trans ?_
    rw [pow_two, mul_assoc, mul_assoc]
    refine mul_le_mul_of_nonneg_left ?_ (by norm_num)
    nlinarith
  have p := fl64_lower (x := t * n) (by positivity)
  have p' := fl64_upper (x := t * n) (by positivity)
  have l1 : (n : ℚ) ≤ fl64 (t * n) := by
    have : (1 - 1 / 2 ^ 53) * ((1 - 1 / 2 ^ 53) ^ 2 * (n + 1 : ℚ)) ≤ fl64 (t * n) :=
      le_trans (mul_le_mul_of_nonneg_left q1 (by norm_num)) p
    refine le_trans ?_ this
    have c : (1 - 1 / 2 ^ 53 : ℚ) * (1 - 1 / 2 ^ 53) ^ 2 = 1 - (1 - (1 - 1 / 2 ^ 53) ^ 3) := by ring
    rw [← mul_assoc, c]
    have : (1 - (1 - 1 / 2 ^ 53 : ℚ) ^ 3) * (2 ^ 50 + 1) < 1 := by norm_num
    have : (1 - (1 - 1 / 2 ^ 53 : ℚ) ^ 3) * (n + 1) ≤ (1 - (1 - 1 / 2 ^ 53 : ℚ) ^ 3) * (2 ^ 50 + 1) :=
      mul_le_mul_of_nonneg_left (by linarith) (by norm_num)
    linarith
  have l2 : fl64 (t * n) < n + 2 := by
    refine lt_of_le_of_lt (p'.trans (mul_le_mul_of_nonneg_left q2 (by norm_num))) ?_
    rw [← mul_assoc]
    have c : (1 + 1 / 2 ^ 53 : ℚ) * (1 + 1 / 2 ^ 53) ^ 2 ≤ 1 + 6 / 2 ^ 53 := by norm_num
    nlinarith
  have a : (n : ℤ) ≤ vtkSize n := Int.le_floor.2 (by exact_mod_cast l1)
  have b : vtkSize n < n + 2 := Int.floor_lt.2 (by push_cast; exact l2)
  omega

/-- **C97.** The first `n_tri + 1` parameters are in `[0, 1]` and ascending, the first is `0`; the next
one is above `1`. -/
theorem vtk_param (hn : 1 ≤ n) (hn' : n ≤ 2 ^ 50) : vtkParam n 0 = 0 ∧
    (∀ i ≤ n, 0 ≤ vtkParam n i ∧ vtkParam n i ≤ 1) ∧
    (∀ i j, i ≤ j → vtkParam n i ≤ vtkParam n j) ∧ 1 < vtkParam n (n + 1) := by
  have hn0 : (1 : ℚ) ≤ n := by exact_mod_cast hn
  have hn1 : (n : ℚ) ≤ 2 ^ 50 := by exact_mod_cast hn'
  obtain ⟨s0, s1, s2⟩ := vtkStep_bounds hn
  refine ⟨by simp [vtkParam, fl64_zero], fun i hi => ⟨fl64_nonneg (by positivity), ?_⟩,
    fun i j hij => rounding_fl64.mono (mul_le_mul_of_nonneg_right (by exact_mod_cast hij) s0.le), ?_⟩
  · exact fl64_recip_mul_le (by linarith) (by positivity) (by exact_mod_cast hi)
  · refine lt_of_lt_of_le ?_ (fl64_lower (by positivity))
    push_cast
    have h1 : (n : ℚ) * vtkStep n + vtkStep n ≥ (1 - 1 / 2 ^ 53) + vtkStep n := by linarith
    have h2 : vtkStep n ≥ 1 / 2 ^ 51 := by
      have : 1 / 2 ^ 51 * (n : ℚ) ≤ vtkStep n * n := by
        refine le_trans ?_ s1
        have : 1 / 2 ^ 51 * (n : ℚ) ≤ 1 / 2 ^ 51 * 2 ^ 50 := mul_le_mul_of_nonneg_left hn1 (by norm_num)
        refine this.trans (by norm_num)
      exact le_of_mul_le_mul_right this (by linarith)
    nlinarith

end numbers
/-! ## The loop -/

section loop
variable {n : ℕ}

theorem arange_vtk (n : ℕ) : arangeFl fl64 0 (vtkStop n) (vtkStep n)
    = (List.range (vtkLen n).toNat).map fun i => vtkParam n i := by
  unfold arangeFl vtkLen vtkParam
  dsimp only
  have i := rounding_fl64.idem
  have e1 : fl64 (vtkStop n - 0) = vtkStop n := by rw [sub_zero]; exact i _
  have e2 : fl64 (fl64 (0 + vtkStep n) - 0) = vtkStep n := by
    rw [sub_zero, zero_add, i]; exact i _
  rw [e1, e2]
  refine List.map_congr_left fun k _ => ?_
  rw [zero_add, i]

/-- The body of the sampling loop. -/
def vtkBody (single : ℚ → ℚ → Py (List ℚ)) (u v : ℚ) (st : List (List ℚ) × ℕ) :
    Py (List (List ℚ) × ℕ) := do
  let q ← single u v
  let row := q ++ [u, v]
  let _ ← (if row.length = 5 then .ok () else .error .valueError : Py Unit)
  let spts ← pySet st.1 (st.2 : ℤ) row
  .ok (spts, st.2 + 1)

theorem vtkSamplesFl_eq (hn : 1 ≤ n) (single : ℚ → ℚ → Py (List ℚ)) :
    vtkSamplesFl fl64 single n = (do
      let (spts, _) ← forL ((List.range (vtkLen n).toNat).map fun i => vtkParam n i)
        ((zeros2 (vtkSize n * vtkSize n).toNat 5 : List (List ℚ)), (0 : ℕ)) fun u st =>
          forL ((List.range (vtkLen n).toNat).map fun i => vtkParam n i) st fun v st =>
            vtkBody single u v st
      .ok spts) := by
  have hn0 : (0 : ℚ) < n := by exact_mod_cast hn
  unfold vtkSamplesFl pyDivFl
  rw [Int.cast_natCast, pyDiv_ok hn0.ne', ok_bind, ok_bind]
  dsimp only
  have e1 : fl64 (fl64 (1 + fl64 (1 / (n : ℚ))) - 0) = vtkStop n := by
    rw [sub_zero]; exact rounding_fl64.idem _
  have e2 : fl64 (1 + fl64 (1 / (n : ℚ))) = vtkStop n := rfl
  have e3 : fl64 (1 / (n : ℚ)) = vtkStep n := rfl
  have e4 : pyTrunc (fl64 (vtkStop n * n)) = vtkSize n := by
    unfold pyTrunc
    rw [if_pos (fl64_nonneg (mul_nonneg (vtkStop_bounds hn).1.le hn0.le))]
    rfl
  rw [e1, e4, e2, e3, arange_vtk n]
  rfl

theorem vtkBody_ok {single : ℚ → ℚ → Py (List ℚ)} {u v : ℚ} {q : List ℚ} (h : single u v = .ok q)
    (hq : q.length = 3) (st : List (List ℚ) × ℕ) : vtkBody single u v st = (do
      let r ← (.ok (q ++ [u, v]) : Py (List ℚ))
      let spts ← pySet st.1 (st.2 : ℤ) r
      .ok (spts, st.2 + 1)) := by
  unfold vtkBody
  rw [h, ok_bind]
  dsimp only
  rw [if_pos (by simp [hq]), ok_bind, ok_bind]

/-- **C97.** If both counts are `n_tri + 1`, the loop fills exactly the rows allocated: row
`i (n_tri + 1) + j` is the point at parameters `i` and `j`, followed by these. -/
theorem vtk_double_grid (hn : 1 ≤ n) (hl : vtkLen n = n + 1) (hs : vtkSize n = n + 1)
    {single : ℚ → ℚ → Py (List ℚ)} {f : ℚ → ℚ → List ℚ}
    (hf : ∀ i ≤ n, ∀ j ≤ n, single (vtkParam n i) (vtkParam n j) = .ok (f (vtkParam n i) (vtkParam n j)))
    (h3 : ∀ u v, (f u v).length = 3) :
    vtkSamplesFl fl64 single n = .ok ((List.range ((n + 1) * (n + 1))).map fun x =>
      f (vtkParam n (x / (n + 1))) (vtkParam n (x % (n + 1)))
        ++ [vtkParam n (x / (n + 1)), vtkParam n (x % (n + 1))]) := by
  rw [vtkSamplesFl_eq hn, hl, hs]
  have hz : (((n : ℤ) + 1) * ((n : ℤ) + 1)).toNat = (n + 1) * (n + 1) := by
    rw [show ((n : ℤ) + 1) * ((n : ℤ) + 1) = (((n + 1) * (n + 1) : ℕ) : ℤ) by push_cast; ring,
      Int.toNat_natCast]
  have hz' : ((n : ℤ) + 1).toNat = n + 1 := by omega
  rw [hz, hz', forL_map_range]
  have key := double_loop (n + 1) (n + 1) (w := 5) (fun x =>
      f (vtkParam n (x / (n + 1))) (vtkParam n (x % (n + 1)))
        ++ [vtkParam n (x / (n + 1)), vtkParam n (x % (n + 1))]) (fun t => by simp [h3])
    (fun i j st => vtkBody single (vtkParam n i) (vtkParam n j) st) (by
    intro i j d hi hj hd
    rw [vtkBody_ok (hf i (by omega) j (by omega)) (h3 _ _), ok_bind,
      pySet_nat d _ (i * (n + 1) + j) _ rfl (by rw [hd.1]; exact index_lt hi hj), ok_bind]
    have e1 : (i * (n + 1) + j) / (n + 1) = i := by
      rw [Nat.mul_comm, Nat.mul_add_div (by omega), Nat.div_eq_of_lt hj, Nat.add_zero]
    have e2 : (i * (n + 1) + j) % (n + 1) = j := by
      rw [Nat.mul_comm, Nat.mul_add_mod, Nat.mod_eq_of_lt hj]
    rw [e1, e2])
  rw [forN_congr (g := fun i st => forN 0 (n + 1) st fun j st =>
    vtkBody single (vtkParam n i) (vtkParam n j) st), key, ok_bind]
  intro i s _ _
  rw [forL_map_range]

/-- **C97.** If there are `n_tri + 2` parameters, the loop raises for every surface: the last parameter
is above `1`. -/
theorem vtk_double_beyond (hn : 1 ≤ n) (hn' : n ≤ 2 ^ 50) (hl : vtkLen n = n + 2)
    {single : ℚ → ℚ → Py (List ℚ)} (hf : ∀ u v, 1 < v → Raises (single u v)) :
    Raises (vtkSamplesFl fl64 single n) := by
  rw [vtkSamplesFl_eq hn]
  refine Raises.bind_left ?_
  have hz : (vtkLen n).toNat = n + 2 := by omega
  rw [hz]
  have hm : ∀ i < n + 2, vtkParam n i ∈ (List.range (n + 2)).map fun i => vtkParam n i :=
    fun i hi => List.mem_map.2 ⟨i, List.mem_range.2 hi, rfl⟩
  refine forL_raises (hm 0 (by omega)) (fun s => ?_) _
  refine forL_raises (hm (n + 1) (by omega)) (fun s => ?_) _
  exact Raises.bind_left (hf _ _ (vtk_param hn hn').2.2.2)

/-- **C97.** If there are `n_tri + 1` parameters but only `n_tri` are allowed for, the loop ends with an
`IndexError`. -/
theorem vtk_double_overflow (hn : 1 ≤ n) (hl : vtkLen n = n + 1) (hs : vtkSize n = n)
    {single : ℚ → ℚ → Py (List ℚ)} {f : ℚ → ℚ → List ℚ}
    (hf : ∀ i ≤ n, ∀ j ≤ n, single (vtkParam n i) (vtkParam n j) = .ok (f (vtkParam n i) (vtkParam n j)))
    (h3 : ∀ u v, (f u v).length = 3) :
    vtkSamplesFl fl64 single n = .error .indexError := by
  rw [vtkSamplesFl_eq hn, hl, hs]
  have hz : ((n : ℤ) * (n : ℤ)).toNat = n * n := by
    rw [← Nat.cast_mul, Int.toNat_natCast]
  have hz' : ((n : ℤ) + 1).toNat = n + 1 := by omega
  rw [hz, hz', forL_nested]
  have hmem : ∀ p ∈ ((List.range (n + 1)).map fun i => vtkParam n i).flatMap
      (fun a => ((List.range (n + 1)).map fun i => vtkParam n i).map fun b => (a, b)),
      single p.1 p.2 = .ok (f p.1 p.2) := by
    intro p hp
    simp only [List.mem_flatMap, List.mem_map, List.mem_range] at hp
    obtain ⟨_, ⟨i, hi, rfl⟩, _, ⟨j, hj, rfl⟩, rfl⟩ := hp
    exact hf i (by omega) j (by omega)
  have e : ∀ (P : List (ℚ × ℚ)), (∀ p ∈ P, single p.1 p.2 = .ok (f p.1 p.2)) →
      ∀ s : List (List ℚ) × ℕ, (forL P s fun p st => vtkBody single p.1 p.2 st)
        = forL P s (fun p st => (do
          let r ← (.ok (f p.1 p.2 ++ [p.1, p.2]) : Py (List ℚ))
          let spts ← pySet st.1 (st.2 : ℤ) r
          .ok (spts, st.2 + 1) : Py (List (List ℚ) × ℕ))) := by
    intro P hP
    induction P with
    | nil => intro s; rfl
    | cons p P ih =>
      intro s
      rw [forL_cons, forL_cons, vtkBody_ok (hP p List.mem_cons_self) (h3 _ _)]
      congr 1
      funext s'
      exact ih (fun q hq => hP q (List.mem_cons_of_mem _ hq)) s'
  rw [e _ hmem, store_overflow (g := fun p : ℚ × ℚ => .ok (f p.1 p.2 ++ [p.1, p.2]))
    (row := fun p : ℚ × ℚ => f p.1 p.2 ++ [p.1, p.2]) (fun _ _ => rfl) (Nat.zero_le _)]
  · rfl
  · have : (((List.range (n + 1)).map fun i => vtkParam n i).flatMap
        (fun a => ((List.range (n + 1)).map fun i => vtkParam n i).map fun b => (a, b))).length
          = (n + 1) * (n + 1) := by
      simp [List.length_flatMap, Function.comp_def]
    rw [this]
    simp only [zeros2, List.length_replicate]
    nlinarith

/-- **C97.** For a surface that can be evaluated exactly on the unit square, the sampling loop returns
if and only if both counts are `n_tri + 1`. -/
theorem vtk_double_returns_iff (hn : 1 ≤ n) (hn' : n ≤ 2 ^ 50)
    {single : ℚ → ℚ → Py (List ℚ)} {f : ℚ → ℚ → List ℚ}
    (hin : ∀ u v, 0 ≤ u → u ≤ 1 → 0 ≤ v → v ≤ 1 → single u v = .ok (f u v))
    (hout : ∀ u v, 1 < v → Raises (single u v)) (h3 : ∀ u v, (f u v).length = 3) :
    (∃ spts, vtkSamplesFl fl64 single n = .ok spts) ↔ vtkLen n = n + 1 ∧ vtkSize n = n + 1 := by
  have hp := (vtk_param hn hn').2.1
  have hf : ∀ i ≤ n, ∀ j ≤ n, single (vtkParam n i) (vtkParam n j)
      = .ok (f (vtkParam n i) (vtkParam n j)) := fun i hi j hj =>
    hin _ _ (hp i hi).1 (hp i hi).2 (hp j hj).1 (hp j hj).2
  constructor
  · rintro ⟨spts, hr⟩
    rcases vtk_len hn hn' with hl | hl
    · rcases vtk_size hn hn' with hs | hs
      · rw [vtk_double_overflow hn hl hs hf h3] at hr
        cases hr
      · exact ⟨hl, hs⟩
    · obtain ⟨e, he⟩ := vtk_double_beyond hn hn' hl hout
      rw [he] at hr
      cases hr
  · rintro ⟨hl, hs⟩
    exact ⟨_, vtk_double_grid hn hl hs hf h3⟩

/-- **C97.** With a power of two both counts are exact. -/
theorem vtk_double_pow_two (k : ℕ) (hk : k ≤ 50) :
    vtkLen (2 ^ k) = (2 ^ k : ℕ) + 1 ∧ vtkSize (2 ^ k) = (2 ^ k : ℕ) + 1 := by
  have h2 : ((2 ^ k : ℕ) : ℚ) = 2 ^ (k : ℤ) := by push_cast; rfl
  have hk0 : (0 : ℚ) < 2 ^ (k : ℤ) := zpow_pos (by norm_num) _
  have hb : 2 ^ k + 1 ≤ 2 ^ 53 := by
    have := Nat.pow_le_pow_right (n := 2) (by norm_num) hk
    omega
  have s : vtkStep (2 ^ k) = 2 ^ (-(k : ℤ)) := by
    unfold vtkStep
    rw [h2, one_div, ← zpow_neg]
    simpa using fl64_dyadic (m := 1) (by norm_num) (-(k : ℤ))
  have t : vtkStop (2 ^ k) = ((2 ^ k + 1 : ℕ) : ℚ) * 2 ^ (-(k : ℤ)) := by
    unfold vtkStop
    rw [s, ← fl64_dyadic hb]
    congr 1
    push_cast
    rw [add_mul, ← zpow_natCast, ← zpow_add₀ (by norm_num)]
    simp
  have e1 : vtkStop (2 ^ k) / vtkStep (2 ^ k) = ((2 ^ k + 1 : ℕ) : ℚ) := by
    rw [t, s, mul_div_assoc, div_self (zpow_pos (by norm_num) _).ne', mul_one]
  have e2 : vtkStop (2 ^ k) * (2 ^ k : ℕ) = ((2 ^ k + 1 : ℕ) : ℚ) := by
    rw [t, h2, mul_assoc, ← zpow_add₀ (by norm_num)]
    simp
  unfold vtkLen vtkSize
  rw [e1, e2, fl64_natCast hb]
  constructor
  · rw [Int.ceil_natCast]; push_cast; rfl
  · rw [Int.floor_natCast]; push_cast; rfl

end loop

/-- **C97.** `n_tri = 6` and `n_tri = 9` raise for every surface object. -/
theorem vtk_double_six (s : Surface ℚ) : Raises (vtkSamplesFl fl64 s.singlePoint (6 : ℕ)) ∧
    Raises (vtkSamplesFl fl64 s.singlePoint (9 : ℕ)) := by
  have hout : ∀ u v : ℚ, 1 < v → Raises (s.singlePoint u v) := fun u v hv =>
    ⟨_, (surface_point_rejects s (u := u) (v := v) fun h => not_le.2 hv h.2.2)⟩
  exact ⟨vtk_double_beyond (by norm_num) (by norm_num) (by decide +kernel) hout,
    vtk_double_beyond (by norm_num) (by norm_num) (by decide +kernel) hout⟩

/-- **C97.** `n_tri = 47` is an `IndexError` for every surface that can be evaluated at the samples, the
default `n_tri = 100` is fine. -/
theorem vtk_double_cases : (vtkLen 47 = 48 ∧ vtkSize 47 = 47) ∧ (vtkLen 100 = 101 ∧ vtkSize 100 = 101) ∧
    (vtkLen 6 = 8 ∧ vtkSize 6 = 7) ∧ (vtkLen 49 = 51 ∧ vtkParam 49 49 < 1) := by decide +kernel

/-- The surface `(u, v, u v)` on the unit square. -/
def exSaddle (u v : ℚ) : Py (List ℚ) :=
  if validateKnot u = false then .error .valueError
  else if validateKnot v = false then .error .valueError
  else .ok [u, v, u * v]

example : (¬ ∃ spts, vtkSamplesFl fl64 exSaddle (6 : ℕ) = .ok spts) ∧
    vtkSamplesFl fl64 exSaddle (47 : ℕ) = .error .indexError ∧
    (∃ spts, vtkSamplesFl fl64 exSaddle (100 : ℕ) = .ok spts) ∧
    ∃ spts, vtkSamplesFl fl64 exSaddle (64 : ℕ) = .ok spts := by
  have hin : ∀ u v : ℚ, 0 ≤ u → u ≤ 1 → 0 ≤ v → v ≤ 1 → exSaddle u v = .ok [u, v, u * v] := by
    intro u v h1 h2 h3 h4
    simp [exSaddle, validateKnot, h1, h2, h3, h4]
  have hout : ∀ u v : ℚ, 1 < v → Raises (exSaddle u v) := by
    intro u v h
    have : validateKnot v = false := by simp [validateKnot, h]
    unfold exSaddle
    rw [if_pos this]
    split <;> exact ⟨_, rfl⟩
  have it := fun (n : ℕ) (h1 : 1 ≤ n) (h2 : n ≤ 2 ^ 50) =>
    vtk_double_returns_iff h1 h2 hin hout (fun _ _ => rfl)
  refine ⟨?_, ?_, ?_, ?_⟩
  · rw [it 6 (by norm_num) (by norm_num)]
    decide +kernel
  · refine vtk_double_overflow (f := fun u v => [u, v, u * v]) (by norm_num) (by decide +kernel)
      (by decide +kernel) (fun i hi j hj => ?_) (fun _ _ => rfl)
    have hp := (vtk_param (n := 47) (by norm_num) (by norm_num)).2.1
    exact hin _ _ (hp i hi).1 (hp i hi).2 (hp j hj).1 (hp j hj).2
  · rw [it 100 (by norm_num) (by norm_num)]
    decide +kernel
  · rw [it 64 (by norm_num) (by norm_num)]
    exact vtk_double_pow_two 6 (by norm_num)

end PySpline
