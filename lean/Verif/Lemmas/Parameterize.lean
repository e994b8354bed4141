import Verif.Model.Parameterize
import Verif.Lemmas.Curve

/-!
# Helper lemmas for the point inversion functions
-/

set_option linter.unusedSectionVars false

namespace PySpline

/-- Partial-correctness rule for `forN`. -/
theorem forN_inv_of_ok {σ : Type} {a b : ℕ} {s t : σ} {f : ℕ → σ → Py σ} (Inv : σ → Prop)
    (h : forN a b s f = .ok t) (h0 : Inv s)
    (hstep : ∀ i s s', a ≤ i → i < b → Inv s → f i s = .ok s' → Inv s') : Inv t := by
  induction hn : b - a generalizing a s with
  | zero =>
    rw [forN_empty (by omega)] at h
    cases h
    exact h0
  | succ n ih =>
    rw [forN_succ_left (by omega)] at h
    cases hf : f a s with
    | error e => rw [hf] at h; cases h
    | ok s' =>
      rw [hf, ok_bind] at h
      exact ih h (hstep a s s' le_rfl (by omega) h0 hf)
        (fun i s s' h1 h2 => hstep i s s' (by omega) h2) (by omega)

/-- Two loops whose bodies agree in every state they can reach agree. -/
theorem forN_congr {σ : Type} {a b : ℕ} {s : σ} {f g : ℕ → σ → Py σ}
    (h : ∀ i s, a ≤ i → i < b → f i s = g i s) : forN a b s f = forN a b s g := by
  induction hn : b - a generalizing a s with
  | zero => rw [forN_empty (by omega), forN_empty (by omega)]
  | succ n ih =>
    rw [forN_succ_left (by omega), forN_succ_left (by omega), h a s le_rfl (by omega)]
    cases g a s with
    | error e => rfl
    | ok s' => exact ih (fun i s h1 h2 => h i s (by omega) h2) (by omega)

section
variable {K : Type} [Field K] [LinearOrder K] [IsStrictOrderedRing K]

theorem grid_length (N : ℕ) : (grid N : List K).length = N := by simp [grid]

theorem grid_getD {N k : ℕ} (h : k < N) : (grid N : List K).getD k 0 = (k : K) / ((N : K) - 1) := by
  unfold grid
  rw [List.getD_eq_getElem?_getD, List.getElem?_map, List.getElem?_range h]
  simp only [Option.map_some, Option.getD_some]
  ring

theorem pyGet_grid {N k : ℕ} (h : k < N) :
    pyGet (grid N : List K) (k : ℤ) = .ok ((k : K) / ((N : K) - 1)) := by
  rw [pyGet_nat _ _ k 0 rfl (by rw [grid_length]; exact h), grid_getD h]

theorem pyGet_grid_zero {N : ℕ} (h : 0 < N) : pyGet (grid N : List K) 0 = .ok 0 := by
  have := pyGet_grid (K := K) h
  simpa using this

theorem grid_mem_unit {N k : ℕ} (h : k < N) :
    (0 : K) ≤ (k : K) / ((N : K) - 1) ∧ (k : K) / ((N : K) - 1) ≤ 1 := by
  have h1 : (k : K) ≤ (N : K) - 1 := by
    rw [le_sub_iff_add_le]
    exact_mod_cast h
  have h0 : (0 : K) ≤ (k : K) := Nat.cast_nonneg k
  exact ⟨div_nonneg h0 (h0.trans h1), div_le_one_of_le₀ h1 (h0.trans h1)⟩

/-- State of the search loops after `t` candidates: nothing below `1e6` seen yet, or candidate `k`
is the first nearest one. -/
def Best (dist : ℕ → K) (t : ℕ) (m : K) (k : ℕ) : Prop :=
  (m = hugeDist ∧ k = 0 ∧ ∀ j < t, hugeDist ≤ dist j) ∨
  (k < t ∧ m = dist k ∧ dist k < hugeDist ∧ (∀ j < t, dist k ≤ dist j) ∧ ∀ j < k, dist k < dist j)

theorem Best.take {dist : ℕ → K} {t : ℕ} {m : K} {k : ℕ} (h : Best dist t m k) (hlt : dist t < m) :
    Best dist (t + 1) (dist t) t := by
  refine Or.inr ?_
  rcases h with ⟨h1, -, h3⟩ | ⟨h1, h2, h3, h4, h5⟩
  · refine ⟨by omega, rfl, by rwa [h1] at hlt, fun j hj => ?_, fun j hj => ?_⟩
    · rcases Nat.lt_succ_iff_lt_or_eq.1 hj with hj | rfl
      · exact (hlt.le.trans_eq h1).trans (h3 j hj)
      · exact le_rfl
    · rw [h1] at hlt
      exact hlt.trans_le (h3 j hj)
  · rw [h2] at hlt
    refine ⟨by omega, rfl, hlt.trans h3, fun j hj => ?_, fun j hj => hlt.trans_le (h4 j hj)⟩
    rcases Nat.lt_succ_iff_lt_or_eq.1 hj with hj | rfl
    · exact hlt.le.trans (h4 j hj)
    · exact le_rfl

theorem Best.keep {dist : ℕ → K} {t : ℕ} {m : K} {k : ℕ} (h : Best dist t m k) (hge : ¬ dist t < m) :
    Best dist (t + 1) m k := by
  have hge := not_lt.1 hge
  rcases h with ⟨h1, h2, h3⟩ | ⟨h1, h2, h3, h4, h5⟩
  · refine Or.inl ⟨h1, h2, fun j hj => ?_⟩
    rcases Nat.lt_succ_iff_lt_or_eq.1 hj with hj | rfl
    · exact h3 j hj
    · exact h1 ▸ hge
  · refine Or.inr ⟨by omega, h2, h3, fun j hj => ?_, h5⟩
    rcases Nat.lt_succ_iff_lt_or_eq.1 hj with hj | rfl
    · exact h4 j hj
    · exact h2 ▸ hge

theorem Best.lt {dist : ℕ → K} {t : ℕ} {m : K} {k : ℕ} (h : Best dist t m k) (ht : 0 < t) : k < t := by
  rcases h with ⟨-, h2, -⟩ | ⟨h1, -⟩ <;> omega

theorem Best.nearest {dist : ℕ → K} {t : ℕ} {m : K} {k : ℕ} (h : Best dist t m k) :
    ((∃ j < t, dist j < hugeDist) → (∀ j < t, dist k ≤ dist j) ∧ ∀ j < k, dist k < dist j) ∧
      ((∀ j < t, hugeDist ≤ dist j) → k = 0) := by
  rcases h with ⟨h1, h2, h3⟩ | ⟨h1, h2, h3, h4, h5⟩
  · exact ⟨fun ⟨j, hj, hlt⟩ => absurd (h3 j hj) (not_le.2 hlt), fun _ => h2⟩
  · exact ⟨fun _ => ⟨h4, h5⟩, fun h => absurd (h k h1) (not_le.2 h3)⟩

theorem vsub_same (a b : List K) (h : a.length = b.length) :
    vsub a b = .ok (List.zipWith (· - ·) a b) := by simp [vsub, h]

theorem clamp01_mem (x : K) : 0 ≤ clamp01 x ∧ clamp01 x ≤ 1 := by
  unfold clamp01
  split
  · exact ⟨le_rfl, zero_le_one⟩
  split
  · exact ⟨zero_le_one, le_rfl⟩
  · exact ⟨by linarith, by linarith⟩

theorem newtonStep_mem {nm : Num K} {ui num denom u : K} (h : newtonStep nm ui num denom = .ok u) :
    0 ≤ u ∧ u ≤ 1 := by
  unfold newtonStep at h
  split at h
  · split at h
    · cases h
    split at h <;> cases h
    · exact ⟨le_rfl, zero_le_one⟩
    · exact ⟨zero_le_one, le_rfl⟩
  · cases h
    exact clamp01_mem _

theorem bind_eq_ok {α β : Type} {x : Py α} {f : α → Py β} {b : β} (h : (x >>= f) = .ok b) :
    ∃ a, x = .ok a ∧ f a = .ok b := by
  cases x with
  | error e => cases h
  | ok a => exact ⟨a, rfl, h⟩

/-- Every value returned by the grid search is a grid parameter. -/
theorem initialGuessCurve_grid {nm : Num K} {C : CurveLike K} {point : List K} {u : K}
    (h : initialGuessCurve nm C point = .ok u) :
    ∃ k < 2 * C.numCtrl, u = (k : K) / (((2 * C.numCtrl : ℕ) : K) - 1) := by
  unfold initialGuessCurve at h
  dsimp only at h
  obtain ⟨a, ha, h⟩ := bind_eq_ok h
  have hN : 0 < 2 * C.numCtrl := by
    by_contra hc
    have : 2 * C.numCtrl = 0 := by omega
    rw [this] at ha
    simp [grid, pyGet, pyIdx] at ha
  rw [pyGet_grid_zero hN] at ha
  cases ha
  obtain ⟨⟨m, u'⟩, hl, h⟩ := bind_eq_ok h
  cases h
  refine forN_inv_of_ok (fun st : K × K => ∃ k < 2 * C.numCtrl,
    st.2 = (k : K) / (((2 * C.numCtrl : ℕ) : K) - 1)) hl ⟨0, hN, by simp⟩ ?_
  rintro i ⟨m, x⟩ ⟨m', x'⟩ - hi hinv hf
  dsimp only at hf hinv ⊢
  rw [pyGet_grid hi, ok_bind] at hf
  obtain ⟨q, -, hf⟩ := bind_eq_ok hf
  obtain ⟨r, -, hf⟩ := bind_eq_ok hf
  split at hf <;> cases hf
  · exact ⟨i, hi, rfl⟩
  · exact hinv

theorem initialGuessSurf_grid {nm : Num K} {S : SurfLike K} {point : List K} {uv : K × K}
    (h : initialGuessSurf nm S point = .ok uv) :
    (∃ k < 2 * S.numU, uv.1 = (k : K) / (((2 * S.numU : ℕ) : K) - 1)) ∧
      ∃ k < 2 * S.numV, uv.2 = (k : K) / (((2 * S.numV : ℕ) : K) - 1) := by
  unfold initialGuessSurf at h
  dsimp only at h
  obtain ⟨a, ha, h⟩ := bind_eq_ok h
  obtain ⟨b, hb, h⟩ := bind_eq_ok h
  have hpos : ∀ (n : ℕ) (x : K), pyGet (grid (2 * n) : List K) 0 = .ok x → 0 < 2 * n := by
    intro n x hx
    by_contra hc
    have : 2 * n = 0 := by omega
    rw [this] at hx
    simp [grid, pyGet, pyIdx] at hx
  have hU := hpos _ _ ha
  have hV := hpos _ _ hb
  rw [pyGet_grid_zero hU] at ha
  rw [pyGet_grid_zero hV] at hb
  cases ha
  cases hb
  obtain ⟨⟨m, uv'⟩, hl, h⟩ := bind_eq_ok h
  cases h
  have key := forN_inv_of_ok (fun st : K × K × K =>
    (∃ k < 2 * S.numU, st.2.1 = (k : K) / (((2 * S.numU : ℕ) : K) - 1)) ∧
      ∃ k < 2 * S.numV, st.2.2 = (k : K) / (((2 * S.numV : ℕ) : K) - 1)) hl
    ⟨⟨0, hU, by simp⟩, ⟨0, hV, by simp⟩⟩ ?_
  · exact key
  intro i st st' _ hi hinv hf
  refine forN_inv_of_ok (fun st : K × K × K =>
    (∃ k < 2 * S.numU, st.2.1 = (k : K) / (((2 * S.numU : ℕ) : K) - 1)) ∧
      ∃ k < 2 * S.numV, st.2.2 = (k : K) / (((2 * S.numV : ℕ) : K) - 1)) hf hinv ?_
  rintro j ⟨m, x⟩ ⟨m', x'⟩ - hj hinv hf
  dsimp only at hf hinv ⊢
  rw [pyGet_grid hi, ok_bind, pyGet_grid hj, ok_bind] at hf
  obtain ⟨q, -, hf⟩ := bind_eq_ok hf
  obtain ⟨r, -, hf⟩ := bind_eq_ok hf
  split at hf <;> cases hf
  · exact ⟨⟨i, hi, rfl⟩, ⟨j, hj, rfl⟩⟩
  · exact hinv

/-! ## Congruence -/

/-- Two black-box curves that cannot be told apart on `[0, 1]`. -/
structure CurveLike.AgreeOnUnit (C D : CurveLike K) : Prop where
  num : C.numCtrl = D.numCtrl
  pt : ∀ u, 0 ≤ u → u ≤ 1 → C.singlePoint u = D.singlePoint u
  ders : ∀ u, 0 ≤ u → u ≤ 1 → C.ders u = D.ders u

theorem initialGuessCurve_congr {nm : Num K} {C D : CurveLike K} (h : C.AgreeOnUnit D)
    (point : List K) : initialGuessCurve nm C point = initialGuessCurve nm D point := by
  unfold initialGuessCurve
  rw [← h.num]
  dsimp only
  congr 1
  ext1 u0
  rw [forN_congr]
  rintro i ⟨m, x⟩ - hi
  dsimp only
  rw [pyGet_grid hi, ok_bind, ok_bind, h.pt _ (grid_mem_unit hi).1 (grid_mem_unit hi).2]

theorem curveInfo_congr {C D : CurveLike K} (h : C.AgreeOnUnit D) {u : K} (h0 : 0 ≤ u) (h1 : u ≤ 1) :
    curveInfo C u = curveInfo D u := by
  unfold curveInfo
  rw [h.ders u h0 h1]

theorem curveCond1_congr {nm : Num K} {C D : CurveLike K} (h : C.AgreeOnUnit D) {u : K} (h0 : 0 ≤ u)
    (h1 : u ≤ 1) (point : List K) (eps : K) :
    curveCond1 nm C point eps u = curveCond1 nm D point eps u := by
  unfold curveCond1
  rw [h.pt u h0 h1]

theorem curveLoop_congr {nm : Num K} {C D : CurveLike K} (h : C.AgreeOnUnit D) (point : List K)
    (eps1 eps2 : K) (maxIter : ℤ) (fuel : ℕ) : ∀ (j : ℤ) (s : CurveState K),
    curveLoop nm C point eps1 eps2 maxIter fuel j s
      = curveLoop nm D point eps1 eps2 maxIter fuel j s := by
  induction fuel with
  | zero => intro j s; rfl
  | succ fuel ih =>
    intro j s
    unfold curveLoop
    congr 1; ext1 r
    congr 1; ext1 num
    congr 1; ext1 d
    cases hn : newtonStep nm s.u num (d + nm.norm s.du ^ 2) with
    | error e => rfl
    | ok u' =>
      obtain ⟨h0, h1⟩ := newtonStep_mem hn
      simp only [ok_bind]
      rw [curveInfo_congr h h0 h1, curveCond1_congr h h0 h1]
      simp only [ih]

theorem curveInfo_u {C : CurveLike K} {u : K} {s : CurveState K} (h : curveInfo C u = .ok s) :
    s.u = u := by
  unfold curveInfo at h
  obtain ⟨a, -, h⟩ := bind_eq_ok h
  obtain ⟨a, -, h⟩ := bind_eq_ok h
  obtain ⟨a, -, h⟩ := bind_eq_ok h
  obtain ⟨a, -, h⟩ := bind_eq_ok h
  cases h
  rfl

theorem curveLoop_mem {nm : Num K} {C : CurveLike K} {point : List K}
    {eps1 eps2 : K} {maxIter : ℤ} (fuel : ℕ) : ∀ (j : ℤ) (s : CurveState K) (u : K),
    0 ≤ s.u → s.u ≤ 1 → curveLoop nm C point eps1 eps2 maxIter fuel j s = .ok u → 0 ≤ u ∧ u ≤ 1 := by
  induction fuel with
  | zero => intro j s u _ _ h; cases h
  | succ fuel ih =>
    intro j s u h0 h1 h
    unfold curveLoop at h
    obtain ⟨r, -, h⟩ := bind_eq_ok h
    obtain ⟨num, -, h⟩ := bind_eq_ok h
    obtain ⟨d, -, h⟩ := bind_eq_ok h
    obtain ⟨u', hu', h⟩ := bind_eq_ok h
    obtain ⟨h0', h1'⟩ := newtonStep_mem hu'
    split at h
    · cases h; exact ⟨h0, h1⟩
    obtain ⟨s', hs', h⟩ := bind_eq_ok h
    have hu := curveInfo_u hs'
    obtain ⟨c1, -, h⟩ := bind_eq_ok h
    split at h
    · cases h; exact ⟨h0, h1⟩
    obtain ⟨c2, -, h⟩ := bind_eq_ok h
    split at h
    · cases h; exact ⟨h0, h1⟩
    split at h
    · cases h; rw [hu]; exact ⟨h0', h1'⟩
    · exact ih _ _ _ (by rw [hu]; exact h0') (by rw [hu]; exact h1') h

/-- More fuel than iterations changes nothing. -/
theorem curveLoop_fuel {nm : Num K} {C : CurveLike K} {point : List K}
    {eps1 eps2 : K} {maxIter : ℤ} (fuel : ℕ) : ∀ (j : ℤ) (s : CurveState K) (extra : ℕ),
    maxIter + 2 - j ≤ fuel → 1 ≤ fuel →
    curveLoop nm C point eps1 eps2 maxIter (fuel + extra) j s
      = curveLoop nm C point eps1 eps2 maxIter fuel j s := by
  induction fuel with
  | zero => intro j s extra _ h; omega
  | succ fuel ih =>
    intro j s extra hj _
    rw [Nat.add_right_comm]
    unfold curveLoop
    by_cases hm : j > maxIter
    · simp only [if_pos hm]
    · simp only [if_neg hm]
      have : ∀ s', curveLoop nm C point eps1 eps2 maxIter (fuel + extra) (j + 1) s'
          = curveLoop nm C point eps1 eps2 maxIter fuel (j + 1) s' := fun s' =>
        ih (j + 1) s' extra (by push_cast at hj; omega) (by push_cast at hj; omega)
      simp only [this]

theorem bind_ne_diverged {α β : Type} {x : Py α} {f : α → Py β} (hx : x ≠ .error .diverged)
    (hf : ∀ a, x = .ok a → f a ≠ .error .diverged) : (x >>= f) ≠ .error .diverged := by
  cases x with
  | error e => intro h; apply hx; cases h; rfl
  | ok a => exact hf a rfl

theorem pyGet_ne_diverged {α : Type} (l : List α) (i : ℤ) : pyGet l i ≠ .error .diverged := by
  unfold pyGet pyIdx
  split
  · rw [ok_bind]; split <;> simp
  split
  · rw [ok_bind]; split <;> simp
  · simp

theorem vsub_ne_diverged (a b : List K) : vsub a b ≠ .error .diverged := by
  unfold vsub
  repeat' split
  all_goals simp

theorem dot_ne_diverged (a b : List K) : dot a b ≠ .error .diverged := by
  unfold dot
  split <;> simp

theorem newtonStep_ne_diverged (nm : Num K) (a b c : K) : newtonStep nm a b c ≠ .error .diverged := by
  unfold newtonStep
  repeat' split
  all_goals simp

/-- A black box whose methods do not hang. -/
structure CurveLike.Total (C : CurveLike K) : Prop where
  pt : ∀ u, C.singlePoint u ≠ .error .diverged
  ders : ∀ u, C.ders u ≠ .error .diverged

theorem curveInfo_ne_diverged {C : CurveLike K} (hC : C.Total) (u : K) :
    curveInfo C u ≠ .error .diverged := by
  unfold curveInfo
  exact bind_ne_diverged (hC.ders u) fun _ _ => bind_ne_diverged (pyGet_ne_diverged _ _) fun _ _ =>
    bind_ne_diverged (pyGet_ne_diverged _ _) fun _ _ =>
    bind_ne_diverged (pyGet_ne_diverged _ _) fun _ _ => by simp

theorem curveCond1_ne_diverged {nm : Num K} {C : CurveLike K} (hC : C.Total) (p : List K) (e u : K) :
    curveCond1 nm C p e u ≠ .error .diverged := by
  unfold curveCond1
  exact bind_ne_diverged (hC.pt u) fun _ _ => bind_ne_diverged (vsub_ne_diverged _ _) fun _ _ => by simp

theorem curveCond2_ne_diverged {nm : Num K} (p : List K) (e : K) (s : CurveState K) :
    curveCond2 nm p e s ≠ .error .diverged := by
  unfold curveCond2
  exact bind_ne_diverged (vsub_ne_diverged _ _) fun _ _ =>
    bind_ne_diverged (dot_ne_diverged _ _) fun _ _ => by simp

theorem curveLoop_ne_diverged {nm : Num K} {C : CurveLike K} (hC : C.Total) {point : List K}
    {eps1 eps2 : K} {maxIter : ℤ} (fuel : ℕ) : ∀ (j : ℤ) (s : CurveState K),
    maxIter + 2 - j ≤ fuel → 1 ≤ fuel →
    curveLoop nm C point eps1 eps2 maxIter fuel j s ≠ .error .diverged := by
  induction fuel with
  | zero => intro j s _ h; omega
  | succ fuel ih =>
    intro j s hj _
    unfold curveLoop
    refine bind_ne_diverged (vsub_ne_diverged _ _) fun _ _ => bind_ne_diverged (dot_ne_diverged _ _)
      fun _ _ => bind_ne_diverged (dot_ne_diverged _ _) fun _ _ =>
      bind_ne_diverged (newtonStep_ne_diverged _ _ _ _) fun _ _ => ?_
    split
    · simp
    refine bind_ne_diverged (curveInfo_ne_diverged hC _) fun _ _ =>
      bind_ne_diverged (curveCond1_ne_diverged hC _ _ _) fun _ _ => ?_
    split
    · simp
    refine bind_ne_diverged (curveCond2_ne_diverged _ _ _) fun _ _ => ?_
    split
    · simp
    split
    · simp
    · exact ih _ _ (by push_cast at hj; omega) (by push_cast at hj; omega)

theorem forN_ne_diverged {σ : Type} {a b : ℕ} {s : σ} {f : ℕ → σ → Py σ}
    (h : ∀ i s, f i s ≠ .error .diverged) : forN a b s f ≠ .error .diverged := by
  induction hn : b - a generalizing a s with
  | zero => rw [forN_empty (by omega)]; simp
  | succ n ih =>
    rw [forN_succ_left (by omega)]
    exact bind_ne_diverged (h a s) fun s' _ => ih (by omega)

theorem initialGuessCurve_ne_diverged {nm : Num K} {C : CurveLike K} (hC : C.Total) (p : List K) :
    initialGuessCurve nm C p ≠ .error .diverged := by
  unfold initialGuessCurve
  dsimp only
  refine bind_ne_diverged (pyGet_ne_diverged _ _) fun _ _ => bind_ne_diverged
    (forN_ne_diverged ?_) fun _ _ => by simp
  rintro i ⟨m, x⟩
  refine bind_ne_diverged (pyGet_ne_diverged _ _) fun _ _ => bind_ne_diverged (hC.pt _) fun _ _ =>
    bind_ne_diverged (vsub_ne_diverged _ _) fun _ _ => ?_
  dsimp only
  split <;> simp

/-! ## Surfaces -/

/-- Two black-box surfaces that cannot be told apart on the unit square. -/
structure SurfLike.AgreeOnUnit (S T : SurfLike K) : Prop where
  numU : S.numU = T.numU
  numV : S.numV = T.numV
  pt : ∀ u v, 0 ≤ u → u ≤ 1 → 0 ≤ v → v ≤ 1 → S.singlePoint u v = T.singlePoint u v
  ders : ∀ u v, 0 ≤ u → u ≤ 1 → 0 ≤ v → v ≤ 1 → S.ders u v = T.ders u v

/-- A black box whose methods do not hang. -/
structure SurfLike.Total (S : SurfLike K) : Prop where
  pt : ∀ u v, S.singlePoint u v ≠ .error .diverged
  ders : ∀ u v, S.ders u v ≠ .error .diverged

theorem initialGuessSurf_congr {nm : Num K} {S T : SurfLike K} (hU : S.numU = T.numU)
    (hV : S.numV = T.numV)
    (hpt : ∀ u v, 0 ≤ u → u ≤ 1 → 0 ≤ v → v ≤ 1 → S.singlePoint u v = T.singlePoint u v)
    (point : List K) : initialGuessSurf nm S point = initialGuessSurf nm T point := by
  unfold initialGuessSurf
  rw [← hU, ← hV]
  dsimp only
  congr 1
  ext1 u0
  congr 1
  ext1 v0
  rw [forN_congr]
  intro i st _ hi
  refine forN_congr ?_
  rintro j ⟨m, x⟩ - hj
  dsimp only
  rw [pyGet_grid hi, ok_bind, ok_bind, pyGet_grid hj, ok_bind, ok_bind,
    hpt _ _ (grid_mem_unit hi).1 (grid_mem_unit hi).2 (grid_mem_unit hj).1 (grid_mem_unit hj).2]

theorem surfStep_mem {nm : Num K} {S : SurfLike K} {p : List K} {ui vi : K} {d : SurfDers K}
    {uv : K × K} (h : surfStep nm S p ui vi d = .ok uv) :
    (0 ≤ uv.1 ∧ uv.1 ≤ 1) ∧ 0 ≤ uv.2 ∧ uv.2 ≤ 1 := by
  unfold surfStep at h
  obtain ⟨q, -, h⟩ := bind_eq_ok h
  obtain ⟨r, -, h⟩ := bind_eq_ok h
  obtain ⟨f, -, h⟩ := bind_eq_ok h
  obtain ⟨g, -, h⟩ := bind_eq_ok h
  obtain ⟨ruu, -, h⟩ := bind_eq_ok h
  obtain ⟨uv, -, h⟩ := bind_eq_ok h
  obtain ⟨ruv, -, h⟩ := bind_eq_ok h
  obtain ⟨rvv, -, h⟩ := bind_eq_ok h
  dsimp only at h
  split at h
  · cases h
  · cases h
    exact ⟨clamp01_mem _, clamp01_mem _⟩

theorem surfStep_congr {nm : Num K} {S T : SurfLike K} {u v : K}
    (h : S.singlePoint u v = T.singlePoint u v) (p : List K) (d : SurfDers K) :
    surfStep nm S p u v d = surfStep nm T p u v d := by
  unfold surfStep
  rw [h]

theorem surfCond1_congr {nm : Num K} {S T : SurfLike K} {u v : K}
    (h : S.singlePoint u v = T.singlePoint u v) (p : List K) (e : K) :
    surfCond1 nm S p e u v = surfCond1 nm T p e u v := by
  unfold surfCond1
  rw [h]

theorem surfCond2_congr {nm : Num K} {S T : SurfLike K} {u v : K}
    (h : S.singlePoint u v = T.singlePoint u v) (p : List K) (e : K) (d : SurfDers K) :
    surfCond2 nm S p e u v d = surfCond2 nm T p e u v d := by
  unfold surfCond2
  rw [h]

theorem surfInfo_congr {S T : SurfLike K} {u v : K}
    (h : S.ders u v = T.ders u v) : surfInfo S u v = surfInfo T u v := by
  unfold surfInfo
  rw [h]

theorem surfLoop_congr {nm : Num K} {S T : SurfLike K} (h : S.AgreeOnUnit T) (point : List K)
    (eps1 eps2 : K) (maxIter : ℤ) (fuel : ℕ) : ∀ (j : ℤ) (u v : K) (d : SurfDers K),
    0 ≤ u → u ≤ 1 → 0 ≤ v → v ≤ 1 →
    surfLoop nm S point eps1 eps2 maxIter fuel j u v d
      = surfLoop nm T point eps1 eps2 maxIter fuel j u v d := by
  induction fuel with
  | zero => intros; rfl
  | succ fuel ih =>
    intro j u v d hu0 hu1 hv0 hv1
    unfold surfLoop
    rw [surfStep_congr (h.pt u v hu0 hu1 hv0 hv1), surfInfo_congr (h.ders u v hu0 hu1 hv0 hv1)]
    cases hn : surfStep nm T point u v d with
    | error e => rfl
    | ok uv =>
      obtain ⟨⟨h1, h2⟩, h3, h4⟩ := surfStep_mem hn
      obtain ⟨u', v'⟩ := uv
      simp only [ok_bind]
      have hp := h.pt u' v' h1 h2 h3 h4
      rw [surfCond1_congr hp]
      simp only [surfCond2_congr hp, ih _ u' v' _ h1 h2 h3 h4]

theorem surfLoop_mem {nm : Num K} {S : SurfLike K} {point : List K}
    {eps1 eps2 : K} {maxIter : ℤ} (fuel : ℕ) : ∀ (j : ℤ) (u v : K) (d : SurfDers K) (uv : K × K),
    surfLoop nm S point eps1 eps2 maxIter fuel j u v d = .ok uv →
    (0 ≤ uv.1 ∧ uv.1 ≤ 1) ∧ 0 ≤ uv.2 ∧ uv.2 ≤ 1 := by
  induction fuel with
  | zero => intro j u v d uv h; cases h
  | succ fuel ih =>
    intro j u v d uv h
    unfold surfLoop at h
    obtain ⟨⟨u', v'⟩, hs, h⟩ := bind_eq_ok h
    have hm := surfStep_mem hs
    dsimp only at h
    obtain ⟨w, -, h⟩ := bind_eq_ok h
    split at h
    · cases h; exact hm
    obtain ⟨d', -, h⟩ := bind_eq_ok h
    obtain ⟨c1, -, h⟩ := bind_eq_ok h
    split at h
    · cases h; exact hm
    obtain ⟨c2, -, h⟩ := bind_eq_ok h
    split at h
    · cases h; exact hm
    split at h
    · cases h; exact hm
    · exact ih _ _ _ _ _ h

theorem surfLoop_fuel {nm : Num K} {S : SurfLike K} {point : List K}
    {eps1 eps2 : K} {maxIter : ℤ} (fuel : ℕ) : ∀ (j : ℤ) (u v : K) (d : SurfDers K) (extra : ℕ),
    maxIter + 1 - j ≤ fuel → 1 ≤ fuel →
    surfLoop nm S point eps1 eps2 maxIter (fuel + extra) j u v d
      = surfLoop nm S point eps1 eps2 maxIter fuel j u v d := by
  induction fuel with
  | zero => intro j u v d extra _ h; omega
  | succ fuel ih =>
    intro j u v d extra hj _
    rw [Nat.add_right_comm]
    unfold surfLoop
    by_cases hm : j ≥ maxIter
    · simp only [if_pos hm]
    · simp only [if_neg hm]
      have : ∀ u v d, surfLoop nm S point eps1 eps2 maxIter (fuel + extra) (j + 1) u v d
          = surfLoop nm S point eps1 eps2 maxIter fuel (j + 1) u v d := fun u v d =>
        ih (j + 1) u v d extra (by push_cast at hj; omega) (by push_cast at hj; omega)
      simp only [this]

theorem vadd_ne_diverged (a b : List K) : vadd a b ≠ .error .diverged := by
  unfold vadd
  split <;> simp

theorem surfInfo_ne_diverged {S : SurfLike K} (hS : S.Total) (u v : K) :
    surfInfo S u v ≠ .error .diverged := by
  unfold surfInfo
  exact bind_ne_diverged (hS.ders u v) fun _ _ => bind_ne_diverged (pyGet_ne_diverged _ _) fun _ _ =>
    bind_ne_diverged (pyGet_ne_diverged _ _) fun _ _ =>
    bind_ne_diverged (pyGet_ne_diverged _ _) fun _ _ =>
    bind_ne_diverged (pyGet_ne_diverged _ _) fun _ _ =>
    bind_ne_diverged (pyGet_ne_diverged _ _) fun _ _ => by simp

theorem surfCond1_ne_diverged {nm : Num K} {S : SurfLike K} (hS : S.Total) (p : List K) (e u v : K) :
    surfCond1 nm S p e u v ≠ .error .diverged := by
  unfold surfCond1
  exact bind_ne_diverged (hS.pt u v) fun _ _ => bind_ne_diverged (vsub_ne_diverged _ _) fun _ _ => by simp

theorem surfCond2_ne_diverged {nm : Num K} {S : SurfLike K} (hS : S.Total) (p : List K) (e u v : K)
    (d : SurfDers K) : surfCond2 nm S p e u v d ≠ .error .diverged := by
  unfold surfCond2
  exact bind_ne_diverged (hS.pt u v) fun _ _ => bind_ne_diverged (vsub_ne_diverged _ _) fun _ _ =>
    bind_ne_diverged (dot_ne_diverged _ _) fun _ _ =>
    bind_ne_diverged (dot_ne_diverged _ _) fun _ _ => by simp

theorem surfStep_ne_diverged {nm : Num K} {S : SurfLike K} (hS : S.Total) (p : List K) (u v : K)
    (d : SurfDers K) : surfStep nm S p u v d ≠ .error .diverged := by
  unfold surfStep
  refine bind_ne_diverged (hS.pt u v) fun _ _ => bind_ne_diverged (vsub_ne_diverged _ _) fun _ _ =>
    bind_ne_diverged (dot_ne_diverged _ _) fun _ _ =>
    bind_ne_diverged (dot_ne_diverged _ _) fun _ _ =>
    bind_ne_diverged (dot_ne_diverged _ _) fun _ _ =>
    bind_ne_diverged (dot_ne_diverged _ _) fun _ _ =>
    bind_ne_diverged (dot_ne_diverged _ _) fun _ _ =>
    bind_ne_diverged (dot_ne_diverged _ _) fun _ _ => ?_
  dsimp only
  split <;> simp

theorem surfLoop_ne_diverged {nm : Num K} {S : SurfLike K} (hS : S.Total) {point : List K}
    {eps1 eps2 : K} {maxIter : ℤ} (fuel : ℕ) : ∀ (j : ℤ) (u v : K) (d : SurfDers K),
    maxIter + 1 - j ≤ fuel → 1 ≤ fuel →
    surfLoop nm S point eps1 eps2 maxIter fuel j u v d ≠ .error .diverged := by
  induction fuel with
  | zero => intro j u v d _ h; omega
  | succ fuel ih =>
    intro j u v d hj _
    unfold surfLoop
    refine bind_ne_diverged (surfStep_ne_diverged hS _ _ _ _) ?_
    rintro ⟨u', v'⟩ -
    dsimp only
    refine bind_ne_diverged (vadd_ne_diverged _ _) fun _ _ => ?_
    split
    · simp
    refine bind_ne_diverged (surfInfo_ne_diverged hS _ _) fun _ _ =>
      bind_ne_diverged (surfCond1_ne_diverged hS _ _ _ _) fun _ _ => ?_
    split
    · simp
    refine bind_ne_diverged (surfCond2_ne_diverged hS _ _ _ _ _) fun _ _ => ?_
    split
    · simp
    split
    · simp
    · exact ih _ _ _ _ (by push_cast at hj; omega) (by push_cast at hj; omega)

theorem initialGuessSurf_ne_diverged {nm : Num K} {S : SurfLike K} (hS : S.Total) (p : List K) :
    initialGuessSurf nm S p ≠ .error .diverged := by
  unfold initialGuessSurf
  dsimp only
  refine bind_ne_diverged (pyGet_ne_diverged _ _) fun _ _ => bind_ne_diverged (pyGet_ne_diverged _ _)
    fun _ _ => bind_ne_diverged (forN_ne_diverged fun i st => forN_ne_diverged ?_) fun _ _ => by simp
  rintro j ⟨m, x⟩
  refine bind_ne_diverged (pyGet_ne_diverged _ _) fun _ _ => bind_ne_diverged (pyGet_ne_diverged _ _)
    fun _ _ => bind_ne_diverged (hS.pt _ _) fun _ _ =>
    bind_ne_diverged (vsub_ne_diverged _ _) fun _ _ => ?_
  dsimp only
  split <;> simp

/-! ## Sorting -/

/-- Rows of a given length are determined by their keys. -/
theorem sortKey_injective {order : List ℕ} {n : ℕ} (ho : ∀ i < n, i ∈ order) {a b : List K}
    (ha : a.length = n) (hb : b.length = n) (h : sortKey order a = sortKey order b) : a = b := by
  refine List.ext_getElem (ha.trans hb.symm) fun i h1 h2 => ?_
  have := (List.map_inj_left.1 h) i (ho i (by omega))
  simpa [List.getD_eq_getElem?_getD, h1, h2] using this

theorem npSortRows_perm (order : List ℕ) (rows : List (List K)) :
    (npSortRows order rows).Perm rows := List.perm_insertionSort _ _

theorem npSortRows_sorted (order : List ℕ) (rows : List (List K)) :
    (npSortRows order rows).Pairwise fun a b => sortKey order a ≤ sortKey order b := by
  have : Std.Total fun a b : List K => sortKey order a ≤ sortKey order b :=
    ⟨fun a b => le_total _ _⟩
  have : IsTrans (List K) fun a b => sortKey order a ≤ sortKey order b :=
    ⟨fun a b c => le_trans⟩
  exact List.pairwise_insertionSort _ _

theorem npSortRows_congr {order : List ℕ} {n : ℕ} (ho : ∀ i < n, i ∈ order)
    {rows rows' : List (List K)} (hlen : ∀ r ∈ rows, r.length = n) (h : rows.Perm rows') :
    npSortRows order rows = npSortRows order rows' := by
  have hp : (npSortRows order rows).Perm (npSortRows order rows') :=
    (npSortRows_perm _ _).trans (h.trans (npSortRows_perm _ _).symm)
  refine List.Perm.eq_of_pairwise ?_ (npSortRows_sorted _ _) (npSortRows_sorted _ _) hp
  intro a b ha hb h1 h2
  have ha' := hlen a ((npSortRows_perm order rows).mem_iff.1 ha)
  have hb' := hlen b (h.mem_iff.2 ((npSortRows_perm order rows').mem_iff.1 hb))
  exact sortKey_injective ho ha' hb' (le_antisymm h1 h2)

end

end PySpline
